import Verif.Model.Heap12
/-
`FQ12` with memory, access by access. Verif/Model/Heap12.lean has every function of fq6.go, fq12.go and pairing.go that
works on `FQ6` and `FQ12` objects as a function on memories; here such a function is a tree whose nodes are its accesses
to the memory in program order, so that goroutines can be interleaved between any two of them
(Verif/Spec/ThreadsFQ12.lean). An access reads or overwrites one `FQ6` or the two pointers in one `FQ12`, or makes a new
object; writing one field is a read and a write of the object. That the trees, run without interruption, are the
functions of Verif/Model/Heap12.lean is proved in Verif/Proof/HeapFQ12.lean.
-/
namespace Bls.HeapFQ12
open Bls.Heap12 (Mem aFQ6Zero aFQ12One)

/-- A call that returns an `α`: it returns or panics, or makes one access and goes on. -/
inductive M (α : Type) : Type
  | ret (a : α)
  | panic
  | readSix (p : Nat) (k : FQ6 → M α)
  | writeSix (p : Nat) (v : FQ6) (k : M α)
  | readTwelve (f : Nat) (k : Nat × Nat → M α)
  | writeTwelve (f p q : Nat) (k : M α)
  | newSix (v : FQ6) (k : Nat → M α)
  | newTwelve (p q : Nat) (k : Nat → M α)

/-- Sequencing. -/
def M.bind {α β : Type} : M α → (α → M β) → M β
  | .ret a, f => f a
  | .panic, _ => .panic
  | .readSix p k, f => .readSix p fun v => (k v).bind f
  | .writeSix p v k, f => .writeSix p v (k.bind f)
  | .readTwelve p k, f => .readTwelve p fun v => (k v).bind f
  | .writeTwelve g p q k, f => .writeTwelve g p q (k.bind f)
  | .newSix v k, f => .newSix v fun p => (k p).bind f
  | .newTwelve p q k, f => .newTwelve p q fun g => (k g).bind f

instance : Monad M where
  pure := .ret
  bind := .bind

/-- The `FQ6` at `p`. -/
def six (p : Nat) : M FQ6 := .readSix p .ret
/-- `*p = v` for a `*FQ6`. -/
def setSix (p : Nat) (v : FQ6) : M Unit := .writeSix p v (.ret ())
/-- The pointers in the `FQ12` at `f`, fq12.go:9-12. -/
def twelve (f : Nat) : M (Nat × Nat) := .readTwelve f .ret
/-- Writing the pointers in the `FQ12` at `f`. -/
def setTwelve (f p q : Nat) : M Unit := .writeTwelve f p q (.ret ())
/-- `NewFQ6`, fq6.go:16-22. -/
def newSix (v : FQ6) : M Nat := .newSix v .ret
/-- `NewFQ12`, fq12.go:15-20. -/
def newTwelve (p q : Nat) : M Nat := .newTwelve p q .ret

/-- What a call does that runs without interruption: what it returns and the memory then (`none`: it panics). -/
def M.run {α : Type} : M α → Mem → Option (α × Mem)
  | .ret a, m => some (a, m)
  | .panic, _ => none
  | .readSix p k, m => (k (m.six p)).run m
  | .writeSix p v k, m => k.run (m.set6 p v)
  | .readTwelve f k, m => (k (m.twelve f)).run m
  | .writeTwelve f p q k, m => k.run { m with twelve := Function.update m.twelve f (p, q) }
  | .newSix v k, m => (k (m.new6 v).1).run (m.new6 v).2
  | .newTwelve p q k, m => (k (m.new12 p q).1).run (m.new12 p q).2

/-- `p.c0 = v`. -/
def setC0 (p : Nat) (v : FQ2) : M Unit := do
  let w ← six p
  setSix p { w with c0 := v }
/-- `p.c1 = v`. -/
def setC1 (p : Nat) (v : FQ2) : M Unit := do
  let w ← six p
  setSix p { w with c1 := v }
/-- `p.c2 = v`. -/
def setC2 (p : Nat) (v : FQ2) : M Unit := do
  let w ← six p
  setSix p { w with c2 := v }
/-- `f.c0`, a pointer. -/
def c0 (f : Nat) : M Nat := do pure (← twelve f).1
/-- `f.c1`, a pointer. -/
def c1 (f : Nat) : M Nat := do pure (← twelve f).2
/-- `f.c0 = p`. -/
def putC0 (f p : Nat) : M Unit := do setTwelve f p (← c1 f)
/-- `f.c1 = p`. -/
def putC1 (f p : Nat) : M Unit := do setTwelve f (← c0 f) p

/-! ### fq6.go -/

/-- `Copy`, fq6.go:29-31. -/
def copy6 (p : Nat) : M Nat := do newSix (← six p)

/-- `MulByNonresidueAssign`, fq6.go:34-37. -/
def mulByNonresidue6 (p : Nat) : M Unit := do
  let v ← six p
  setSix p ⟨v.c2, v.c0, v.c1⟩
  setC0 p (← six p).c0.mulByNonresidue

/-- `MulBy1Assign`, fq6.go:40-57: everything is read before `f.c0` is written; one read and one write here. -/
def mulBy1_6 (p : Nat) (c1 : FQ2) : M Unit := do setSix p ((← six p).mulBy1 c1)

/-- `MulBy01Assign`, fq6.go:60-90: everything is read before `f.c0` is written; one read and one write here. -/
def mulBy01_6 (p : Nat) (c0 c1 : FQ2) : M Unit := do setSix p ((← six p).mulBy01 c0 c1)

/-- `Equals`, fq6.go:99-101. -/
def equals6 (p o : Nat) : M Bool := do
  let v ← six p
  pure (v.equals (← six o))

/-- `IsZero`, fq6.go:104-106. -/
def isZero6 (p : Nat) : M Bool := equals6 p aFQ6Zero

/-- `DoubleAssign`, fq6.go:109-113. -/
def double6 (p : Nat) : M Unit := do
  setC0 p (← six p).c0.double
  setC1 p (← six p).c1.double
  setC2 p (← six p).c2.double

/-- `NegAssign`, fq6.go:116-120. -/
def neg6 (p : Nat) : M Unit := do
  setC0 p (← six p).c0.neg
  setC1 p (← six p).c1.neg
  setC2 p (← six p).c2.neg

/-- `AddAssign`, fq6.go:123-127. -/
def add6 (p o : Nat) : M Unit := do
  setC0 p ((← six p).c0.add (← six o).c0)
  setC1 p ((← six p).c1.add (← six o).c1)
  setC2 p ((← six p).c2.add (← six o).c2)

/-- `SubAssign`, fq6.go:130-134. -/
def sub6 (p o : Nat) : M Unit := do
  setC0 p ((← six p).c0.sub (← six o).c0)
  setC1 p ((← six p).c1.sub (← six o).c1)
  setC2 p ((← six p).c2.sub (← six o).c2)

/-- `FrobeniusMapAssign`, fq6.go:211-218. -/
def frobenius6 (p : Nat) (power : UInt8) : M Unit := do
  setC0 p ((← six p).c0.frobeniusMap power)
  setC1 p ((← six p).c1.frobeniusMap power)
  setC2 p ((← six p).c2.frobeniusMap power)
  setC1 p ((← six p).c1.mul (FQ6.frobeniusCoeffC1 (power.toNat % 6)))
  setC2 p ((← six p).c2.mul (FQ6.frobeniusCoeffC2 (power.toNat % 6)))

/-- `SquareAssign`, fq6.go:221-252: everything is read before `f.c0` is written; one read and one write here. -/
def square6 (p : Nat) : M Unit := do setSix p (← six p).square

/-- `MulAssign`, fq6.go:255-292. -/
def mul6 (p o : Nat) : M Unit := do
  let aa := (← six p).c0.mul (← six o).c0
  let bb := (← six p).c1.mul (← six o).c1
  let cc := (← six p).c2.mul (← six o).c2
  let tmp := (← six p).c1.add (← six p).c2
  let t1 := (← six o).c1.add (← six o).c2
  let t1 := t1.mul tmp
  let t1 := t1.sub bb
  let t1 := t1.sub cc
  let t1 := t1.mulByNonresidue
  let t1 := t1.add aa
  let tmp := (← six p).c0.add (← six p).c2
  setC2 p (← six o).c0
  setC2 p ((← six p).c2.add (← six o).c2)
  setC2 p ((← six p).c2.mul tmp)
  setC2 p ((← six p).c2.sub aa)
  setC2 p ((← six p).c2.add bb)
  setC2 p ((← six p).c2.sub cc)
  let tmp := (← six p).c0.add (← six p).c1
  setC1 p (← six o).c0
  setC1 p ((← six p).c1.add (← six o).c1)
  setC1 p ((← six p).c1.mul tmp)
  setC1 p ((← six p).c1.sub aa)
  setC1 p ((← six p).c1.sub bb)
  let cc := cc.mulByNonresidue
  setC1 p ((← six p).c1.add cc)
  setC0 p t1

/-- `InverseAssign`, fq6.go:295-336: everything is read before `f.c0` is written; one read and one write here. -/
def inverse6 (p : Nat) : M Bool := do
  let t := (← six p).inverse
  if !t.2 then pure false else do
    setSix p t.1
    pure true

/-! ### fq12.go -/

/-- `ConjugateAssign`, fq12.go:27-29. -/
def conjugate (f : Nat) : M Unit := do neg6 (← c1 f)

/-- `MulBy014Assign`, fq12.go:32-47. -/
def mulBy014 (f : Nat) (d0 d1 d4 : FQ2) : M Unit := do
  let aa ← copy6 (← c0 f)
  mulBy01_6 aa d0 d1
  let bb ← copy6 (← c1 f)
  mulBy1_6 bb d4
  let d1 := d1.add d4
  add6 (← c1 f) (← c0 f)
  mulBy01_6 (← c1 f) d0 d1
  sub6 (← c1 f) aa
  sub6 (← c1 f) bb
  let t ← copy6 bb
  putC0 f t
  mulByNonresidue6 (← c0 f)
  add6 (← c0 f) aa

/-- `Equals`, fq12.go:56-58. -/
def equals (f o : Nat) : M Bool := do
  if ← equals6 (← c0 f) (← c0 o) then equals6 (← c1 f) (← c1 o) else pure false

/-- `DoubleAssign`, fq12.go:61-64. -/
def double (f : Nat) : M Unit := do
  double6 (← c0 f)
  double6 (← c1 f)

/-- `NegAssign`, fq12.go:67-70. -/
def neg (f : Nat) : M Unit := do
  neg6 (← c1 f)
  neg6 (← c0 f)

/-- `AddAssign`, fq12.go:73-76. -/
def add (f o : Nat) : M Unit := do
  add6 (← c0 f) (← c0 o)
  add6 (← c1 f) (← c1 o)

/-- `IsZero`, fq12.go:79-81. -/
def isZero (f : Nat) : M Bool := do
  if ← isZero6 (← c0 f) then isZero6 (← c1 f) else pure false

/-- `SubAssign`, fq12.go:84-87. -/
def sub (f o : Nat) : M Unit := do
  sub6 (← c0 f) (← c0 o)
  sub6 (← c1 f) (← c1 o)

/-- The end of `RandFQ12`, fq12.go:90-100, with `RandFQ6` (fq6.go:354-368) having drawn the
coordinates `a` and `b`. -/
def rand (a b : FQ6) : M Nat := do
  let p ← newSix a
  let t ← newSix b
  newTwelve p t

/-- `Copy`, fq12.go:103-105. -/
def copy (f : Nat) : M Nat := do
  let p ← copy6 (← c0 f)
  let t ← copy6 (← c1 f)
  newTwelve p t

/-- `MulAssign`, fq12.go:198-213. -/
def mul (f o : Nat) : M Unit := do
  let aa ← copy6 (← c0 f)
  mul6 aa (← c0 o)
  let bb ← copy6 (← c1 f)
  mul6 bb (← c1 o)
  let t ← copy6 (← c0 o)
  add6 t (← c1 o)
  add6 (← c1 f) (← c0 f)
  mul6 (← c1 f) t
  sub6 (← c1 f) aa
  sub6 (← c1 f) bb
  let u ← copy6 bb
  putC0 f u
  mulByNonresidue6 (← c0 f)
  add6 (← c0 f) aa

/-- The loop of `Exp`, fq12.go:112-118; a loop that has not ended within the fuel is a panic. -/
def expLoop (fi res : Nat) : (fuel : Nat) → (nCopy : FQRepr) → M Unit
  | 0, _ => .panic
  | fuel + 1, nCopy =>
    if nCopy.cmp bigZero ≠ 0 then do
      if !nCopy.isEven then mul res fi else pure ()
      mul fi fi
      expLoop fi res fuel (nCopy.rsh 1)
    else pure ()

/-- `Exp`, fq12.go:108-120. -/
def exp (f : Nat) (n : FQRepr) : M Nat := do
  let res ← copy aFQ12One
  let fi ← copy f
  expLoop fi res 385 n
  pure res

/-- `FrobeniusMapAssign`, fq12.go:171-177. -/
def frobeniusMap (f : Nat) (power : UInt8) : M Unit := do
  frobenius6 (← c0 f) power
  frobenius6 (← c1 f) power
  setC0 (← c1 f) ((← six (← c1 f)).c0.mul (FQ12.frobeniusCoeffC1 (power.toNat % 12)))
  setC1 (← c1 f) ((← six (← c1 f)).c1.mul (FQ12.frobeniusCoeffC1 (power.toNat % 12)))
  setC2 (← c1 f) ((← six (← c1 f)).c2.mul (FQ12.frobeniusCoeffC1 (power.toNat % 12)))

/-- `SquareAssign`, fq12.go:180-195. -/
def square (f : Nat) : M Unit := do
  let ab ← copy6 (← c0 f)
  mul6 ab (← c1 f)
  let c0c1 ← copy6 (← c0 f)
  add6 c0c1 (← c1 f)
  let d ← copy6 (← c1 f)
  mulByNonresidue6 d
  add6 d (← c0 f)
  mul6 d c0c1
  sub6 d ab
  let t ← copy6 ab
  putC1 f t
  add6 (← c1 f) ab
  mulByNonresidue6 ab
  sub6 d ab
  putC0 f d

/-- `InverseAssign` up to its test, fq12.go:217-222: the pointer `c0s`. -/
def inverseHead (f : Nat) : M Nat := do
  let c0s ← copy6 (← c0 f)
  square6 c0s
  let c1s ← copy6 (← c1 f)
  square6 c1s
  mulByNonresidue6 c1s
  sub6 c0s c1s
  pure c0s

/-- `InverseAssign` after its test, fq12.go:228-234. The object `tmp` is never seen outside the call: it is kept
as its two pointers. -/
def inverseTail (f c0s : Nat) : M Unit := do
  let p ← copy6 c0s
  let t ← copy6 c0s
  mul6 p (← c0 f)
  mul6 t (← c1 f)
  neg6 t
  putC0 f p
  putC1 f t

/-- `InverseAssign`, fq12.go:216-237. -/
def inverse (f : Nat) : M Bool := do
  let c0s ← inverseHead f
  if !(← inverse6 c0s) then pure false else do
    inverseTail f c0s
    pure true

/-! ### pairing.go -/

/-- `ell`, pairing.go:28-39. -/
def ell (f : Nat) (coeffs : Coeffs) (p : G1Affine) : M Unit :=
  let c0 := coeffs.1
  let c1 := coeffs.2.1
  let c0 : FQ2 := ⟨c0.c0.mul p.y, c0.c1.mul p.y⟩
  let c1 : FQ2 := ⟨c1.c0.mul p.x, c1.c1.mul p.x⟩
  mulBy014 f coeffs.2.2 c1 c0

/-- The loops over the pairs, pairing.go:53-56, 58-61 and 66-69. -/
def ellAll (f : Nat) : (pairs : List PairingItem) → M (List PairingItem)
  | [] => pure []
  | pair :: rest =>
    match pair.q[pair.qIndex]?, pair.p with
    | some coeffs, some p => do
      ell f coeffs p
      let rest ← ellAll f rest
      pure ({ pair with qIndex := pair.qIndex + 1 } :: rest)
    | _, _ => .panic

/-- The loop of `MillerLoop`, pairing.go:46-65. -/
def millerGo (f : Nat) (b : FQRepr) :
    (k i : Nat) → (foundOne : Bool) → (pairs : List PairingItem) → M (List PairingItem)
  | 0, _, _, pairs => pure pairs
  | k + 1, i, foundOne, pairs =>
    match b.bit (b.bitLen - i) with
    | none => .panic
    | some set =>
      if !foundOne then millerGo f b k (i + 1) set pairs
      else do
        let pairs ← ellAll f pairs
        if set then do
          let pairs ← ellAll f pairs
          square f
          millerGo f b k (i + 1) foundOne pairs
        else do
          square f
          millerGo f b k (i + 1) foundOne pairs

/-- `MillerLoop`, pairing.go:16-75. The points and the prepared points are only read; they are values here. -/
def millerLoop (items : List (G1Affine × G2Prepared)) : M Nat := do
  let pairs := items.map PairingItem.make
  let f ← copy aFQ12One
  let blsXRsh1 := blsX.rsh 1
  let pairs ← millerGo f blsXRsh1 (blsXRsh1.bitLen + 1) 0 false pairs
  let _ ← ellAll f pairs
  if blsIsNegative then do
    conjugate f
    pure f
  else pure f

/-- `ExpByX`, pairing.go:92-98. -/
def expByX (f : Nat) (x : FQRepr) : M Nat := do
  let newf ← exp f x
  if blsIsNegative then do
    conjugate newf
    pure newf
  else pure newf

/-- `FinalExponentiation`, pairing.go:79-129. The result `none` is nil. -/
def finalExponentiation (r : Nat) : M (Option Nat) := do
  let f1 ← copy r
  conjugate f1
  let f2 ← copy r
  let ok ← inverse f2
  if !ok then
    pure none
  else
    let r ← copy f1
    mul r f2
    let f2 ← copy r
    frobeniusMap r 2
    mul r f2
    let x := blsX
    let y0 ← copy r
    square y0
    let y1 ← expByX y0 x
    let x := x.rsh 1
    let y2 ← expByX y1 x
    let x := x.lsh 1
    let y3 ← copy r
    conjugate y3
    let y1 ← copy y1
    mul y1 y3
    conjugate y1
    mul y1 y2
    let y2 ← expByX y1 x
    let y3 ← expByX y2 x
    conjugate y1
    mul y3 y1
    conjugate y1
    frobeniusMap y1 3
    frobeniusMap y2 2
    mul y1 y2
    let y2 ← expByX y3 x
    mul y2 y0
    mul y2 r
    mul y1 y2
    frobeniusMap y3 1
    mul y1 y3
    pure (some y1)

/-- `q.ToAffine()` prepared; `none` is a panic of `G2AffineToPrepared`, which works on values (no `FQ12`). -/
def prepare (q : G2Projective) : M G2Prepared := match q.toAffine.toPrepared with
  | some prep => pure prep
  | none => .panic

/-- `Pairing`, pairing.go:132-136, with the points as values (the result `none` is nil). -/
def pairing (p : G1Projective) (q : G2Projective) : M (Option Nat) := do
  let prep ← prepare q
  let f ← millerLoop [(p.toAffine, prep)]
  finalExponentiation f

/-- `CompareTwoPairings`, pairing.go:140-147, with the points as values; the comparison is with the
variable `FQ12One`. -/
def compareTwoPairings (p1 : G1Projective) (q1 : G2Projective) (p2 : G1Projective) (q2 : G2Projective) : M Bool := do
  let negP2 := p2.neg
  let prep1 ← prepare q1
  let prep2 ← prepare q2
  let f ← millerLoop [(p1.toAffine, prep1), (negP2.toAffine, prep2)]
  match ← finalExponentiation f with
  | none => .panic
  | some g => equals g aFQ12One

end Bls.HeapFQ12
