import Verif.Model.Pairing
import Mathlib.Logic.Function.Basic
/-
The memory behind `FQ12` values. An `FQ12` holds two pointers to `FQ6` objects, methods change the
objects in place, and package variables share them: `FQ12Zero` holds the same pointer twice and
`FQ12One` shares it. `FQ2` and `FQRepr` are values in Go (no pointers). A `*FQ6` and a `*FQ12` are
addresses here. This file gives the methods of fq12.go, the methods of fq6.go they use, and
pairing.go with every read and write of an object in the order of the program; the value functions
are in Verif/Model/FQ6.lean, FQ12.lean and Pairing.lean.
-/
namespace Bls.Heap12

/-- The `FQ6` objects, the `FQ12` objects (a pair of pointers, fq12.go:9-12) and the next free
addresses. -/
structure Mem where
  six : Nat → FQ6
  twelve : Nat → Nat × Nat
  next6 : Nat
  next12 : Nat

namespace Mem

/-- `*p = v` for a `*FQ6`. -/
def set6 (m : Mem) (p : Nat) (v : FQ6) : Mem := { m with six := Function.update m.six p v }

/-- `p.c0 = v`. -/
def setC0 (m : Mem) (p : Nat) (v : FQ2) : Mem := m.set6 p { m.six p with c0 := v }
/-- `p.c1 = v`. -/
def setC1 (m : Mem) (p : Nat) (v : FQ2) : Mem := m.set6 p { m.six p with c1 := v }
/-- `p.c2 = v`. -/
def setC2 (m : Mem) (p : Nat) (v : FQ2) : Mem := m.set6 p { m.six p with c2 := v }

/-- `f.c0`, a pointer. -/
def c0 (m : Mem) (f : Nat) : Nat := (m.twelve f).1
/-- `f.c1`, a pointer. -/
def c1 (m : Mem) (f : Nat) : Nat := (m.twelve f).2

/-- `f.c0 = p`. -/
def putC0 (m : Mem) (f p : Nat) : Mem := { m with twelve := Function.update m.twelve f (p, m.c1 f) }
/-- `f.c1 = p`. -/
def putC1 (m : Mem) (f p : Nat) : Mem := { m with twelve := Function.update m.twelve f (m.c0 f, p) }

/-- `NewFQ6`, fq6.go:16-22. -/
def new6 (m : Mem) (v : FQ6) : Nat × Mem :=
  (m.next6, { m with six := Function.update m.six m.next6 v, next6 := m.next6 + 1 })

/-- `NewFQ12`, fq12.go:15-20. -/
def new12 (m : Mem) (p0 p1 : Nat) : Nat × Mem :=
  (m.next12, { m with twelve := Function.update m.twelve m.next12 (p0, p1), next12 := m.next12 + 1 })

end Mem

/-- The variable `FQ6Zero`, fq6.go:93. -/
def aFQ6Zero : Nat := 0
/-- The variable `FQ6One`, fq6.go:96. -/
def aFQ6One : Nat := 1
/-- The variable `FQ12Zero`, fq12.go:50. -/
def aFQ12Zero : Nat := 0
/-- The variable `FQ12One`, fq12.go:53. -/
def aFQ12One : Nat := 1

/-- The memory when the package variables are initialized: fq6.go:93-96, fq12.go:50-53. -/
def init : Mem :=
  let (_, m) := (Mem.new6 ⟨fun _ => FQ6.zero, fun _ => (0, 0), 0, 0⟩ ⟨FQ2.zero, FQ2.zero, FQ2.zero⟩)
  let (_, m) := m.new6 ⟨FQ2.one, FQ2.zero, FQ2.zero⟩
  let (_, m) := m.new12 aFQ6Zero aFQ6Zero
  let (_, m) := m.new12 aFQ6One aFQ6Zero
  m

/-! ### fq6.go -/

/-- `Copy`, fq6.go:29-31. -/
def copy6 (m : Mem) (p : Nat) : Nat × Mem := m.new6 (m.six p)

/-- `MulByNonresidueAssign`, fq6.go:34-37. -/
def mulByNonresidue6 (m : Mem) (p : Nat) : Mem :=
  let m := m.set6 p ⟨(m.six p).c2, (m.six p).c0, (m.six p).c1⟩
  m.setC0 p (m.six p).c0.mulByNonresidue

/-- `MulBy1Assign`, fq6.go:40-57: everything is read before `f.c0` is written. -/
def mulBy1_6 (m : Mem) (p : Nat) (c1 : FQ2) : Mem := m.set6 p ((m.six p).mulBy1 c1)

/-- `MulBy01Assign`, fq6.go:60-90: everything is read before `f.c0` is written. -/
def mulBy01_6 (m : Mem) (p : Nat) (c0 c1 : FQ2) : Mem := m.set6 p ((m.six p).mulBy01 c0 c1)

/-- `Equals`, fq6.go:99-101. -/
def equals6 (m : Mem) (p o : Nat) : Bool := (m.six p).equals (m.six o)

/-- `IsZero`, fq6.go:104-106. -/
def isZero6 (m : Mem) (p : Nat) : Bool := equals6 m p aFQ6Zero

/-- `DoubleAssign`, fq6.go:109-113. -/
def double6 (m : Mem) (p : Nat) : Mem :=
  let m := m.setC0 p (m.six p).c0.double
  let m := m.setC1 p (m.six p).c1.double
  m.setC2 p (m.six p).c2.double

/-- `NegAssign`, fq6.go:116-120. -/
def neg6 (m : Mem) (p : Nat) : Mem :=
  let m := m.setC0 p (m.six p).c0.neg
  let m := m.setC1 p (m.six p).c1.neg
  m.setC2 p (m.six p).c2.neg

/-- `AddAssign`, fq6.go:123-127. -/
def add6 (m : Mem) (p o : Nat) : Mem :=
  let m := m.setC0 p ((m.six p).c0.add (m.six o).c0)
  let m := m.setC1 p ((m.six p).c1.add (m.six o).c1)
  m.setC2 p ((m.six p).c2.add (m.six o).c2)

/-- `SubAssign`, fq6.go:130-134. -/
def sub6 (m : Mem) (p o : Nat) : Mem :=
  let m := m.setC0 p ((m.six p).c0.sub (m.six o).c0)
  let m := m.setC1 p ((m.six p).c1.sub (m.six o).c1)
  m.setC2 p ((m.six p).c2.sub (m.six o).c2)

/-- `FrobeniusMapAssign`, fq6.go:211-218. -/
def frobenius6 (m : Mem) (p : Nat) (power : UInt8) : Mem :=
  let m := m.setC0 p ((m.six p).c0.frobeniusMap power)
  let m := m.setC1 p ((m.six p).c1.frobeniusMap power)
  let m := m.setC2 p ((m.six p).c2.frobeniusMap power)
  let m := m.setC1 p ((m.six p).c1.mul (FQ6.frobeniusCoeffC1 (power.toNat % 6)))
  m.setC2 p ((m.six p).c2.mul (FQ6.frobeniusCoeffC2 (power.toNat % 6)))

/-- `SquareAssign`, fq6.go:221-252: everything is read before `f.c0` is written. -/
def square6 (m : Mem) (p : Nat) : Mem := m.set6 p (m.six p).square

/-- `MulAssign`, fq6.go:255-292. -/
def mul6 (m : Mem) (p o : Nat) : Mem :=
  let aa := (m.six p).c0.mul (m.six o).c0
  let bb := (m.six p).c1.mul (m.six o).c1
  let cc := (m.six p).c2.mul (m.six o).c2
  let tmp := (m.six p).c1.add (m.six p).c2
  let t1 := (m.six o).c1.add (m.six o).c2
  let t1 := t1.mul tmp
  let t1 := t1.sub bb
  let t1 := t1.sub cc
  let t1 := t1.mulByNonresidue
  let t1 := t1.add aa
  let tmp := (m.six p).c0.add (m.six p).c2
  let m := m.setC2 p (m.six o).c0
  let m := m.setC2 p ((m.six p).c2.add (m.six o).c2)
  let m := m.setC2 p ((m.six p).c2.mul tmp)
  let m := m.setC2 p ((m.six p).c2.sub aa)
  let m := m.setC2 p ((m.six p).c2.add bb)
  let m := m.setC2 p ((m.six p).c2.sub cc)
  let tmp := (m.six p).c0.add (m.six p).c1
  let m := m.setC1 p (m.six o).c0
  let m := m.setC1 p ((m.six p).c1.add (m.six o).c1)
  let m := m.setC1 p ((m.six p).c1.mul tmp)
  let m := m.setC1 p ((m.six p).c1.sub aa)
  let m := m.setC1 p ((m.six p).c1.sub bb)
  let cc := cc.mulByNonresidue
  let m := m.setC1 p ((m.six p).c1.add cc)
  m.setC0 p t1

/-- `InverseAssign`, fq6.go:295-336: everything is read before `f.c0` is written. -/
def inverse6 (m : Mem) (p : Nat) : Bool × Mem :=
  let t := (m.six p).inverse
  if !t.2 then (false, m) else (true, m.set6 p t.1)

/-! ### fq12.go -/

/-- `ConjugateAssign`, fq12.go:27-29. -/
def conjugate (m : Mem) (f : Nat) : Mem := neg6 m (m.c1 f)

/-- `MulBy014Assign`, fq12.go:32-47. -/
def mulBy014 (m : Mem) (f : Nat) (c0 c1 c4 : FQ2) : Mem :=
  let (aa, m) := copy6 m (m.c0 f)
  let m := mulBy01_6 m aa c0 c1
  let (bb, m) := copy6 m (m.c1 f)
  let m := mulBy1_6 m bb c4
  let c1 := c1.add c4
  let m := add6 m (m.c1 f) (m.c0 f)
  let m := mulBy01_6 m (m.c1 f) c0 c1
  let m := sub6 m (m.c1 f) aa
  let m := sub6 m (m.c1 f) bb
  let (t, m) := copy6 m bb
  let m := m.putC0 f t
  let m := mulByNonresidue6 m (m.c0 f)
  add6 m (m.c0 f) aa

/-- `Equals`, fq12.go:56-58. -/
def equals (m : Mem) (f o : Nat) : Bool := equals6 m (m.c0 f) (m.c0 o) && equals6 m (m.c1 f) (m.c1 o)

/-- `DoubleAssign`, fq12.go:61-64. -/
def double (m : Mem) (f : Nat) : Mem :=
  let m := double6 m (m.c0 f)
  double6 m (m.c1 f)

/-- `NegAssign`, fq12.go:67-70. -/
def neg (m : Mem) (f : Nat) : Mem :=
  let m := neg6 m (m.c1 f)
  neg6 m (m.c0 f)

/-- `AddAssign`, fq12.go:73-76. -/
def add (m : Mem) (f o : Nat) : Mem :=
  let m := add6 m (m.c0 f) (m.c0 o)
  add6 m (m.c1 f) (m.c1 o)

/-- `IsZero`, fq12.go:79-81. -/
def isZero (m : Mem) (f : Nat) : Bool := isZero6 m (m.c0 f) && isZero6 m (m.c1 f)

/-- `SubAssign`, fq12.go:84-87. -/
def sub (m : Mem) (f o : Nat) : Mem :=
  let m := sub6 m (m.c0 f) (m.c0 o)
  sub6 m (m.c1 f) (m.c1 o)

/-- The end of `RandFQ12`, fq12.go:90-100, with `RandFQ6` (fq6.go:354-368) having drawn the
coordinates `a` and `b`. -/
def rand (m : Mem) (a b : FQ6) : Nat × Mem :=
  let (p, m) := m.new6 a
  let (t, m) := m.new6 b
  m.new12 p t

/-- `Copy`, fq12.go:103-105. -/
def copy (m : Mem) (f : Nat) : Nat × Mem :=
  let (p, m) := copy6 m (m.c0 f)
  let (t, m) := copy6 m (m.c1 f)
  m.new12 p t

/-- `MulAssign`, fq12.go:198-213. -/
def mul (m : Mem) (f o : Nat) : Mem :=
  let (aa, m) := copy6 m (m.c0 f)
  let m := mul6 m aa (m.c0 o)
  let (bb, m) := copy6 m (m.c1 f)
  let m := mul6 m bb (m.c1 o)
  let (t, m) := copy6 m (m.c0 o)
  let m := add6 m t (m.c1 o)
  let m := add6 m (m.c1 f) (m.c0 f)
  let m := mul6 m (m.c1 f) t
  let m := sub6 m (m.c1 f) aa
  let m := sub6 m (m.c1 f) bb
  let (u, m) := copy6 m bb
  let m := m.putC0 f u
  let m := mulByNonresidue6 m (m.c0 f)
  add6 m (m.c0 f) aa

/-- The loop of `Exp`, fq12.go:112-118; `none` is a loop that has not ended within the fuel. -/
def expLoop (fi res : Nat) : (fuel : Nat) → (nCopy : FQRepr) → Mem → Option Mem
  | 0, _, _ => none
  | fuel + 1, nCopy, m =>
    if nCopy.cmp bigZero ≠ 0 then
      let m := if !nCopy.isEven then mul m res fi else m
      let m := mul m fi fi
      expLoop fi res fuel (nCopy.rsh 1) m
    else some m

/-- `Exp`, fq12.go:108-120. -/
def exp (m : Mem) (f : Nat) (n : FQRepr) : Option (Nat × Mem) :=
  let (res, m) := copy m aFQ12One
  let (fi, m) := copy m f
  (expLoop fi res 385 n m).map fun m => (res, m)

/-- `FrobeniusMapAssign`, fq12.go:171-177. -/
def frobeniusMap (m : Mem) (f : Nat) (power : UInt8) : Mem :=
  let m := frobenius6 m (m.c0 f) power
  let m := frobenius6 m (m.c1 f) power
  let m := m.setC0 (m.c1 f) ((m.six (m.c1 f)).c0.mul (FQ12.frobeniusCoeffC1 (power.toNat % 12)))
  let m := m.setC1 (m.c1 f) ((m.six (m.c1 f)).c1.mul (FQ12.frobeniusCoeffC1 (power.toNat % 12)))
  m.setC2 (m.c1 f) ((m.six (m.c1 f)).c2.mul (FQ12.frobeniusCoeffC1 (power.toNat % 12)))

/-- `SquareAssign`, fq12.go:180-195. -/
def square (m : Mem) (f : Nat) : Mem :=
  let (ab, m) := copy6 m (m.c0 f)
  let m := mul6 m ab (m.c1 f)
  let (c0c1, m) := copy6 m (m.c0 f)
  let m := add6 m c0c1 (m.c1 f)
  let (c0, m) := copy6 m (m.c1 f)
  let m := mulByNonresidue6 m c0
  let m := add6 m c0 (m.c0 f)
  let m := mul6 m c0 c0c1
  let m := sub6 m c0 ab
  let (t, m) := copy6 m ab
  let m := m.putC1 f t
  let m := add6 m (m.c1 f) ab
  let m := mulByNonresidue6 m ab
  let m := sub6 m c0 ab
  m.putC0 f c0

/-- `InverseAssign` up to its test, fq12.go:217-222: the pointer `c0s`. -/
def inverseHead (m : Mem) (f : Nat) : Nat × Mem :=
  let (c0s, m) := copy6 m (m.c0 f)
  let m := square6 m c0s
  let (c1s, m) := copy6 m (m.c1 f)
  let m := square6 m c1s
  let m := mulByNonresidue6 m c1s
  (c0s, sub6 m c0s c1s)

/-- `InverseAssign` after its test, fq12.go:228-234. The object `tmp` is never seen outside the call: it is kept
as its two pointers. -/
def inverseTail (m : Mem) (f c0s : Nat) : Mem :=
  let (p, m) := copy6 m c0s
  let (t, m) := copy6 m c0s
  let m := mul6 m p (m.c0 f)
  let m := mul6 m t (m.c1 f)
  let m := neg6 m t
  let m := m.putC0 f p
  m.putC1 f t

/-- `InverseAssign`, fq12.go:216-237. -/
def inverse (m : Mem) (f : Nat) : Bool × Mem :=
  let c0s := inverseHead m f
  let ok := inverse6 c0s.2 c0s.1
  if !ok.1 then (false, ok.2) else (true, inverseTail ok.2 f c0s.1)

/-! ### pairing.go -/

/-- `ell`, pairing.go:28-39. -/
def ell (m : Mem) (f : Nat) (coeffs : Coeffs) (p : G1Affine) : Mem :=
  let c0 := coeffs.1
  let c1 := coeffs.2.1
  let c0 : FQ2 := ⟨c0.c0.mul p.y, c0.c1.mul p.y⟩
  let c1 : FQ2 := ⟨c1.c0.mul p.x, c1.c1.mul p.x⟩
  mulBy014 m f coeffs.2.2 c1 c0

/-- The loops over the pairs, pairing.go:53-56, 58-61 and 66-69; `none` is a panic. -/
def ellAll (f : Nat) : Mem → (pairs : List PairingItem) → Option (Mem × List PairingItem)
  | m, [] => some (m, [])
  | m, pair :: rest =>
    match pair.q[pair.qIndex]?, pair.p with
    | some coeffs, some p =>
      match ellAll f (ell m f coeffs p) rest with
      | none => none
      | some (m, rest) => some (m, { pair with qIndex := pair.qIndex + 1 } :: rest)
    | _, _ => none

/-- The loop of `MillerLoop`, pairing.go:46-65. -/
def millerGo (f : Nat) (b : FQRepr) :
    (k i : Nat) → (foundOne : Bool) → Mem → (pairs : List PairingItem) → Option (Mem × List PairingItem)
  | 0, _, _, m, pairs => some (m, pairs)
  | k + 1, i, foundOne, m, pairs =>
    match b.bit (b.bitLen - i) with
    | none => none
    | some set =>
      if !foundOne then millerGo f b k (i + 1) set m pairs
      else
        match ellAll f m pairs with
        | none => none
        | some (m, pairs) =>
          if set then
            match ellAll f m pairs with
            | none => none
            | some (m, pairs) => millerGo f b k (i + 1) foundOne (square m f) pairs
          else millerGo f b k (i + 1) foundOne (square m f) pairs

/-- `MillerLoop`, pairing.go:16-75 (`none`: it panics). The points and the prepared points are only read. -/
def millerLoop (m : Mem) (items : List (G1Affine × G2Prepared)) : Option (Nat × Mem) :=
  let pairs := items.map PairingItem.make
  let (f, m) := copy m aFQ12One
  let blsXRsh1 := blsX.rsh 1
  match millerGo f blsXRsh1 (blsXRsh1.bitLen + 1) 0 false m pairs with
  | none => none
  | some (m, pairs) =>
    match ellAll f m pairs with
    | none => none
    | some (m, _) => some (f, if blsIsNegative then conjugate m f else m)

/-- `ExpByX`, pairing.go:92-98. -/
def expByX (m : Mem) (f : Nat) (x : FQRepr) : Option (Nat × Mem) :=
  (exp m f x).map fun (newf, m) => (newf, if blsIsNegative then conjugate m newf else m)

/-- Calls in sequence: each acts on the memory the previous one left; `none` is a panic or a loop that outlasts its
fuel. -/
abbrev Run (α : Type) := StateT Mem Option α

/-- A call that changes the memory and returns nothing. -/
def call (g : Mem → Mem) : Run Unit := fun m => some ((), g m)

/-- A call that changes the memory and returns a value or a pointer. -/
def get {α : Type} (g : Mem → α × Mem) : Run α := fun m => some (g m)

/-- `FinalExponentiation`, pairing.go:79-129. The result `none` is nil. -/
def finalExponentiation (r : Nat) : Run (Option Nat) := do
  let f1 ← get (copy · r)
  call (conjugate · f1)
  let f2 ← get (copy · r)
  let ok ← get (inverse · f2)
  if !ok then
    pure none
  else
    let r ← get (copy · f1)
    call (mul · r f2)
    let f2 ← get (copy · r)
    call (frobeniusMap · r 2)
    call (mul · r f2)
    let x := blsX
    let y0 ← get (copy · r)
    call (square · y0)
    let y1 ← (expByX · y0 x)
    let x := x.rsh 1
    let y2 ← (expByX · y1 x)
    let x := x.lsh 1
    let y3 ← get (copy · r)
    call (conjugate · y3)
    let y1 ← get (copy · y1)
    call (mul · y1 y3)
    call (conjugate · y1)
    call (mul · y1 y2)
    let y2 ← (expByX · y1 x)
    let y3 ← (expByX · y2 x)
    call (conjugate · y1)
    call (mul · y3 y1)
    call (conjugate · y1)
    call (frobeniusMap · y1 3)
    call (frobeniusMap · y2 2)
    call (mul · y1 y2)
    let y2 ← (expByX · y3 x)
    call (mul · y2 y0)
    call (mul · y2 r)
    call (mul · y1 y2)
    call (frobeniusMap · y3 1)
    call (mul · y1 y3)
    pure (some y1)

/-- `Pairing`, pairing.go:132-136, with the points as values (`none`: a panic; the result `none` is nil). -/
def pairing (p : G1Projective) (q : G2Projective) : Run (Option Nat) := do
  let prep ← StateT.lift q.toAffine.toPrepared
  let f ← (millerLoop · [(p.toAffine, prep)])
  finalExponentiation f

/-- `CompareTwoPairings`, pairing.go:140-147, with the points as values; the comparison is with the
variable `FQ12One` (`none`: a panic, including `Equals` on a nil result). -/
def compareTwoPairings (p1 : G1Projective) (q1 : G2Projective) (p2 : G1Projective) (q2 : G2Projective) :
    Run Bool := do
  let negP2 := p2.neg
  let prep1 ← StateT.lift q1.toAffine.toPrepared
  let prep2 ← StateT.lift q2.toAffine.toPrepared
  let f ← (millerLoop · [(p1.toAffine, prep1), (negP2.toAffine, prep2)])
  let g ← finalExponentiation f
  match g with
  | none => fun _ => none
  | some g => get fun m => (equals m g aFQ12One, m)

end Bls.Heap12
