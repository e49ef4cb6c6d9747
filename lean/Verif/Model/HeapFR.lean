import Verif.Model.Heap
/-
fr.go with memory, access by access. Verif/Model/Heap.lean has every method as a function on memories; here a method is
a tree whose nodes are its accesses to the memory in program order, so that goroutines can be interleaved between any
two of them (Verif/Spec/ThreadsFR.lean). An access reads or overwrites one `FRRepr` or the pointer in one `FR`, or makes
a new object. That the trees, run without interruption, are the functions of Verif/Model/Heap.lean is proved in
Verif/Proof/HeapFR.lean.
-/
namespace Bls.HeapFR
open Bls.Heap

/-- A call that returns an `α`: it returns or panics, or makes one access and goes on. -/
inductive M (α : Type) : Type
  | ret (a : α)
  | panic
  | readCell (p : Nat) (k : FRRepr → M α)
  | writeCell (p : Nat) (v : FRRepr) (k : M α)
  | readFr (f : Nat) (k : Nat → M α)
  | writeFr (f p : Nat) (k : M α)
  | newCell (v : FRRepr) (k : Nat → M α)
  | newFr (p : Nat) (k : Nat → M α)

/-- Sequencing. -/
def M.bind {α β : Type} : M α → (α → M β) → M β
  | .ret a, f => f a
  | .panic, _ => .panic
  | .readCell p k, f => .readCell p fun v => (k v).bind f
  | .writeCell p v k, f => .writeCell p v (k.bind f)
  | .readFr p k, f => .readFr p fun v => (k v).bind f
  | .writeFr p v k, f => .writeFr p v (k.bind f)
  | .newCell v k, f => .newCell v fun p => (k p).bind f
  | .newFr v k, f => .newFr v fun p => (k p).bind f

instance : Monad M where
  pure := .ret
  bind := .bind

/-- The `FRRepr` at `p`. -/
def cell (p : Nat) : M FRRepr := .readCell p .ret
/-- Writing the `FRRepr` at `p`. -/
def setCell (p : Nat) (v : FRRepr) : M Unit := .writeCell p v (.ret ())
/-- `f.n`, fr.go:12. -/
def fr (f : Nat) : M Nat := .readFr f .ret
/-- `f.n = p`. -/
def setFr (f p : Nat) : M Unit := .writeFr f p (.ret ())
/-- A new `FRRepr`. -/
def newCell (v : FRRepr) : M Nat := .newCell v .ret
/-- `&FR{n: p}`. -/
def newFr (p : Nat) : M Nat := .newFr p .ret

/-- `IsValid`, fr.go:19-21. -/
def isValid (f : Nat) : M Bool := do
  let v ← cell (← fr f)
  pure (v.cmp (← cell aRFieldModulus) < 0)

/-- `reduceAssign`, fr.go:23-27. -/
def reduceAssign (f : Nat) : M Unit := do
  if !(← isValid f) then
    let p ← fr f
    let v ← cell p
    setCell p (v.subNoBorrow (← cell aRFieldModulus))
  else pure ()

/-- `Copy`, fr.go:30-32. -/
def copy (f : Nat) : M Nat := do newFr (← newCell (← cell (← fr f)))

/-- `AddAssign`, fr.go:52-55. -/
def addAssign (f other : Nat) : M Unit := do
  let p ← fr f
  let q ← fr other
  let v ← cell p
  setCell p (v.addNoCarry (← cell q))
  reduceAssign f

/-- `montReduce`, fr.go:59-92. -/
def montReduce (f : Nat) (hi lo : FRRepr) : M Unit := do
  let M ← cell aRFieldModulus
  setCell (← fr f) (montReduceWith M hi lo)
  reduceAssign f

/-- `MulAssign`, fr.go:95-117. -/
def mulAssign (f other : Nat) : M Unit := do
  let a ← cell (← fr f)
  let b ← cell (← fr other)
  montReduce f (FR.multiply a b).1 (FR.multiply a b).2

/-- `FRReprToFR`, fr.go:42-49; `none` is nil. -/
def frReprToFR (o : Nat) : M (Option Nat) := do
  let r ← newFr o
  if ← isValid r then
    let t ← newFr aFRR2
    mulAssign r t
    pure (some r)
  else pure none

/-- `SubAssign`, fr.go:120-125. -/
def subAssign (f other : Nat) : M Unit := do
  let a ← cell (← fr other)
  let b ← cell (← fr f)
  if a.cmp b > 0 then
    let p ← fr f
    let v ← cell p
    setCell p (v.addNoCarry (← cell aRFieldModulus))
  else pure ()
  let p ← fr f
  let q ← fr other
  let v ← cell p
  setCell p (v.subNoBorrow (← cell q))

/-- `IsZero`, fr.go:177-179. -/
def isZero (f : Nat) : M Bool := do
  let v ← cell (← fr f)
  pure (v.cmp (← cell aFrZero) == 0)

/-- `Equals`, fr.go:148-150. -/
def equals (f other : Nat) : M Bool := do
  let v ← cell (← fr f)
  pure (v.equals (← cell (← fr other)))

/-- `NegAssign`, fr.go:153-159. -/
def negAssign (f : Nat) : M Unit := do
  if !(← isZero f) then
    let tmp ← newCell (← cell aRFieldModulus)
    let q ← fr f
    let v ← cell tmp
    setCell tmp (v.subNoBorrow (← cell q))
    setFr f tmp
  else pure ()

/-- `DoubleAssign`, fr.go:171-174. -/
def doubleAssign (f : Nat) : M Unit := do
  let p ← fr f
  setCell p (← cell p).mul2
  reduceAssign f

/-- `SquareAssign`, fr.go:182-210. -/
def squareAssign (f : Nat) : M Unit := do
  let v ← cell (← fr f)
  montReduce f (FR.squareWide v).1 (FR.squareWide v).2

/-- `ToRepr`, fr.go:316-329. -/
def toRepr (f : Nat) : M Nat := do
  let out ← copy f
  let v ← cell (← fr f)
  montReduce out ⟨0, 0, 0, 0⟩ v
  fr out

/-- `Cmp`, fr.go:166-168. -/
def cmp (f other : Nat) : M GoInt := do
  let a ← toRepr f
  let b ← toRepr other
  let v ← cell a
  pure (v.cmp (← cell b))

/-- The loop of `Exp`, fr.go:137-143, within the fuel. -/
def expLoop (nCopy fi fNew : Nat) : (fuel : Nat) → M Unit
  | 0 => .panic
  | fuel + 1 => do
    let v ← cell nCopy
    if v.cmp (← cell aFrZero) ≠ 0 then
      if (← cell nCopy).isOdd then mulAssign fNew fi else pure ()
      squareAssign fi
      setCell nCopy ((← cell nCopy).rsh 1)
      expLoop nCopy fi fNew fuel
    else pure ()

/-- `Exp`, fr.go:133-145. -/
def exp (f n : Nat) : M Nat := do
  let nCopy ← newCell (← cell n)
  let fi ← copy f
  let fNew ← copy aBigOneFR
  expLoop nCopy fi fNew 257
  pure fNew

/-- `Sqrt`, fr.go:213-216. -/
def sqrt (_f : Nat) : M (Option Nat) := frReprToFR aFrOne

/-- The inner loops of `Inverse`, fr.go:230-248, within the fuel. -/
def halveLoop (u b : Nat) : (fuel : Nat) → M Unit
  | 0 => .panic
  | fuel + 1 => do
    if (← cell u).isEven then
      setCell u (← cell u).div2
      if (← cell (← fr b)).isEven then pure ()
      else
        let p ← fr b
        let v ← cell p
        setCell p (v.addNoCarry (← cell aRFieldModulus))
      let p ← fr b
      setCell p (← cell p).div2
      halveLoop u b fuel
    else pure ()

/-- The outer loop of `Inverse`, fr.go:229-257, within the fuel. (The condition reads `v` also if `u` is one.) -/
def inverseLoop (one u v b c : Nat) : (fuel : Nat) → M Unit
  | 0 => .panic
  | fuel + 1 => do
    let x ← cell u
    let y ← cell v
    let w ← cell one
    if x.cmp w ≠ 0 ∧ y.cmp w ≠ 0 then
      halveLoop u b 257
      halveLoop v c 257
      let x ← cell u
      let y ← cell v
      if x.cmp y ≥ 0 then
        setCell u (x.subNoBorrow y)
        subAssign b c
      else
        setCell v (y.subNoBorrow x)
        subAssign c b
      inverseLoop one u v b c fuel
    else pure ()

/-- `Inverse`, fr.go:219-262; `none` is nil. -/
def inverse (f : Nat) : M (Option Nat) := do
  if ← isZero f then pure none
  else
    let u ← newCell (← cell (← fr f))
    let v ← newCell (← cell aRFieldModulus)
    let b ← newFr (← newCell (← cell aFRR2))
    let c ← copy aBigZeroFR
    let one ← newCell (.new 1)
    inverseLoop one u v b c 520
    let x ← cell u
    pure (some (if x.equals (← cell one) then b else c))

/-- `Parity`, fr.go:265-269. -/
def parity (f : Nat) : M Bool := do
  let neg ← copy f
  negAssign neg
  pure ((← cmp f neg) > 0)

/-- The loop of `MulBits`, fr.go:274-279, from bit `i` on, `k` bits left. -/
def mulBitsLoop (f b res : Nat) : (k i : Nat) → M Unit
  | 0, _ => pure ()
  | k + 1, i => do
    doubleAssign res
    match (← cell b).bit i with
    | none => .panic
    | some t =>
      if t then addAssign res f else pure ()
      mulBitsLoop f b res k (i + 1)

/-- `MulBits`, fr.go:272-281. -/
def mulBits (f b : Nat) : M Nat := do
  let res ← copy aBigZeroFR
  mulBitsLoop f b res (← cell b).bitLen 0
  pure res

/-- The loop of `MulBytes`, fr.go:286-291. -/
def mulBytesLoop (f : Nat) (b : List UInt8) (res : Nat) : (k i : Nat) → M Unit
  | 0, _ => pure ()
  | k + 1, i => do
    doubleAssign res
    match b[i / 8]? with
    | none => .panic
    | some w =>
      if w &&& (1 <<< UInt8.ofNat (i % 8)) != 0 then addAssign res f else pure ()
      mulBytesLoop f b res k (i + 1)

/-- `MulBytes`, fr.go:284-293. -/
def mulBytes (f : Nat) (b : List UInt8) : M Nat := do
  let res ← copy aBigZeroFR
  mulBytesLoop f b res (b.length * 8) 0
  pure res

/-- `HashFR`, fr.go:296-299, as a function of the digest. -/
def hashFR (digest : List UInt8) : M Nat := mulBytes aBigOneFR digest

/-- `Legendre`, fr.go:304-313. -/
def legendre (f : Nat) : M LegendreSymbol := do
  let o ← exp f aRMinus1Over2
  if ← isZero o then pure .zero
  else if ← equals o aBigOneFR then pure .quadraticResidue
  else pure .quadraticNonResidue

/-- `Serialize` of a secret key, g1pubs/bls.go:115-117 and g2pubs/bls.go:115-117, fr.go:332-334. -/
def serialize (f : Nat) : M (List UInt8) := do pure (← cell (← toRepr f)).bytes

/-- Running a call on its own: the result and the memory after it (`none`: it panics). -/
def M.run {α : Type} : M α → Mem → Option (α × Mem)
  | .ret a, m => some (a, m)
  | .panic, _ => none
  | .readCell p k, m => (k (m.cell p)).run m
  | .writeCell p v k, m => k.run (m.set p v)
  | .readFr f k, m => (k (m.fr f)).run m
  | .writeFr f p k, m => k.run (m.setN f p)
  | .newCell v k, m => (k (m.alloc v).1).run (m.alloc v).2
  | .newFr p k, m => (k (m.allocFr p).1).run (m.allocFr p).2

end Bls.HeapFR
