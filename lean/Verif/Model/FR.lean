import Verif.Model.FRRepr
import Verif.Model.FQ
/-
fr.go, as functions on values. What the methods do to memory shared between `FR` values (they
mutate the array their receiver points to) is modelled in Verif/Model/Heap.lean.
-/
namespace Bls

/-- `RFieldModulus`, fr.go:16. -/
def rFieldModulus : FRRepr := .ofNat
  52435875175126190479447740508185965837690552500527637822603658699938581184513

/-- `FRR2`, fr.go:38. -/
def frR2 : FRRepr := .ofNat
  3294906474794265442129797520630710739278575682199800681788903916070560242797

/-- `montInvFR`, fr.go:57. -/
def montInvFR : W := 0xfffffffeffffffff

/-- The limbs computed by `montReduce` before the final reduction, fr.go:59-92; the low half
`r0..r3` is `lo`, the high half `r4..r7` is `hi`. -/
def montReduceFRRepr (hi lo : FRRepr) : FRRepr :=
  let M := rFieldModulus
  let k := lo.l0 * montInvFR
  let (_, carry) := macWithCarry lo.l0 k M.l0 0
  let (r1, carry) := macWithCarry lo.l1 k M.l1 carry
  let (r2, carry) := macWithCarry lo.l2 k M.l2 carry
  let (r3, carry) := macWithCarry lo.l3 k M.l3 carry
  let (r4, carry) := addWithCarry hi.l0 0 carry
  let carry2 := carry
  let k := r1 * montInvFR
  let (_, carry) := macWithCarry r1 k M.l0 0
  let (r2, carry) := macWithCarry r2 k M.l1 carry
  let (r3, carry) := macWithCarry r3 k M.l2 carry
  let (r4, carry) := macWithCarry r4 k M.l3 carry
  let (r5, carry) := addWithCarry hi.l1 carry2 carry
  let carry2 := carry
  let k := r2 * montInvFR
  let (_, carry) := macWithCarry r2 k M.l0 0
  let (r3, carry) := macWithCarry r3 k M.l1 carry
  let (r4, carry) := macWithCarry r4 k M.l2 carry
  let (r5, carry) := macWithCarry r5 k M.l3 carry
  let (r6, carry) := addWithCarry hi.l2 carry2 carry
  let carry2 := carry
  let k := r3 * montInvFR
  let (_, carry) := macWithCarry r3 k M.l0 0
  let (r4, carry) := macWithCarry r4 k M.l1 carry
  let (r5, carry) := macWithCarry r5 k M.l2 carry
  let (r6, carry) := macWithCarry r6 k M.l3 carry
  let (r7, _) := addWithCarry hi.l3 carry2 carry
  ⟨r4, r5, r6, r7⟩

/-- `FR`, fr.go:11-13: a scalar field element in Montgomery form. -/
@[ext] structure FR where
  n : FRRepr
deriving DecidableEq, Repr

/-- `frZero`, fr.go:128. -/
def frZero : FRRepr := .new 0

namespace FR

/-- `IsValid`, fr.go:19-21. -/
def isValid (f : FR) : Bool := f.n.cmp rFieldModulus < 0

/-- `reduceAssign`, fr.go:23-27, on the limbs. -/
def reduceRepr (n : FRRepr) : FRRepr :=
  if !(FR.mk n).isValid then n.subNoBorrow rFieldModulus else n

/-- `reduceAssign`, fr.go:23-27. -/
def reduce (f : FR) : FR := ⟨reduceRepr f.n⟩

/-- `montReduce`, fr.go:59-92. -/
def montReduce (hi lo : FRRepr) : FR := ⟨reduceRepr (montReduceFRRepr hi lo)⟩

/-- The 512-bit product computed by `MulAssign`, fr.go:95-117: `(hi, lo)`. -/
def multiply (a b : FRRepr) : FRRepr × FRRepr :=
  let (r0, carry) := macWithCarry 0 a.l0 b.l0 0
  let (r1, carry) := macWithCarry 0 a.l0 b.l1 carry
  let (r2, carry) := macWithCarry 0 a.l0 b.l2 carry
  let (r3, carry) := macWithCarry 0 a.l0 b.l3 carry
  let r4 := carry
  let (r1, carry) := macWithCarry r1 a.l1 b.l0 0
  let (r2, carry) := macWithCarry r2 a.l1 b.l1 carry
  let (r3, carry) := macWithCarry r3 a.l1 b.l2 carry
  let (r4, carry) := macWithCarry r4 a.l1 b.l3 carry
  let r5 := carry
  let (r2, carry) := macWithCarry r2 a.l2 b.l0 0
  let (r3, carry) := macWithCarry r3 a.l2 b.l1 carry
  let (r4, carry) := macWithCarry r4 a.l2 b.l2 carry
  let (r5, carry) := macWithCarry r5 a.l2 b.l3 carry
  let r6 := carry
  let (r3, carry) := macWithCarry r3 a.l3 b.l0 0
  let (r4, carry) := macWithCarry r4 a.l3 b.l1 carry
  let (r5, carry) := macWithCarry r5 a.l3 b.l2 carry
  let (r6, carry) := macWithCarry r6 a.l3 b.l3 carry
  let r7 := carry
  (⟨r4, r5, r6, r7⟩, ⟨r0, r1, r2, r3⟩)

/-- `MulAssign`, fr.go:95-117. -/
def mul (f other : FR) : FR :=
  let (hi, lo) := multiply f.n other.n
  montReduce hi lo

/-- `FRReprToFR`, fr.go:42-49: `none` is the nil pointer returned for an integer `≥ r`. (That it
also overwrites its argument is in Verif/Model/Heap.lean.) -/
def ofRepr? (o : FRRepr) : Option FR :=
  let r : FR := ⟨o⟩
  if r.isValid then some (r.mul ⟨frR2⟩) else none

/-- `bigOneFR`, fr.go:129, as initialised. -/
def one : FR := FR.mul ⟨.new 1⟩ ⟨frR2⟩

/-- `bigZeroFR`, fr.go:130. -/
def zero : FR := FR.mul ⟨frZero⟩ ⟨frR2⟩

/-- `AddAssign`, fr.go:52-55. -/
def add (f other : FR) : FR := reduce ⟨f.n.addNoCarry other.n⟩

/-- `SubAssign`, fr.go:120-125. -/
def sub (f other : FR) : FR :=
  let n := if other.n.cmp f.n > 0 then f.n.addNoCarry rFieldModulus else f.n
  ⟨n.subNoBorrow other.n⟩

/-- `IsZero`, fr.go:177-179. -/
def isZero (f : FR) : Bool := f.n.cmp frZero == 0

/-- `Equals`, fr.go:148-150. -/
def equals (f other : FR) : Bool := f.n.equals other.n

/-- `NegAssign`, fr.go:153-159. -/
def neg (f : FR) : FR :=
  ⟨if !f.isZero then rFieldModulus.subNoBorrow f.n else f.n⟩

/-- `DoubleAssign`, fr.go:171-174. -/
def double (f : FR) : FR := reduce ⟨f.n.mul2⟩

/-- `ToRepr`, fr.go:316-329. -/
def toRepr (f : FR) : FRRepr := reduceRepr (montReduceFRRepr ⟨0, 0, 0, 0⟩ f.n)

/-- `Cmp`, fr.go:166-168. -/
def cmp (f other : FR) : GoInt := f.toRepr.cmp other.toRepr

/-- The 512-bit square computed by `SquareAssign`, fr.go:182-210: `(hi, lo)`. -/
def squareWide (f : FRRepr) : FRRepr × FRRepr :=
  let (r1, carry) := macWithCarry 0 f.l0 f.l1 0
  let (r2, carry) := macWithCarry 0 f.l0 f.l2 carry
  let (r3, carry) := macWithCarry 0 f.l0 f.l3 carry
  let r4 := carry
  let (r3, carry) := macWithCarry r3 f.l1 f.l2 0
  let (r4, carry) := macWithCarry r4 f.l1 f.l3 carry
  let r5 := carry
  let (r5, carry) := macWithCarry r5 f.l2 f.l3 0
  let r6 := carry
  let r7 := r6 >>> 63
  let r6 := (r6 <<< 1) ||| (r5 >>> 63)
  let r5 := (r5 <<< 1) ||| (r4 >>> 63)
  let r4 := (r4 <<< 1) ||| (r3 >>> 63)
  let r3 := (r3 <<< 1) ||| (r2 >>> 63)
  let r2 := (r2 <<< 1) ||| (r1 >>> 63)
  let r1 := r1 <<< 1
  let carry : W := 0
  let (r0, carry) := macWithCarry 0 f.l0 f.l0 carry
  let (r1, carry) := addWithCarry r1 0 carry
  let (r2, carry) := macWithCarry r2 f.l1 f.l1 carry
  let (r3, carry) := addWithCarry r3 0 carry
  let (r4, carry) := macWithCarry r4 f.l2 f.l2 carry
  let (r5, carry) := addWithCarry r5 0 carry
  let (r6, carry) := macWithCarry r6 f.l3 f.l3 carry
  let (r7, _) := addWithCarry r7 0 carry
  (⟨r4, r5, r6, r7⟩, ⟨r0, r1, r2, r3⟩)

/-- `SquareAssign`, fr.go:182-210. -/
def square (f : FR) : FR :=
  let (hi, lo) := squareWide f.n
  montReduce hi lo

/-- The loop of `Exp`, fr.go:133-145: state `(nCopy, fi, fNew)`; `none` is a loop that has not ended
within the fuel. -/
def expLoop : (fuel : Nat) → (nCopy : FRRepr) → (fi fNew : FR) → Option FR
  | 0, _, _, _ => none
  | fuel + 1, nCopy, fi, fNew =>
    if nCopy.cmp frZero ≠ 0 then
      let fNew := if nCopy.isOdd then fNew.mul fi else fNew
      let fi := fi.square
      let nCopy := nCopy.rsh 1
      expLoop fuel nCopy fi fNew
    else some fNew

/-- `Exp`, fr.go:133-145, given the value `bigOneFR` has at the time of the call. -/
def expFrom (bigOneFR f : FR) (n : FRRepr) : Option FR := expLoop 257 n f bigOneFR

/-- `Exp`, fr.go:133-145, with `bigOneFR` as initialised. -/
def exp? (f : FR) (n : FRRepr) : Option FR := expFrom one f n

/-- `Exp`, fr.go:133-145; the default is unreachable (`FR.exp?_eq_some`). -/
def exp (f : FR) (n : FRRepr) : FR := (f.exp? n).getD zero

/-- The inner loops of `Inverse`, fr.go:219-262 (both loops). Fuel exhaustion (`none`) stands for a
loop that has not ended yet. -/
def halveLoop : (fuel : Nat) → (u b : FRRepr) → Option (FRRepr × FRRepr)
  | 0, _, _ => none
  | fuel + 1, u, b =>
    if u.isEven then
      let u := u.div2
      let b := if b.isEven then b.div2 else (b.addNoCarry rFieldModulus).div2
      halveLoop fuel u b
    else some (u, b)

/-- The outer loop of `Inverse`, fr.go:219-262. -/
def inverseLoop : (fuel : Nat) → (u v : FRRepr) → (b c : FR) → Option FR
  | 0, _, _, _, _ => none
  | fuel + 1, u, v, b, c =>
    if u.cmp (.new 1) ≠ 0 ∧ v.cmp (.new 1) ≠ 0 then
      match halveLoop 257 u b.n with
      | none => none
      | some (u, bn) =>
        match halveLoop 257 v c.n with
        | none => none
        | some (v, cn) =>
          let b : FR := ⟨bn⟩
          let c : FR := ⟨cn⟩
          if u.cmp v ≥ 0 then inverseLoop fuel (u.subNoBorrow v) v (b.sub c) c
          else inverseLoop fuel u (v.subNoBorrow u) b (c.sub b)
    else if u.equals (.new 1) then some b
    else some c

/-- `Inverse`, fr.go:219-262. Outer `none`: the loop runs longer than the fuel; inner `none`: the
nil pointer returned for zero. -/
def inverse? (f : FR) : Option (Option FR) :=
  if f.isZero then some none
  else (inverseLoop 520 f.n rFieldModulus ⟨frR2⟩ zero).map some

/-- `Parity`, fr.go:265-269. -/
def parity (f : FR) : Bool :=
  let neg := f.neg
  f.cmp neg > 0

/-- The loop of `MulBits`, fr.go:272-281, from bit `i` on, `k` bits left. -/
def mulBitsLoop (f : FR) (b : FRRepr) : (k i : Nat) → FR → Option FR
  | 0, _, res => some res
  | k + 1, i, res =>
    let res := res.double
    match b.bit i with
    | none => none
    | some true => mulBitsLoop f b k (i + 1) (res.add f)
    | some false => mulBitsLoop f b k (i + 1) res

/-- `MulBits`, fr.go:272-281. `none` would be a panic. -/
def mulBits (f : FR) (b : FRRepr) : Option FR := mulBitsLoop f b b.bitLen 0 zero

/-- The loop of `MulBytes`, fr.go:284-293; `none` would be a panic. -/
def mulBytesLoop (f : FR) (b : List UInt8) : (k i : Nat) → FR → Option FR
  | 0, _, res => some res
  | k + 1, i, res =>
    let res := res.double
    match b[i / 8]? with
    | none => none
    | some w =>
      if w &&& (1 <<< UInt8.ofNat (i % 8)) != 0 then mulBytesLoop f b k (i + 1) (res.add f)
      else mulBytesLoop f b k (i + 1) res

/-- `MulBytes`, fr.go:284-293. -/
def mulBytes (f : FR) (b : List UInt8) : Option FR := mulBytesLoop f b (b.length * 8) 0 zero

/-- `HashFR`, fr.go:296-299, as a function of the digest `hasher.Sum(nil)`. -/
def hashFR (digest : List UInt8) : Option FR := one.mulBytes digest

/-- `rMinus1Over2`, fr.go:301. -/
def rMinus1Over2 : FRRepr := .ofNat
  26217937587563095239723870254092982918845276250263818911301829349969290592256

/-- `Legendre`, fr.go:304-313. -/
def legendre (f : FR) : LegendreSymbol :=
  let o := f.exp rMinus1Over2
  if o.isZero then .zero
  else if o.equals one then .quadraticResidue
  else .quadraticNonResidue

/-- `Bytes`, fr.go:332-334. -/
def bytes (f : FR) : List UInt8 := f.toRepr.bytes

/-- `RandFR`, fr.go:337-344. `x` is the outcome of `rand.Int(reader, r)`: `none` an error. Outer
`none`: panic (nil dereference); middle: error; inner `none`: a nil `*FR`. -/
def rand (x : Option Int) : Option (Option (Option FR)) :=
  match x with
  | none => some none
  | some x =>
    match FRRepr.fromBigInt x with
    | none => none
    | some none => none
    | some (some b) => some (some (ofRepr? b))

end FR

/- Keep the elaborator from unfolding the long straight-line definitions (no effect on the
kernel or on meaning). -/
attribute [irreducible] montReduceFRRepr FR.multiply FR.squareWide FR.isValid FR.reduceRepr FR.reduce FR.montReduce
  FR.mul FR.add FR.sub FR.neg FR.double FR.square FR.toRepr FR.cmp FR.exp FR.expFrom FR.inverse? FR.equals
  FR.isZero FR.halveLoop FR.inverseLoop FR.one FR.zero

end Bls
