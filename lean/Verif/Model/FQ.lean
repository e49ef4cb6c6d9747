import Verif.Model.FQRepr
import Verif.Model.BitIterator
/-
fq.go
-/
namespace Bls

/-- `QFieldModulus`, fq.go:26. -/
def qFieldModulus : FQRepr := .ofNat
  4002409555221667393417789825735904156556882819939007885332058136124031650490837864442687629129015664037894272559787

/-- `FQR2`, fq.go:29. -/
def fqR2 : FQRepr := .ofNat
  2708263910654730174793787626328176511836455197166317677006154293982164122222515399004018013397331347120527951271750

/-- `montInvFQ`, stub_fallback.go:59. -/
def montInvFQ : W := 0x89f3fffcfffcfffd

/-- `MontReduce`, stub_fallback.go:61-116. -/
def montReduceRepr (hi lo : FQRepr) : FQRepr :=
  let Q := qFieldModulus
  let k := lo.l0 * montInvFQ
  let (_, carry) := macWithCarry lo.l0 k Q.l0 0
  let (lo1, carry) := macWithCarry lo.l1 k Q.l1 carry
  let (lo2, carry) := macWithCarry lo.l2 k Q.l2 carry
  let (lo3, carry) := macWithCarry lo.l3 k Q.l3 carry
  let (lo4, carry) := macWithCarry lo.l4 k Q.l4 carry
  let (lo5, carry) := macWithCarry lo.l5 k Q.l5 carry
  let (hi0, carry) := addWithCarry hi.l0 0 carry
  let carry2 := carry
  let k := lo1 * montInvFQ
  let (_, carry) := macWithCarry lo1 k Q.l0 0
  let (lo2, carry) := macWithCarry lo2 k Q.l1 carry
  let (lo3, carry) := macWithCarry lo3 k Q.l2 carry
  let (lo4, carry) := macWithCarry lo4 k Q.l3 carry
  let (lo5, carry) := macWithCarry lo5 k Q.l4 carry
  let (hi0, carry) := macWithCarry hi0 k Q.l5 carry
  let (hi1, carry) := addWithCarry hi.l1 carry2 carry
  let carry2 := carry
  let k := lo2 * montInvFQ
  let (_, carry) := macWithCarry lo2 k Q.l0 0
  let (lo3, carry) := macWithCarry lo3 k Q.l1 carry
  let (lo4, carry) := macWithCarry lo4 k Q.l2 carry
  let (lo5, carry) := macWithCarry lo5 k Q.l3 carry
  let (hi0, carry) := macWithCarry hi0 k Q.l4 carry
  let (hi1, carry) := macWithCarry hi1 k Q.l5 carry
  let (hi2, carry) := addWithCarry hi.l2 carry2 carry
  let carry2 := carry
  let k := lo3 * montInvFQ
  let (_, carry) := macWithCarry lo3 k Q.l0 0
  let (lo4, carry) := macWithCarry lo4 k Q.l1 carry
  let (lo5, carry) := macWithCarry lo5 k Q.l2 carry
  let (hi0, carry) := macWithCarry hi0 k Q.l3 carry
  let (hi1, carry) := macWithCarry hi1 k Q.l4 carry
  let (hi2, carry) := macWithCarry hi2 k Q.l5 carry
  let (hi3, carry) := addWithCarry hi.l3 carry2 carry
  let carry2 := carry
  let k := lo4 * montInvFQ
  let (_, carry) := macWithCarry lo4 k Q.l0 0
  let (lo5, carry) := macWithCarry lo5 k Q.l1 carry
  let (hi0, carry) := macWithCarry hi0 k Q.l2 carry
  let (hi1, carry) := macWithCarry hi1 k Q.l3 carry
  let (hi2, carry) := macWithCarry hi2 k Q.l4 carry
  let (hi3, carry) := macWithCarry hi3 k Q.l5 carry
  let (hi4, carry) := addWithCarry hi.l4 carry2 carry
  let carry2 := carry
  let k := lo5 * montInvFQ
  let (_, carry) := macWithCarry lo5 k Q.l0 0
  let (hi0, carry) := macWithCarry hi0 k Q.l1 carry
  let (hi1, carry) := macWithCarry hi1 k Q.l2 carry
  let (hi2, carry) := macWithCarry hi2 k Q.l3 carry
  let (hi3, carry) := macWithCarry hi3 k Q.l4 carry
  let (hi4, carry) := macWithCarry hi4 k Q.l5 carry
  let (hi5, _) := addWithCarry hi.l5 carry2 carry
  ⟨hi0, hi1, hi2, hi3, hi4, hi5⟩

/-- `FQ`, fq.go:11-13: a field element in Montgomery form. `Copy`, fq.go:32-34, is the identity on values. -/
@[ext] structure FQ where
  n : FQRepr
deriving DecidableEq, Repr

/-- `bigZero`, `bigOne`, `bigTwo`, fq.go:17. -/
def bigZero : FQRepr := .new 0
@[inherit_doc bigZero] def bigOne : FQRepr := .new 1
@[inherit_doc bigZero] def bigTwo : FQRepr := .new 2

namespace FQ

/-- `IsValid`, fq.go:37-39. -/
def isValid (f : FQ) : Bool :=
  f.n.l5 &&& 0xf000000000000000 == 0 || f.n.cmp qFieldModulus < 0

/-- `reduceAssign`, fq.go:41-45, on the limbs. -/
def reduceRepr (n : FQRepr) : FQRepr :=
  if !(FQ.mk n).isValid then n.subNoBorrow qFieldModulus else n

/-- `reduceAssign`, fq.go:41-45. -/
def reduce (f : FQ) : FQ := ⟨reduceRepr f.n⟩

/-- `montReduce`, fq.go:70-73. -/
def montReduce (hi lo : FQRepr) : FQ := ⟨reduceRepr (montReduceRepr hi lo)⟩

/-- `MulAssign`, fq.go:76-79. -/
def mul (f other : FQ) : FQ :=
  let (hi, lo) := f.n.multiply other.n
  montReduce hi lo

/-- `FQReprToFQ`, fq.go:49-56. -/
def ofRepr (o : FQRepr) : FQ :=
  let r : FQ := ⟨o⟩
  if r.isValid then r.mul ⟨fqR2⟩ else ⟨⟨0, 0, 0, 0, 0, 0⟩⟩

/-- `FQReprToFQRaw`, fq.go:60-62. -/
def ofReprRaw (o : FQRepr) : FQ := ⟨o⟩

/-- `FQZero`, fq.go:20. -/
def zero : FQ := ofReprRaw bigZero

/-- `FQOne`, fq.go:23. -/
def one : FQ := ofRepr bigOne

/-- `AddAssign`, fq.go:65-68. -/
def add (f other : FQ) : FQ := reduce ⟨f.n.addNoCarry other.n⟩

/-- `SubAssign`, fq.go:82-87. -/
def sub (f other : FQ) : FQ :=
  let n := if other.n.cmp f.n > 0 then f.n.addNoCarry qFieldModulus else f.n
  ⟨n.subNoBorrow other.n⟩

/-- `IsZero`, fq.go:146-148. -/
def isZero (f : FQ) : Bool := f.n.equals bigZero

/-- `Equals`, fq.go:116-118. -/
def equals (f other : FQ) : Bool := f.n.equals other.n

/-- `NegAssign`, fq.go:121-127. -/
def neg (f : FQ) : FQ :=
  ⟨if !f.isZero then qFieldModulus.subNoBorrow f.n else f.n⟩

/-- `DoubleAssign`, fq.go:140-143. -/
def double (f : FQ) : FQ := reduce ⟨f.n.mul2⟩

/-- `ToRepr`, fq.go:334-338. -/
def toRepr (f : FQ) : FQRepr := reduceRepr (montReduceRepr ⟨0, 0, 0, 0, 0, 0⟩ f.n)

/-- `Cmp`, fq.go:134-137. -/
def cmp (f other : FQ) : GoInt := f.toRepr.cmp other.toRepr

/-- The 768-bit square computed by `SquareAssign` before reduction, fq.go:152-196: `(hi, lo)`. -/
def squareWide (f : FQRepr) : FQRepr × FQRepr :=
  let (r1, carry) := macWithCarry 0 f.l0 f.l1 0
  let (r2, carry) := macWithCarry 0 f.l0 f.l2 carry
  let (r3, carry) := macWithCarry 0 f.l0 f.l3 carry
  let (r4, carry) := macWithCarry 0 f.l0 f.l4 carry
  let (r5, carry) := macWithCarry 0 f.l0 f.l5 carry
  let r6 := carry
  let (r3, carry) := macWithCarry r3 f.l1 f.l2 0
  let (r4, carry) := macWithCarry r4 f.l1 f.l3 carry
  let (r5, carry) := macWithCarry r5 f.l1 f.l4 carry
  let (r6, carry) := macWithCarry r6 f.l1 f.l5 carry
  let r7 := carry
  let (r5, carry) := macWithCarry r5 f.l2 f.l3 0
  let (r6, carry) := macWithCarry r6 f.l2 f.l4 carry
  let (r7, carry) := macWithCarry r7 f.l2 f.l5 carry
  let r8 := carry
  let (r7, carry) := macWithCarry r7 f.l3 f.l4 0
  let (r8, carry) := macWithCarry r8 f.l3 f.l5 carry
  let r9 := carry
  let (r9, carry) := macWithCarry r9 f.l4 f.l5 0
  let r10 := carry
  let r11 := r10 >>> 63
  let r10 := (r10 <<< 1) ||| (r9 >>> 63)
  let r9 := (r9 <<< 1) ||| (r8 >>> 63)
  let r8 := (r8 <<< 1) ||| (r7 >>> 63)
  let r7 := (r7 <<< 1) ||| (r6 >>> 63)
  let r6 := (r6 <<< 1) ||| (r5 >>> 63)
  let r5 := (r5 <<< 1) ||| (r4 >>> 63)
  let r4 := (r4 <<< 1) ||| (r3 >>> 63)
  let r3 := (r3 <<< 1) ||| (r2 >>> 63)
  let r2 := (r2 <<< 1) ||| (r1 >>> 63)
  let r1 := r1 <<< 1
  let carry : W := 0
  let (r0, carry) := macWithCarry 0 f.l0 f.l0 carry
  let (r1, carry) := addWithCarry r1 0 carry
  let (r2, carry) := macWithCarry r2 f.l1 f.l1 carry
  let (r3, carry) := addWithCarry r3 0 carry
  let (r4, carry) := macWithCarry r4 f.l2 f.l2 carry
  let (r5, carry) := addWithCarry r5 0 carry
  let (r6, carry) := macWithCarry r6 f.l3 f.l3 carry
  let (r7, carry) := addWithCarry r7 0 carry
  let (r8, carry) := macWithCarry r8 f.l4 f.l4 carry
  let (r9, carry) := addWithCarry r9 0 carry
  let (r10, carry) := macWithCarry r10 f.l5 f.l5 carry
  let (r11, _) := addWithCarry r11 0 carry
  (⟨r6, r7, r8, r9, r10, r11⟩, ⟨r0, r1, r2, r3, r4, r5⟩)

/-- `SquareAssign`, fq.go:151-198. -/
def square (f : FQ) : FQ :=
  let (hi, lo) := squareWide f.n
  montReduce hi lo

/-- `Exp`, fq.go:96-113. `none` would be a panic or non-termination of the iterator. -/
def exp? (f : FQ) (n : FQRepr) : Option FQ :=
  ((newBitIterator n.words).drain 385).map (fun bits => powLoop square mul f bits one false)

/-- `Exp`, fq.go:96-113, with the (unreachable, see `FQ.exp?_eq_some`) failure defaulted. -/
def exp (f : FQ) (n : FQRepr) : FQ := (f.exp? n).getD zero

/-- `qMinus3Over4`, fq2.go:167 (used by `FQ.Sqrt`). -/
def qMinus3Over4 : FQRepr := .ofNat
  0x680447a8e5ff9a692c6e9ed90d2eb35d91dd2e13ce144afd9cc34a83dac3d8907aaffffac54ffffee7fbfffffffeaaa

/-- `negativeOne`, fq2.go:190. -/
def negativeOne : FQRepr := .ofNat
  4002409555221667393417789825735904156556882819939007885332058136124031650490837864442687629129015664037894272559786

/-- `negativeOneFQ`, fq.go:200. -/
def negativeOneFQ : FQ := ofRepr negativeOne

/-- `Sqrt`, fq.go:203-217; the Boolean is Go's second result. -/
def sqrt (f : FQ) : FQ × Bool :=
  let a1 := f.exp qMinus3Over4
  let a0 := a1.square
  let a0 := a0.mul f
  if a0.equals negativeOneFQ then (⟨⟨0, 0, 0, 0, 0, 0⟩⟩, false)
  else
    let a1 := a1.mul f
    (a1, true)

/-- The inner loops of `Inverse`, fq.go:224-266 and 244-252: halve `u` while it is even, halving
`b` modulo q alongside. Fuel exhaustion (`none`) stands for a loop that has not ended yet. -/
def halveLoop : (fuel : Nat) → (u b : FQRepr) → Option (FQRepr × FQRepr)
  | 0, _, _ => none
  | fuel + 1, u, b =>
    if u.isEven then
      let u := u.div2
      let b := if b.isEven then b.div2 else (b.addNoCarry qFieldModulus).div2
      halveLoop fuel u b
    else some (u, b)

/-- The outer loop of `Inverse`, fq.go:224-266. -/
def inverseLoop : (fuel : Nat) → (u v : FQRepr) → (b c : FQ) → Option FQ
  | 0, _, _, _, _ => none
  | fuel + 1, u, v, b, c =>
    if u.cmp bigOne ≠ 0 ∧ v.cmp bigOne ≠ 0 then
      match halveLoop 385 u b.n with
      | none => none
      | some (u, bn) =>
        match halveLoop 385 v c.n with
        | none => none
        | some (v, cn) =>
          let b : FQ := ⟨bn⟩
          let c : FQ := ⟨cn⟩
          if u.cmp v ≥ 0 then inverseLoop fuel (u.subNoBorrow v) v (b.sub c) c
          else inverseLoop fuel u (v.subNoBorrow u) b (c.sub b)
    else if u.cmp bigOne = 0 then some b
    else some c

/-- `Inverse`, fq.go:224-266. `none`: the loop runs longer than the fuel
(`FQ.inverse?_terminates`: never for canonical input). -/
def inverse? (f : FQ) : Option (FQ × Bool) :=
  if f.isZero then some (⟨⟨0, 0, 0, 0, 0, 0⟩⟩, false)
  else (inverseLoop 770 f.n qFieldModulus (ofReprRaw fqR2) zero).map (fun b => (b, true))

/-- `Inverse`, fq.go:224-266, for callers; the default is unreachable for canonical input. -/
def inverse (f : FQ) : FQ × Bool := f.inverse?.getD (⟨⟨0, 0, 0, 0, 0, 0⟩⟩, false)

/-- `DivAssign`, fq.go:90-93. -/
def div (f other : FQ) : FQ :=
  let otherInv := other.inverse
  f.mul otherInv.1

/-- `Parity`, fq.go:269-273. -/
def parity (f : FQ) : Bool :=
  let neg := f.neg
  f.cmp neg > 0

/-- The loop of `MulBits`, fq.go:276-285, from bit `i` on, `k` bits left. -/
def mulBitsLoop (f : FQ) (b : FQRepr) : (k i : Nat) → FQ → Option FQ
  | 0, _, res => some res
  | k + 1, i, res =>
    let res := res.double
    match b.bit i with
    | none => none
    | some true => mulBitsLoop f b k (i + 1) (res.add f)
    | some false => mulBitsLoop f b k (i + 1) res

/-- `MulBits`, fq.go:276-285. `none` would be a panic. -/
def mulBits (f : FQ) (b : FQRepr) : Option FQ := mulBitsLoop f b b.bitLen 0 zero

/-- The loop of `MulBytes`, fq.go:288-297; `none` would be a panic. -/
def mulBytesLoop (f : FQ) (b : List UInt8) : (k i : Nat) → FQ → Option FQ
  | 0, _, res => some res
  | k + 1, i, res =>
    let res := res.double
    match b[i / 8]? with
    | none => none
    | some w =>
      if w &&& (1 <<< UInt8.ofNat (i % 8)) != 0 then mulBytesLoop f b k (i + 1) (res.add f)
      else mulBytesLoop f b k (i + 1) res

/-- `MulBytes`, fq.go:288-297. -/
def mulBytes (f : FQ) (b : List UInt8) : Option FQ := mulBytesLoop f b (b.length * 8) 0 zero

/-- `HashFQ`, fq.go:300-303, as a function of the digest `hasher.Sum(nil)`. -/
def hashFQ (digest : List UInt8) : Option FQ := one.mulBytes digest

/-- `qMinus1Over2`, fq.go:305. -/
def qMinus1Over2 : FQRepr :=
  ⟨0xdcff7fffffffd555, 0xf55ffff58a9ffff, 0xb39869507b587b12, 0xb23ba5c279c2895f,
   0x258dd3db21a5d66b, 0xd0088f51cbff34d⟩

end FQ

/-- `LegendreSymbol`, fq.go:308. -/
inductive LegendreSymbol
  | zero
  | quadraticResidue
  | quadraticNonResidue
deriving DecidableEq, Repr

namespace FQ

/-- `Legendre`, fq.go:322-331. -/
def legendre (f : FQ) : LegendreSymbol :=
  let o := f.exp qMinus1Over2
  if o.isZero then .zero
  else if o.equals one then .quadraticResidue
  else .quadraticNonResidue

/-- `RandFQ`, fq.go:341-349. `r` is the outcome of `rand.Int(reader, q)`: `none` an error. The
outer `Option` is `none` for a panic, the inner one for the returned error. -/
def rand (r : Option Int) : Option (Option FQ) :=
  match r with
  | none => some none
  | some r =>
    match FQRepr.fromBigInt r with
    | none => none
    | some none => some (some (ofRepr ⟨0, 0, 0, 0, 0, 0⟩))
    | some (some b) => some (some (ofRepr b))

end FQ

/- Keep the elaborator from unfolding the long straight-line definitions (no effect on the
kernel or on meaning). -/
attribute [irreducible] montReduceRepr FQ.squareWide FQ.isValid FQ.reduceRepr FQ.reduce FQ.montReduce FQ.mul FQ.add FQ.sub
  FQ.neg FQ.double FQ.square FQ.toRepr FQ.cmp FQ.exp FQ.sqrt FQ.inverse FQ.inverse? FQ.equals FQ.isZero
  FQ.halveLoop FQ.inverseLoop FQ.one

end Bls
