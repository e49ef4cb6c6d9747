import Verif.Model.FQ
/-
fq2.go
-/
namespace Bls

/-- `FQ2`, fq2.go:13-16: `c0 + c1·u`. The constructor is `NewFQ2`, fq2.go:19-24; `Copy`, fq2.go:235-237, is the
identity on values. -/
@[ext] structure FQ2 where
  c0 : FQ
  c1 : FQ
deriving DecidableEq, Repr

namespace FQ2

/-- `Cmp`, fq2.go:31-37: `c1` decides first. -/
def cmp (f other : FQ2) : GoInt :=
  let cOut := f.c1.cmp other.c1
  if cOut ≠ 0 then cOut else f.c0.cmp other.c0

/-- `MultiplyByNonresidueAssign`, fq2.go:41-45. -/
def mulByNonresidue (f : FQ2) : FQ2 :=
  let oldC0 := f.c0
  ⟨f.c0.sub f.c1, f.c1.add oldC0⟩

/-- `Norm`, fq2.go:48-55. -/
def norm (f : FQ2) : FQ :=
  let t0 := f.c0.square
  let t1 := f.c1.square
  t1.add t0

/-- `FQ2Zero`, fq2.go:58-61. -/
def zero : FQ2 := ⟨FQ.zero, FQ.zero⟩

/-- `FQ2One`, fq2.go:64-67. -/
def one : FQ2 := ⟨FQ.one, FQ.zero⟩

/-- `IsZero`, fq2.go:70-72. -/
def isZero (f : FQ2) : Bool := f.c0.isZero && f.c1.isZero

/-- `SquareAssign`, fq2.go:75-89. -/
def square (f : FQ2) : FQ2 :=
  let ab := f.c0.mul f.c1
  let c0c1 := f.c0.add f.c1
  let c0 := f.c1.neg
  let c0 := c0.add f.c0
  let c0 := c0.mul c0c1
  let c0 := c0.sub ab
  let c0 := c0.add ab
  let ab := ab.add ab
  ⟨c0, ab⟩

/-- `DoubleAssign`, fq2.go:92-95. -/
def double (f : FQ2) : FQ2 := ⟨f.c0.double, f.c1.double⟩

/-- `NegAssign`, fq2.go:98-101. -/
def neg (f : FQ2) : FQ2 := ⟨f.c0.neg, f.c1.neg⟩

/-- `AddAssign`, fq2.go:104-107. -/
def add (f other : FQ2) : FQ2 := ⟨f.c0.add other.c0, f.c1.add other.c1⟩

/-- `SubAssign`, fq2.go:110-113. -/
def sub (f other : FQ2) : FQ2 := ⟨f.c0.sub other.c0, f.c1.sub other.c1⟩

/-- `MulAssign`, fq2.go:116-130. -/
def mul (f other : FQ2) : FQ2 :=
  let aa := f.c0.mul other.c0
  let bb := f.c1.mul other.c1
  let o := other.c0.add other.c1
  let c1 := f.c1.add f.c0
  let c1 := c1.mul o
  let c1 := c1.sub aa
  let c1 := c1.sub bb
  ⟨aa.sub bb, c1⟩

/-- `InverseAssign`, fq2.go:133-147: the new receiver (unchanged on failure) and the result. -/
def inverse (f : FQ2) : FQ2 × Bool :=
  let t1 := f.c1.square
  let t0 := f.c0.square
  let t0 := t0.add t1
  let t := t0.inverse
  if !t.2 then (f, false)
  else (⟨f.c0.mul t.1, (f.c1.mul t.1).neg⟩, true)

/-- `frobeniusCoeffFQ2c1`, fq2.go:149-152. -/
def frobeniusCoeffC1 (i : Nat) : FQ :=
  if i = 0 then FQ.one
  else .ofReprRaw ⟨0x43f5fffffffcaaae, 0x32b7fff2ed47fffd, 0x7e83a49a2e99d69, 0xeca8f3318332bb7a, 0xef148d1ea0f4c069, 0x40ab3263eff0206⟩

/-- `FrobeniusMapAssign`, fq2.go:156-158 (`power` is a `uint8`). -/
def frobeniusMap (f : FQ2) (power : UInt8) : FQ2 :=
  ⟨f.c0, f.c1.mul (frobeniusCoeffC1 (power.toNat % 2))⟩

/-- `Legendre`, fq2.go:161-165. -/
def legendre (f : FQ2) : LegendreSymbol := f.norm.legendre

/-- `Exp`, fq2.go:170-187; `none` would be a panic or non-termination of the iterator. -/
def exp? (f : FQ2) (n : FQRepr) : Option FQ2 :=
  ((newBitIterator n.words).drain 385).map (fun bits => powLoop square mul f bits one false)

/-- `Exp`, fq2.go:170-187, with the (unreachable, see `FQ2.exp?_eq_some`) failure defaulted. -/
def exp (f : FQ2) (n : FQRepr) : FQ2 := (f.exp? n).getD zero

/-- `Equals`, fq2.go:193-195. -/
def equals (f other : FQ2) : Bool := f.cmp other == 0

/-- `Sqrt`, fq2.go:198-232; the Boolean is Go's second result. -/
def sqrt (f : FQ2) : FQ2 × Bool :=
  if f.isZero then (zero, true)
  else
    let a1 := f.exp FQ.qMinus3Over4
    let alpha := a1.square
    let alpha := alpha.mul f
    let a0 := alpha.frobeniusMap 1
    let a0 := a0.mul alpha
    let neg1 : FQ2 := ⟨FQ.negativeOneFQ, FQ.zero⟩
    if a0.equals neg1 then (⟨⟨⟨0, 0, 0, 0, 0, 0⟩⟩, ⟨⟨0, 0, 0, 0, 0, 0⟩⟩⟩, false)
    else
      let a1 := a1.mul f
      if alpha.equals neg1 then (a1.mul ⟨FQ.zero, FQ.one⟩, true)
      else
        let alpha := alpha.add one
        let alpha := alpha.exp FQ.qMinus1Over2
        (alpha.mul a1, true)

/-- `RandFQ2`, fq2.go:240-253, given the outcomes of the two draws; results as in `FQ.rand`. -/
def rand (r0 r1 : Option Int) : Option (Option FQ2) :=
  match FQ.rand r0 with
  | none => none
  | some none => some none
  | some (some i0) =>
    match FQ.rand r1 with
    | none => none
    | some none => some none
    | some (some i1) => some (some ⟨i0, i1⟩)

/-- `Parity`, fq2.go:256-260. -/
def parity (f : FQ2) : Bool :=
  let neg := f.neg
  f.cmp neg > 0

/-- The loop of `MulBits`, fq2.go:263-272: `k` iterations left of `bitLen`. `big.Int` is modelled by
its absolute value's digits: callers in this package pass non-negative numbers. -/
def mulBitsLoop (f : FQ2) (b : Nat) (bitLen : Nat) : (k i : Nat) → FQ2 → FQ2
  | 0, _, res => res
  | k + 1, i, res =>
    let res := res.double
    let res := if b.testBit (bitLen - 1 - i) then res.add f else res
    mulBitsLoop f b bitLen k (i + 1) res

/-- `MulBits`, fq2.go:263-272, for a non-negative `big.Int`. -/
def mulBits (f : FQ2) (b : Nat) : FQ2 :=
  let bitLen := if b = 0 then 0 else Nat.log2 b + 1
  mulBitsLoop f b bitLen bitLen 0 zero

/-- `DivAssign`, fq2.go:275-278. -/
def div (f other : FQ2) : FQ2 :=
  let p := other.inverse
  f.mul p.1

/-- `HashFQ2`, fq2.go:281-285, as a function of the digest `hasher.Sum(nil)` read as a big-endian
number (`big.Int.SetBytes`, by contract). -/
def hashFQ2 (digest : List UInt8) : FQ2 :=
  one.mulBits (digest.foldl (fun acc x => acc * 256 + x.toNat) 0)

end FQ2

/- No effect on the kernel or on meaning. -/
attribute [irreducible] FQ2.mul FQ2.add FQ2.sub FQ2.neg FQ2.double FQ2.square FQ2.mulByNonresidue
  FQ2.inverse FQ2.exp FQ2.sqrt FQ2.cmp FQ2.equals FQ2.isZero FQ2.norm FQ2.frobeniusMap FQ2.mulBitsLoop
  FQ2.zero FQ2.one

end Bls
