/-
Word-level primitives (stub_fallback.go) and Go's `math/bits`.
-/
namespace Bls

/-- A Go `uint64`. -/
abbrev W := UInt64

/-- `bits.Mul64` (Go standard library, by its documented contract): high and low word of the
128-bit product. Used by stub_fallback.go:150. -/
def mul64 (x y : W) : W × W :=
  (UInt64.ofNat (x.toNat * y.toNat / 2 ^ 64), x * y)

/-- `bits.Add64` (by contract): `x + y + carry` and the carry out.
Used by stub_fallback.go:137-138, 151-152. -/
def add64 (x y carry : W) : W × W :=
  (x + y + carry, UInt64.ofNat ((x.toNat + y.toNat + carry.toNat) / 2 ^ 64))

/-- `bits.Sub64` (by contract): `x - y - borrow` and the borrow out.
Used by stub_fallback.go:145. -/
def sub64 (x y borrow : W) : W × W :=
  (x - y - borrow, if x.toNat < y.toNat + borrow.toNat then 1 else 0)

/-- `AddWithCarry`, stub_fallback.go:136-140. -/
def addWithCarry (a b carry : W) : W × W :=
  let (out, outCarry) := add64 a b 0
  let (out, outCarry2) := add64 out carry 0
  (out, outCarry + outCarry2)

/-- `SubWithBorrow`, stub_fallback.go:144-147. -/
def subWithBorrow (a b borrow : W) : W × W :=
  let (o, c) := sub64 a b borrow
  (o, c)

/-- `MACWithCarry`, stub_fallback.go:149-155: `a + b * c + carry`, low word and high word. -/
def macWithCarry (a b c carry : W) : W × W :=
  let (carryOut, bc) := mul64 b c
  let (abc, carryOut2) := add64 bc a 0
  let (abcc, carryOut3) := add64 abc carry 0
  (abcc, carryOut + carryOut2 + carryOut3)

/-- Result of Go's three-way comparisons (`Cmp` methods): -1, 0 or 1. -/
abbrev GoInt := Int

/-- `bits.LeadingZeros64` (by contract): 64 minus the position of the highest set bit. -/
def leadingZeros64 (x : W) : Nat := if x = 0 then 64 else 63 - Nat.log2 x.toNat

end Bls
