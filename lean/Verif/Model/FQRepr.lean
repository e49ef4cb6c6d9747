import Verif.Model.Word
/-
fqrepr.go and the 6-limb primitives of stub_fallback.go
-/
namespace Bls

/-- `FQRepr`, fqrepr.go:14: `[6]uint64`, least significant word first. An array is a value in
Go, so `Copy`, fqrepr.go:158-160, is the identity. -/
@[ext] structure FQRepr where
  l0 : W
  l1 : W
  l2 : W
  l3 : W
  l4 : W
  l5 : W
deriving DecidableEq, Repr

namespace FQRepr

/-- The words as a list, `n[:]` in Go. -/
def words (f : FQRepr) : List W := [f.l0, f.l1, f.l2, f.l3, f.l4, f.l5]

/-- `IsOdd`, fqrepr.go:17-19. -/
def isOdd (f : FQRepr) : Bool := f.l0 &&& 1 == 1

/-- `IsEven`, fqrepr.go:22-24, and `isEven`, fq.go:219-221. -/
def isEven (f : FQRepr) : Bool := f.l0 &&& 1 == 0

/-- `IsZero`, fqrepr.go:27-34. -/
def isZero (f : FQRepr) : Bool :=
  if f.l0 ≠ 0 then false else if f.l1 ≠ 0 then false else if f.l2 ≠ 0 then false
  else if f.l3 ≠ 0 then false else if f.l4 ≠ 0 then false else if f.l5 ≠ 0 then false else true

/-- `NewFQRepr`, fqrepr.go:37-39. -/
def new (n : W) : FQRepr := ⟨n, 0, 0, 0, 0, 0⟩

/-- One pass of the word-moving loop of `Rsh`, fqrepr.go:42-70. -/
def rshWord (f : FQRepr) : FQRepr := ⟨f.l1, f.l2, f.l3, f.l4, f.l5, 0⟩

/-- The bit-moving loop of `Rsh` for `0 < n < 64`, fqrepr.go:62-68. Go's `<<` on a `uint64` by
`64 - n ≤ 63` is Lean's `<<<`. -/
def rshBits (f : FQRepr) (n : Nat) : FQRepr :=
  let s : W := UInt64.ofNat n
  let c : W := UInt64.ofNat (64 - n)
  ⟨(f.l0 >>> s) ||| (f.l1 <<< c), (f.l1 >>> s) ||| (f.l2 <<< c), (f.l2 >>> s) ||| (f.l3 <<< c),
   (f.l3 >>> s) ||| (f.l4 <<< c), (f.l4 >>> s) ||| (f.l5 <<< c), (f.l5 >>> s) ||| 0⟩

/-- `Rsh`, fqrepr.go:42-70 (the `for n >= 64` loop is the recursion). -/
def rsh (f : FQRepr) (n : Nat) : FQRepr :=
  if n ≥ 64 * 6 then ⟨0, 0, 0, 0, 0, 0⟩
  else loop f n
where
  loop (f : FQRepr) (n : Nat) : FQRepr :=
    if n ≥ 64 then loop f.rshWord (n - 64)
    else if n > 0 then f.rshBits n else f

/-- `Div2`, fqrepr.go:73-81. -/
def div2 (f : FQRepr) : FQRepr :=
  ⟨(f.l0 >>> 1) ||| (f.l1 <<< 63), (f.l1 >>> 1) ||| (f.l2 <<< 63), (f.l2 >>> 1) ||| (f.l3 <<< 63),
   (f.l3 >>> 1) ||| (f.l4 <<< 63), (f.l4 >>> 1) ||| (f.l5 <<< 63), (f.l5 >>> 1) ||| 0⟩

/-- `Mul2`, fqrepr.go:84-92. -/
def mul2 (f : FQRepr) : FQRepr :=
  ⟨(f.l0 <<< 1) ||| 0, (f.l1 <<< 1) ||| (f.l0 >>> 63), (f.l2 <<< 1) ||| (f.l1 >>> 63),
   (f.l3 <<< 1) ||| (f.l2 >>> 63), (f.l4 <<< 1) ||| (f.l3 >>> 63), (f.l5 <<< 1) ||| (f.l4 >>> 63)⟩

/-- One pass of the word-moving loop of `Lsh`, fqrepr.go:95-123. -/
def lshWord (f : FQRepr) : FQRepr := ⟨0, f.l0, f.l1, f.l2, f.l3, f.l4⟩

/-- The bit-moving loop of `Lsh` for `0 < n < 64`, fqrepr.go:115-121. -/
def lshBits (f : FQRepr) (n : Nat) : FQRepr :=
  let s : W := UInt64.ofNat n
  let c : W := UInt64.ofNat (64 - n)
  ⟨(f.l0 <<< s) ||| 0, (f.l1 <<< s) ||| (f.l0 >>> c), (f.l2 <<< s) ||| (f.l1 >>> c),
   (f.l3 <<< s) ||| (f.l2 >>> c), (f.l4 <<< s) ||| (f.l3 >>> c), (f.l5 <<< s) ||| (f.l4 >>> c)⟩

/-- `Lsh`, fqrepr.go:95-123. -/
def lsh (f : FQRepr) (n : Nat) : FQRepr :=
  if n ≥ 64 * 6 then ⟨0, 0, 0, 0, 0, 0⟩
  else loop f n
where
  loop (f : FQRepr) (n : Nat) : FQRepr :=
    if n ≥ 64 then loop f.lshWord (n - 64)
    else if n > 0 then f.lshBits n else f

/-- `AddNoCarry`, stub_fallback.go:119-126 and the method fqrepr.go:127-129. -/
def addNoCarry (a b : FQRepr) : FQRepr :=
  let (o0, c) := addWithCarry a.l0 b.l0 0
  let (o1, c) := addWithCarry a.l1 b.l1 c
  let (o2, c) := addWithCarry a.l2 b.l2 c
  let (o3, c) := addWithCarry a.l3 b.l3 c
  let (o4, c) := addWithCarry a.l4 b.l4 c
  let (o5, _) := addWithCarry a.l5 b.l5 c
  ⟨o0, o1, o2, o3, o4, o5⟩

/-- `SubNoBorrow`, stub_fallback.go:128-134 and the method fqrepr.go:133-135. -/
def subNoBorrow (a b : FQRepr) : FQRepr :=
  let (o0, c) := subWithBorrow a.l0 b.l0 0
  let (o1, c) := subWithBorrow a.l1 b.l1 c
  let (o2, c) := subWithBorrow a.l2 b.l2 c
  let (o3, c) := subWithBorrow a.l3 b.l3 c
  let (o4, c) := subWithBorrow a.l4 b.l4 c
  let (o5, _) := subWithBorrow a.l5 b.l5 c
  ⟨o0, o1, o2, o3, o4, o5⟩

/-- `Equals`, fqrepr.go:138-140. -/
def equals (f g : FQRepr) : Bool :=
  f.l0 == g.l0 && f.l1 == g.l1 && f.l2 == g.l2 && f.l3 == g.l3 && f.l4 == g.l4 && f.l5 == g.l5

/-- `Cmp`, fqrepr.go:143-155. -/
def cmp (f g : FQRepr) : GoInt :=
  if f.l5 ≠ g.l5 then (if f.l5 > g.l5 then 1 else -1)
  else if f.l4 ≠ g.l4 then (if f.l4 > g.l4 then 1 else -1)
  else if f.l3 ≠ g.l3 then (if f.l3 > g.l3 then 1 else -1)
  else if f.l2 ≠ g.l2 then (if f.l2 > g.l2 then 1 else -1)
  else if f.l1 ≠ g.l1 then (if f.l1 > g.l1 then 1 else -1)
  else if f.l0 ≠ g.l0 then (if f.l0 > g.l0 then 1 else -1)
  else 0

/-- `BitLen`, fqrepr.go:168-179: subtract leading zeros from the top until a word is non-zero. -/
def bitLen (f : FQRepr) : Nat :=
  let step (k : Nat → Nat) (w : W) (ret : Nat) : Nat :=
    let leading := leadingZeros64 w
    let ret := ret - leading
    if leading ≠ 64 then ret else k ret
  step (step (step (step (step (step id f.l0) f.l1) f.l2) f.l3) f.l4) f.l5 (6 * 64)

/-- `Bit`, fqrepr.go:205-207; `none` is the index-out-of-range panic for `n ≥ 384`. -/
def bit (f : FQRepr) (n : Nat) : Option Bool :=
  match f.words[n / 64]? with
  | none => none
  | some w => some (w &&& (1 <<< UInt64.ofNat (n % 64)) != 0)

/-- `MultiplyFQRepr`, stub_fallback.go:11-57: `(hi, lo)`. -/
def multiply (a b : FQRepr) : FQRepr × FQRepr :=
  let (lo0, carry) := macWithCarry 0 a.l0 b.l0 0
  let (lo1, carry) := macWithCarry 0 a.l0 b.l1 carry
  let (lo2, carry) := macWithCarry 0 a.l0 b.l2 carry
  let (lo3, carry) := macWithCarry 0 a.l0 b.l3 carry
  let (lo4, carry) := macWithCarry 0 a.l0 b.l4 carry
  let (lo5, carry) := macWithCarry 0 a.l0 b.l5 carry
  let hi0 := carry
  let (lo1, carry) := macWithCarry lo1 a.l1 b.l0 0
  let (lo2, carry) := macWithCarry lo2 a.l1 b.l1 carry
  let (lo3, carry) := macWithCarry lo3 a.l1 b.l2 carry
  let (lo4, carry) := macWithCarry lo4 a.l1 b.l3 carry
  let (lo5, carry) := macWithCarry lo5 a.l1 b.l4 carry
  let (hi0, carry) := macWithCarry hi0 a.l1 b.l5 carry
  let hi1 := carry
  let (lo2, carry) := macWithCarry lo2 a.l2 b.l0 0
  let (lo3, carry) := macWithCarry lo3 a.l2 b.l1 carry
  let (lo4, carry) := macWithCarry lo4 a.l2 b.l2 carry
  let (lo5, carry) := macWithCarry lo5 a.l2 b.l3 carry
  let (hi0, carry) := macWithCarry hi0 a.l2 b.l4 carry
  let (hi1, carry) := macWithCarry hi1 a.l2 b.l5 carry
  let hi2 := carry
  let (lo3, carry) := macWithCarry lo3 a.l3 b.l0 0
  let (lo4, carry) := macWithCarry lo4 a.l3 b.l1 carry
  let (lo5, carry) := macWithCarry lo5 a.l3 b.l2 carry
  let (hi0, carry) := macWithCarry hi0 a.l3 b.l3 carry
  let (hi1, carry) := macWithCarry hi1 a.l3 b.l4 carry
  let (hi2, carry) := macWithCarry hi2 a.l3 b.l5 carry
  let hi3 := carry
  let (lo4, carry) := macWithCarry lo4 a.l4 b.l0 0
  let (lo5, carry) := macWithCarry lo5 a.l4 b.l1 carry
  let (hi0, carry) := macWithCarry hi0 a.l4 b.l2 carry
  let (hi1, carry) := macWithCarry hi1 a.l4 b.l3 carry
  let (hi2, carry) := macWithCarry hi2 a.l4 b.l4 carry
  let (hi3, carry) := macWithCarry hi3 a.l4 b.l5 carry
  let hi4 := carry
  let (lo5, carry) := macWithCarry lo5 a.l5 b.l0 0
  let (hi0, carry) := macWithCarry hi0 a.l5 b.l1 carry
  let (hi1, carry) := macWithCarry hi1 a.l5 b.l2 carry
  let (hi2, carry) := macWithCarry hi2 a.l5 b.l3 carry
  let (hi3, carry) := macWithCarry hi3 a.l5 b.l4 carry
  let (hi4, carry) := macWithCarry hi4 a.l5 b.l5 carry
  let hi5 := carry
  (⟨hi0, hi1, hi2, hi3, hi4, hi5⟩, ⟨lo0, lo1, lo2, lo3, lo4, lo5⟩)

/- Keep the elaborator from unfolding the long straight-line definition (no effect on the
kernel or on meaning). -/
attribute [irreducible] multiply addNoCarry subNoBorrow cmp equals

/-- The loop of `FQReprFromBigInt`/`fqReprFromBigIntUnchecked`, fqrepr.go:264-277, 267-276:
word `i` becomes the low 64 bits, then shift by 64, until the number is zero. `none` is the
index-out-of-range panic when more than six words are needed. `n` is non-negative here. -/
def ofNatLoop : (n : Nat) → (acc : List W) → Option (List W)
  | 0, acc => some acc
  | n + 1, acc =>
    if acc.length < 6 then
      ofNatLoop ((n + 1) / 2 ^ 64) (acc ++ [UInt64.ofNat ((n + 1) % 2 ^ 64)])
    else none
termination_by n => n
decreasing_by omega

/-- The zero-padded array filled by the loop. -/
def ofWords (l : List W) : FQRepr :=
  ⟨l.getD 0 0, l.getD 1 0, l.getD 2 0, l.getD 3 0, l.getD 4 0, l.getD 5 0⟩

/-- `FQReprFromBigInt`, fqrepr.go:244-261. Outer `none`: panic; inner `none`: the error return. -/
def fromBigInt (n : Int) : Option (Option FQRepr) :=
  if (if n = 0 then 0 else Nat.log2 n.natAbs + 1) > 384 ∨ n.sign = -1 then some none
  else (ofNatLoop n.toNat []).map (fun l => some (ofWords l))

/-- `ToBig`, fqrepr.go:229-238. -/
def toBig (f : FQRepr) : Int :=
  let out : Int := 0
  let out : Int := (out + (f.l5.toNat : Int)) * 2 ^ 64
  let out : Int := (out + (f.l4.toNat : Int)) * 2 ^ 64
  let out : Int := (out + (f.l3.toNat : Int)) * 2 ^ 64
  let out : Int := (out + (f.l2.toNat : Int)) * 2 ^ 64
  let out : Int := (out + (f.l1.toNat : Int)) * 2 ^ 64
  out + (f.l0.toNat : Int)

/-- Literal limb constants: what `FQReprFromString`/`fqReprFromHexUnchecked` (fqrepr.go:210-226)
return for a literal in the source, given as the number it denotes. `ofNat_eq_fromBigInt` in
Verif/Proof/FQRepr.lean relates it to `fromBigInt`. -/
def ofNat (n : Nat) : FQRepr :=
  ⟨UInt64.ofNat n, UInt64.ofNat (n / 2 ^ 64), UInt64.ofNat (n / 2 ^ 128),
   UInt64.ofNat (n / 2 ^ 192), UInt64.ofNat (n / 2 ^ 256), UInt64.ofNat (n / 2 ^ 320)⟩

end FQRepr

/-- Big-endian bytes of a word, `binary.BigEndian.PutUint64` (by contract). -/
def putUint64BE (w : W) : List UInt8 :=
  [(w >>> 56).toUInt8, (w >>> 48).toUInt8, (w >>> 40).toUInt8, (w >>> 32).toUInt8,
   (w >>> 24).toUInt8, (w >>> 16).toUInt8, (w >>> 8).toUInt8, w.toUInt8]

/-- `binary.BigEndian.Uint64` (by contract) on the first eight bytes of the slice. -/
def uint64BE (b : List UInt8) : W :=
  (b.getD 7 0).toUInt64 ||| ((b.getD 6 0).toUInt64 <<< 8) ||| ((b.getD 5 0).toUInt64 <<< 16) |||
  ((b.getD 4 0).toUInt64 <<< 24) ||| ((b.getD 3 0).toUInt64 <<< 32) |||
  ((b.getD 2 0).toUInt64 <<< 40) ||| ((b.getD 1 0).toUInt64 <<< 48) |||
  ((b.getD 0 0).toUInt64 <<< 56)

/-- `b[i:j]` on a byte slice. -/
def slice (b : List UInt8) (i j : Nat) : List UInt8 := (b.drop i).take (j - i)

namespace FQRepr

/-- `FQReprFromBytes`, fqrepr.go:182-190 (`[48]byte` is a list of length 48). -/
def fromBytes (b : List UInt8) : FQRepr :=
  let m0 := uint64BE (slice b 0 8)
  let m1 := uint64BE (slice b 8 16)
  let m2 := uint64BE (slice b 16 24)
  let m3 := uint64BE (slice b 24 32)
  let m4 := uint64BE (slice b 32 40)
  let m5 := uint64BE (slice b 40 48)
  ⟨m5, m4, m3, m2, m1, m0⟩

/-- `Bytes`, fqrepr.go:193-202. -/
def bytes (f : FQRepr) : List UInt8 :=
  putUint64BE f.l5 ++ putUint64BE f.l4 ++ putUint64BE f.l3 ++ putUint64BE f.l2 ++
  putUint64BE f.l1 ++ putUint64BE f.l0

end FQRepr
end Bls
