import Verif.Model.FQRepr
/-
frrepr.go
-/
namespace Bls

/-- `FRRepr`, frrepr.go:12: `[4]uint64`, least significant word first. -/
@[ext] structure FRRepr where
  l0 : W
  l1 : W
  l2 : W
  l3 : W
deriving DecidableEq, Repr

namespace FRRepr

/-- The words as a list, `n[:]` in Go. -/
def words (f : FRRepr) : List W := [f.l0, f.l1, f.l2, f.l3]

/-- `IsOdd`, frrepr.go:15-17. -/
def isOdd (f : FRRepr) : Bool := f.l0 &&& 1 == 1

/-- `IsEven`, frrepr.go:20-22. -/
def isEven (f : FRRepr) : Bool := f.l0 &&& 1 == 0

/-- `IsZero`, frrepr.go:25-32. -/
def isZero (f : FRRepr) : Bool :=
  if f.l0 ≠ 0 then false else if f.l1 ≠ 0 then false else if f.l2 ≠ 0 then false
  else if f.l3 ≠ 0 then false else true

/-- `NewFRRepr`, frrepr.go:35-37. -/
def new (n : W) : FRRepr := ⟨n, 0, 0, 0⟩

/-- One pass of the word-moving loop of `Rsh`, frrepr.go:40-64. -/
def rshWord (f : FRRepr) : FRRepr := ⟨f.l1, f.l2, f.l3, 0⟩

/-- The bit-moving loop of `Rsh` for `0 < n < 64`, frrepr.go:56-62. -/
def rshBits (f : FRRepr) (n : Nat) : FRRepr :=
  let s : W := UInt64.ofNat n
  let c : W := UInt64.ofNat (64 - n)
  ⟨(f.l0 >>> s) ||| (f.l1 <<< c), (f.l1 >>> s) ||| (f.l2 <<< c), (f.l2 >>> s) ||| (f.l3 <<< c),
   (f.l3 >>> s) ||| 0⟩

/-- `Rsh`, frrepr.go:40-64 (the `for n >= 64` loop is the recursion). -/
def rsh (f : FRRepr) (n : Nat) : FRRepr :=
  if n ≥ 64 * 4 then ⟨0, 0, 0, 0⟩
  else loop f n
where
  loop (f : FRRepr) (n : Nat) : FRRepr :=
    if n ≥ 64 then loop f.rshWord (n - 64)
    else if n > 0 then f.rshBits n else f

/-- `Div2`, frrepr.go:67-75. -/
def div2 (f : FRRepr) : FRRepr :=
  ⟨(f.l0 >>> 1) ||| (f.l1 <<< 63), (f.l1 >>> 1) ||| (f.l2 <<< 63), (f.l2 >>> 1) ||| (f.l3 <<< 63),
   (f.l3 >>> 1) ||| 0⟩

/-- `Mul2`, frrepr.go:78-86. -/
def mul2 (f : FRRepr) : FRRepr :=
  ⟨(f.l0 <<< 1) ||| 0, (f.l1 <<< 1) ||| (f.l0 >>> 63), (f.l2 <<< 1) ||| (f.l1 >>> 63),
   (f.l3 <<< 1) ||| (f.l2 >>> 63)⟩

/-- One pass of the word-moving loop of `Lsh`, frrepr.go:89-113. -/
def lshWord (f : FRRepr) : FRRepr := ⟨0, f.l0, f.l1, f.l2⟩

/-- The bit-moving loop of `Lsh` for `0 < n < 64`, frrepr.go:105-111. -/
def lshBits (f : FRRepr) (n : Nat) : FRRepr :=
  let s : W := UInt64.ofNat n
  let c : W := UInt64.ofNat (64 - n)
  ⟨(f.l0 <<< s) ||| 0, (f.l1 <<< s) ||| (f.l0 >>> c), (f.l2 <<< s) ||| (f.l1 >>> c),
   (f.l3 <<< s) ||| (f.l2 >>> c)⟩

/-- `Lsh`, frrepr.go:89-113. -/
def lsh (f : FRRepr) (n : Nat) : FRRepr :=
  if n ≥ 64 * 4 then ⟨0, 0, 0, 0⟩
  else loop f n
where
  loop (f : FRRepr) (n : Nat) : FRRepr :=
    if n ≥ 64 then loop f.lshWord (n - 64)
    else if n > 0 then f.lshBits n else f

/-- `AddNoCarry`, frrepr.go:117-122. -/
def addNoCarry (a b : FRRepr) : FRRepr :=
  let (o0, c) := addWithCarry a.l0 b.l0 0
  let (o1, c) := addWithCarry a.l1 b.l1 c
  let (o2, c) := addWithCarry a.l2 b.l2 c
  let (o3, _) := addWithCarry a.l3 b.l3 c
  ⟨o0, o1, o2, o3⟩

/-- `SubNoBorrow`, frrepr.go:126-131. -/
def subNoBorrow (a b : FRRepr) : FRRepr :=
  let (o0, c) := subWithBorrow a.l0 b.l0 0
  let (o1, c) := subWithBorrow a.l1 b.l1 c
  let (o2, c) := subWithBorrow a.l2 b.l2 c
  let (o3, _) := subWithBorrow a.l3 b.l3 c
  ⟨o0, o1, o2, o3⟩

/-- `Equals`, frrepr.go:134-136. -/
def equals (f g : FRRepr) : Bool :=
  f.l0 == g.l0 && f.l1 == g.l1 && f.l2 == g.l2 && f.l3 == g.l3

/-- `Cmp`, frrepr.go:139-148. -/
def cmp (f g : FRRepr) : GoInt :=
  if f.l3 > g.l3 then 1 else if f.l3 < g.l3 then -1
  else if f.l2 > g.l2 then 1 else if f.l2 < g.l2 then -1
  else if f.l1 > g.l1 then 1 else if f.l1 < g.l1 then -1
  else if f.l0 > g.l0 then 1 else if f.l0 < g.l0 then -1
  else 0

/-- `BitLen`, frrepr.go:164-175: subtract leading zeros from the top until a word is non-zero. -/
def bitLen (f : FRRepr) : Nat :=
  let step (k : Nat → Nat) (w : W) (ret : Nat) : Nat :=
    let leading := leadingZeros64 w
    let ret := ret - leading
    if leading ≠ 64 then ret else k ret
  step (step (step (step id f.l0) f.l1) f.l2) f.l3 (4 * 64)

/-- `Bit`, frrepr.go:197-199; `none` is the index-out-of-range panic for `n ≥ 256`. -/
def bit (f : FRRepr) (n : Nat) : Option Bool :=
  match f.words[n / 64]? with
  | none => none
  | some w => some (w &&& (1 <<< UInt64.ofNat (n % 64)) != 0)

/- Keep the elaborator from unfolding the straight-line definitions (no effect on the kernel or on
meaning). -/
attribute [irreducible] addNoCarry subNoBorrow cmp equals

/-- The loop of `FRReprFromBigInt`, frrepr.go:223-240. `none` is the index-out-of-range panic when
more than four words are needed. `n` is non-negative here. -/
def ofNatLoop : (n : Nat) → (acc : List W) → Option (List W)
  | 0, acc => some acc
  | n + 1, acc =>
    if acc.length < 4 then
      ofNatLoop ((n + 1) / 2 ^ 64) (acc ++ [UInt64.ofNat ((n + 1) % 2 ^ 64)])
    else none
termination_by n => n
decreasing_by omega

/-- The zero-padded array filled by the loop. -/
def ofWords (l : List W) : FRRepr := ⟨l.getD 0 0, l.getD 1 0, l.getD 2 0, l.getD 3 0⟩

/-- `FRReprFromBigInt`, frrepr.go:223-240. Outer `none`: panic; inner `none`: the error return. -/
def fromBigInt (n : Int) : Option (Option FRRepr) :=
  if (if n = 0 then 0 else Nat.log2 n.natAbs + 1) > 256 ∨ n.sign = -1 then some none
  else (ofNatLoop n.toNat []).map (fun l => some (ofWords l))

/-- `ToBig`, frrepr.go:211-220. -/
def toBig (f : FRRepr) : Int :=
  let out : Int := 0
  let out : Int := (out + (f.l3.toNat : Int)) * 2 ^ 64
  let out : Int := (out + (f.l2.toNat : Int)) * 2 ^ 64
  let out : Int := (out + (f.l1.toNat : Int)) * 2 ^ 64
  out + (f.l0.toNat : Int)

/-- Literal limb constants: what `FRReprFromString` (frrepr.go:202-208) returns for a literal in the
source, given as the number it denotes. -/
def ofNat (n : Nat) : FRRepr :=
  ⟨UInt64.ofNat n, UInt64.ofNat (n / 2 ^ 64), UInt64.ofNat (n / 2 ^ 128), UInt64.ofNat (n / 2 ^ 192)⟩

/-- `FRReprFromBytes`, frrepr.go:178-184 (`[32]byte` is a list of length 32). -/
def fromBytes (b : List UInt8) : FRRepr :=
  let m0 := uint64BE (slice b 0 8)
  let m1 := uint64BE (slice b 8 16)
  let m2 := uint64BE (slice b 16 24)
  let m3 := uint64BE (slice b 24 32)
  ⟨m3, m2, m1, m0⟩

/-- `Bytes`, frrepr.go:187-194. -/
def bytes (f : FRRepr) : List UInt8 :=
  putUint64BE f.l3 ++ putUint64BE f.l2 ++ putUint64BE f.l1 ++ putUint64BE f.l0

/-- `ToFQ`, frrepr.go:243-249. -/
def toFQ (f : FRRepr) : FQRepr := ⟨f.l0, f.l1, f.l2, f.l3, 0, 0⟩

end FRRepr
end Bls
