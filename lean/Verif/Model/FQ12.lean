import Verif.Model.FQ6
/-
fq12.go. An `FQ12` holds two pointers to `FQ6` objects; the methods are given as functions of the
values. All `FQ6.MulAssign` calls below have a receiver distinct from the argument (copies are
taken), also when `FQ12.MulAssign` is called with the receiver as argument, so no aliasing arises
here. (The pointers themselves and what they share are in Verif/Model/Heap12.lean.)
-/
namespace Bls

/-- `FQ12`, fq12.go:9-12: `c0 + c1·w`. -/
@[ext] structure FQ12 where
  c0 : FQ6
  c1 : FQ6
deriving DecidableEq, Repr

namespace FQ12

/-- `ConjugateAssign`, fq12.go:27-29. -/
def conjugate (f : FQ12) : FQ12 := ⟨f.c0, f.c1.neg⟩

/-- `MulBy014Assign`, fq12.go:32-47. -/
def mulBy014 (f : FQ12) (c0 c1 c4 : FQ2) : FQ12 :=
  let aa := f.c0.mulBy01 c0 c1
  let bb := f.c1.mulBy1 c4
  let c1 := c1.add c4
  let d1 := f.c1.add f.c0
  let d1 := d1.mulBy01 c0 c1
  let d1 := d1.sub aa
  let d1 := d1.sub bb
  let d0 := bb.mulByNonresidue
  let d0 := d0.add aa
  ⟨d0, d1⟩

/-- `FQ12Zero`, fq12.go:50. -/
def zero : FQ12 := ⟨FQ6.zero, FQ6.zero⟩

/-- `FQ12One`, fq12.go:53. -/
def one : FQ12 := ⟨FQ6.one, FQ6.zero⟩

/-- `Equals`, fq12.go:56-58. -/
def equals (f other : FQ12) : Bool := f.c0.equals other.c0 && f.c1.equals other.c1

/-- `DoubleAssign`, fq12.go:61-64. -/
def double (f : FQ12) : FQ12 := ⟨f.c0.double, f.c1.double⟩

/-- `NegAssign`, fq12.go:67-70. -/
def neg (f : FQ12) : FQ12 := ⟨f.c0.neg, f.c1.neg⟩

/-- `AddAssign`, fq12.go:73-76. -/
def add (f other : FQ12) : FQ12 := ⟨f.c0.add other.c0, f.c1.add other.c1⟩

/-- `IsZero`, fq12.go:79-81. -/
def isZero (f : FQ12) : Bool := f.c0.isZero && f.c1.isZero

/-- `SubAssign`, fq12.go:84-87. -/
def sub (f other : FQ12) : FQ12 := ⟨f.c0.sub other.c0, f.c1.sub other.c1⟩

/-- `MulAssign`, fq12.go:198-213. -/
def mul (f other : FQ12) : FQ12 :=
  let aa := f.c0.mul other.c0
  let bb := f.c1.mul other.c1
  let o := other.c0.add other.c1
  let d1 := f.c1.add f.c0
  let d1 := d1.mul o
  let d1 := d1.sub aa
  let d1 := d1.sub bb
  let d0 := bb.mulByNonresidue
  let d0 := d0.add aa
  ⟨d0, d1⟩

/-- The loop of `Exp`, fq12.go:108-120: state `(nCopy, fi, res)`. -/
def expLoop : (fuel : Nat) → (nCopy : FQRepr) → (fi res : FQ12) → Option FQ12
  | 0, _, _, _ => none
  | fuel + 1, nCopy, fi, res =>
    if nCopy.cmp bigZero ≠ 0 then
      let res := if !nCopy.isEven then res.mul fi else res
      let fi := fi.mul fi
      let nCopy := nCopy.rsh 1
      expLoop fuel nCopy fi res
    else some res

/-- `Exp`, fq12.go:108-120 (`none`: the loop outlasts the fuel; `FQ12.exp?_eq_some` shows it does
not). -/
def exp? (f : FQ12) (n : FQRepr) : Option FQ12 := expLoop 385 n f one

/-- `Exp`, fq12.go:108-120, with the unreachable failure defaulted. -/
def exp (f : FQ12) (n : FQRepr) : FQ12 := (f.exp? n).getD zero

/-- `frobeniusCoeffFQ12c1`, fq12.go:122-168. -/
def frobeniusCoeffC1 (i : Nat) : FQ2 :=
  if i = 0 then FQ2.one
  else if i = 1 then ⟨.ofReprRaw ⟨0x7089552b319d465, 0xc6695f92b50a8313, 0x97e83cccd117228f, 0xa35baecab2dc29ee, 0x1ce393ea5daace4d, 0x8f2220fb0fb66eb⟩,
      .ofReprRaw ⟨0xb2f66aad4ce5d646, 0x5842a06bfc497cec, 0xcf4895d42599d394, 0xc11b9cba40a8e8d0, 0x2e3813cbe5a0de89, 0x110eefda88847faf⟩⟩
  else if i = 2 then ⟨.ofReprRaw ⟨0xecfb361b798dba3a, 0xc100ddb891865a2c, 0xec08ff1232bda8e, 0xd5c13cc6f1ca4721, 0x47222a47bf7b5c04, 0x110f184e51c5f59⟩,
      .ofReprRaw ⟨0x0, 0x0, 0x0, 0x0, 0x0, 0x0⟩⟩
  else if i = 3 then ⟨.ofReprRaw ⟨0x3e2f585da55c9ad1, 0x4294213d86c18183, 0x382844c88b623732, 0x92ad2afd19103e18, 0x1d794e4fac7cf0b9, 0xbd592fc7d825ec8⟩,
      .ofReprRaw ⟨0x7bcfa7a25aa30fda, 0xdc17dec12a927e7c, 0x2f088dd86b4ebef1, 0xd1ca2087da74d4a7, 0x2da2596696cebc1d, 0xe2b7eedbbfd87d2⟩⟩
  else if i = 4 then ⟨.ofReprRaw ⟨0x30f1361b798a64e8, 0xf3b8ddab7ece5a2a, 0x16a8ca3ac61577f7, 0xc26a2ff874fd029b, 0x3636b76660701c6e, 0x51ba4ab241b6160⟩,
      .ofReprRaw ⟨0x0, 0x0, 0x0, 0x0, 0x0, 0x0⟩⟩
  else if i = 5 then ⟨.ofReprRaw ⟨0x3726c30af242c66c, 0x7c2ac1aad1b6fe70, 0xa04007fbba4b14a2, 0xef517c3266341429, 0x95ba654ed2226b, 0x2e370eccc86f7dd⟩,
      .ofReprRaw ⟨0x82d83cf50dbce43f, 0xa2813e53df9d018f, 0xc6f0caa53c65e181, 0x7525cf528d50fe95, 0x4a85ed50f4798a6b, 0x171da0fd6cf8eebd⟩⟩
  else if i = 6 then ⟨.ofReprRaw ⟨0x43f5fffffffcaaae, 0x32b7fff2ed47fffd, 0x7e83a49a2e99d69, 0xeca8f3318332bb7a, 0xef148d1ea0f4c069, 0x40ab3263eff0206⟩,
      .ofReprRaw ⟨0x0, 0x0, 0x0, 0x0, 0x0, 0x0⟩⟩
  else if i = 7 then ⟨.ofReprRaw ⟨0xb2f66aad4ce5d646, 0x5842a06bfc497cec, 0xcf4895d42599d394, 0xc11b9cba40a8e8d0, 0x2e3813cbe5a0de89, 0x110eefda88847faf⟩,
      .ofReprRaw ⟨0x7089552b319d465, 0xc6695f92b50a8313, 0x97e83cccd117228f, 0xa35baecab2dc29ee, 0x1ce393ea5daace4d, 0x8f2220fb0fb66eb⟩⟩
  else if i = 8 then ⟨.ofReprRaw ⟨0xcd03c9e48671f071, 0x5dab22461fcda5d2, 0x587042afd3851b95, 0x8eb60ebe01bacb9e, 0x3f97d6e83d050d2, 0x18f0206554638741⟩,
      .ofReprRaw ⟨0x0, 0x0, 0x0, 0x0, 0x0, 0x0⟩⟩
  else if i = 9 then ⟨.ofReprRaw ⟨0x7bcfa7a25aa30fda, 0xdc17dec12a927e7c, 0x2f088dd86b4ebef1, 0xd1ca2087da74d4a7, 0x2da2596696cebc1d, 0xe2b7eedbbfd87d2⟩,
      .ofReprRaw ⟨0x3e2f585da55c9ad1, 0x4294213d86c18183, 0x382844c88b623732, 0x92ad2afd19103e18, 0x1d794e4fac7cf0b9, 0xbd592fc7d825ec8⟩⟩
  else if i = 10 then ⟨.ofReprRaw ⟨0x890dc9e4867545c3, 0x2af322533285a5d5, 0x50880866309b7e2c, 0xa20d1b8c7e881024, 0x14e4f04fe2db9068, 0x14e56d3f1564853a⟩,
      .ofReprRaw ⟨0x0, 0x0, 0x0, 0x0, 0x0, 0x0⟩⟩
  else ⟨.ofReprRaw ⟨0x82d83cf50dbce43f, 0xa2813e53df9d018f, 0xc6f0caa53c65e181, 0x7525cf528d50fe95, 0x4a85ed50f4798a6b, 0x171da0fd6cf8eebd⟩,
      .ofReprRaw ⟨0x3726c30af242c66c, 0x7c2ac1aad1b6fe70, 0xa04007fbba4b14a2, 0xef517c3266341429, 0x95ba654ed2226b, 0x2e370eccc86f7dd⟩⟩

/-- `FrobeniusMapAssign`, fq12.go:171-177. -/
def frobeniusMap (f : FQ12) (power : UInt8) : FQ12 :=
  let c0 := f.c0.frobeniusMap power
  let c1 := f.c1.frobeniusMap power
  let k := frobeniusCoeffC1 (power.toNat % 12)
  ⟨c0, ⟨c1.c0.mul k, c1.c1.mul k, c1.c2.mul k⟩⟩

/-- `SquareAssign`, fq12.go:180-195. -/
def square (f : FQ12) : FQ12 :=
  let ab := f.c0.mul f.c1
  let c0c1 := f.c0.add f.c1
  let c0 := f.c1.mulByNonresidue
  let c0 := c0.add f.c0
  let c0 := c0.mul c0c1
  let c0 := c0.sub ab
  let c1 := ab.add ab
  let ab := ab.mulByNonresidue
  let c0 := c0.sub ab
  ⟨c0, c1⟩

/-- `InverseAssign`, fq12.go:216-237: the new receiver (unchanged on failure) and the result. -/
def inverse (f : FQ12) : FQ12 × Bool :=
  let c0s := f.c0.square
  let c1s := f.c1.square
  let c1s := c1s.mulByNonresidue
  let c0s := c0s.sub c1s
  let t := c0s.inverse
  if !t.2 then (f, false)
  else (⟨t.1.mul f.c0, (t.1.mul f.c1).neg⟩, true)

end FQ12

/- No effect on the kernel or on meaning. -/
attribute [irreducible] FQ12.mul FQ12.add FQ12.sub FQ12.neg FQ12.double FQ12.square FQ12.conjugate
  FQ12.mulBy014 FQ12.inverse FQ12.equals FQ12.isZero FQ12.frobeniusMap FQ12.exp FQ12.zero FQ12.one

end Bls
