import Verif.Model.FQ2
/-
fq6.go. The methods are given as functions of the values of receiver and argument, which are
distinct objects in all calls inside the library except `fi.MulAssign(fi)` in `FQ6.Exp`: that call is
modelled by `mulSelf`, which follows the same statements with `other` aliased to `f`.
-/
namespace Bls

/-- `FQ6`, fq6.go:9-13: `c0 + c1·v + c2·v²`. -/
@[ext] structure FQ6 where
  c0 : FQ2
  c1 : FQ2
  c2 : FQ2
deriving DecidableEq, Repr

namespace FQ6

/-- `MulByNonresidueAssign`, fq6.go:34-37. -/
def mulByNonresidue (f : FQ6) : FQ6 := ⟨f.c2.mulByNonresidue, f.c0, f.c1⟩

/-- `MulBy1Assign`, fq6.go:40-57. -/
def mulBy1 (f : FQ6) (c1 : FQ2) : FQ6 :=
  let b := f.c1.mul c1
  let tmp := f.c1.add f.c2
  let t1 := c1.mul tmp
  let t1 := t1.sub b
  let t1 := t1.mulByNonresidue
  let tmp := f.c0.add f.c1
  let t2 := c1.mul tmp
  let t2 := t2.sub b
  ⟨t1, t2, b⟩

/-- `MulBy01Assign`, fq6.go:60-90. -/
def mulBy01 (f : FQ6) (c0 c1 : FQ2) : FQ6 :=
  let a := f.c0.mul c0
  let b := f.c1.mul c1
  let tmp := f.c1.add f.c2
  let t1 := c1.mul tmp
  let t1 := t1.sub b
  let t1 := t1.mulByNonresidue
  let t1 := t1.add a
  let tmp := f.c0.add f.c2
  let t3 := c0.mul tmp
  let t3 := t3.sub a
  let t3 := t3.add b
  let tmp := f.c0.add f.c1
  let t2 := c0.add c1
  let t2 := t2.mul tmp
  let t2 := t2.sub a
  let t2 := t2.sub b
  ⟨t1, t2, t3⟩

/-- `FQ6Zero`, fq6.go:93. -/
def zero : FQ6 := ⟨FQ2.zero, FQ2.zero, FQ2.zero⟩

/-- `FQ6One`, fq6.go:96. -/
def one : FQ6 := ⟨FQ2.one, FQ2.zero, FQ2.zero⟩

/-- `Equals`, fq6.go:99-101. -/
def equals (f other : FQ6) : Bool :=
  f.c0.equals other.c0 && f.c1.equals other.c1 && f.c2.equals other.c2

/-- `IsZero`, fq6.go:104-106. -/
def isZero (f : FQ6) : Bool := f.equals zero

/-- `DoubleAssign`, fq6.go:109-113. -/
def double (f : FQ6) : FQ6 := ⟨f.c0.double, f.c1.double, f.c2.double⟩

/-- `NegAssign`, fq6.go:116-120. -/
def neg (f : FQ6) : FQ6 := ⟨f.c0.neg, f.c1.neg, f.c2.neg⟩

/-- `AddAssign`, fq6.go:123-127. -/
def add (f other : FQ6) : FQ6 := ⟨f.c0.add other.c0, f.c1.add other.c1, f.c2.add other.c2⟩

/-- `SubAssign`, fq6.go:130-134. -/
def sub (f other : FQ6) : FQ6 := ⟨f.c0.sub other.c0, f.c1.sub other.c1, f.c2.sub other.c2⟩

/-- `frobeniusCoeffFQ6c1`, fq6.go:144-175. -/
def frobeniusCoeffC1 (i : Nat) : FQ2 :=
  if i = 0 then ⟨.ofReprRaw ⟨0x760900000002fffd, 0xebf4000bc40c0002, 0x5f48985753c758ba, 0x77ce585370525745, 0x5c071a97a256ec6d, 0x15f65ec3fa80e493⟩,
      .ofReprRaw ⟨0, 0, 0, 0, 0, 0⟩⟩
  else if i = 1 then ⟨.ofReprRaw ⟨0x0, 0x0, 0x0, 0x0, 0x0, 0x0⟩,
      .ofReprRaw ⟨0xcd03c9e48671f071, 0x5dab22461fcda5d2, 0x587042afd3851b95, 0x8eb60ebe01bacb9e, 0x3f97d6e83d050d2, 0x18f0206554638741⟩⟩
  else if i = 2 then ⟨.ofReprRaw ⟨0x30f1361b798a64e8, 0xf3b8ddab7ece5a2a, 0x16a8ca3ac61577f7, 0xc26a2ff874fd029b, 0x3636b76660701c6e, 0x51ba4ab241b6160⟩,
      .ofReprRaw ⟨0x0, 0x0, 0x0, 0x0, 0x0, 0x0⟩⟩
  else if i = 3 then ⟨.ofReprRaw ⟨0x0, 0x0, 0x0, 0x0, 0x0, 0x0⟩,
      .ofReprRaw ⟨0x760900000002fffd, 0xebf4000bc40c0002, 0x5f48985753c758ba, 0x77ce585370525745, 0x5c071a97a256ec6d, 0x15f65ec3fa80e493⟩⟩
  else if i = 4 then ⟨.ofReprRaw ⟨0xcd03c9e48671f071, 0x5dab22461fcda5d2, 0x587042afd3851b95, 0x8eb60ebe01bacb9e, 0x3f97d6e83d050d2, 0x18f0206554638741⟩,
      .ofReprRaw ⟨0x0, 0x0, 0x0, 0x0, 0x0, 0x0⟩⟩
  else ⟨.ofReprRaw ⟨0x0, 0x0, 0x0, 0x0, 0x0, 0x0⟩,
      .ofReprRaw ⟨0x30f1361b798a64e8, 0xf3b8ddab7ece5a2a, 0x16a8ca3ac61577f7, 0xc26a2ff874fd029b, 0x3636b76660701c6e, 0x51ba4ab241b6160⟩⟩

/-- `frobeniusCoeffFQ6c2`, fq6.go:177-208. -/
def frobeniusCoeffC2 (i : Nat) : FQ2 :=
  if i = 0 then ⟨.ofReprRaw ⟨0x760900000002fffd, 0xebf4000bc40c0002, 0x5f48985753c758ba, 0x77ce585370525745, 0x5c071a97a256ec6d, 0x15f65ec3fa80e493⟩,
      .ofReprRaw ⟨0, 0, 0, 0, 0, 0⟩⟩
  else if i = 1 then ⟨.ofReprRaw ⟨0x890dc9e4867545c3, 0x2af322533285a5d5, 0x50880866309b7e2c, 0xa20d1b8c7e881024, 0x14e4f04fe2db9068, 0x14e56d3f1564853a⟩,
      .ofReprRaw ⟨0x0, 0x0, 0x0, 0x0, 0x0, 0x0⟩⟩
  else if i = 2 then ⟨.ofReprRaw ⟨0xcd03c9e48671f071, 0x5dab22461fcda5d2, 0x587042afd3851b95, 0x8eb60ebe01bacb9e, 0x3f97d6e83d050d2, 0x18f0206554638741⟩,
      .ofReprRaw ⟨0x0, 0x0, 0x0, 0x0, 0x0, 0x0⟩⟩
  else if i = 3 then ⟨.ofReprRaw ⟨0x43f5fffffffcaaae, 0x32b7fff2ed47fffd, 0x7e83a49a2e99d69, 0xeca8f3318332bb7a, 0xef148d1ea0f4c069, 0x40ab3263eff0206⟩,
      .ofReprRaw ⟨0x0, 0x0, 0x0, 0x0, 0x0, 0x0⟩⟩
  else if i = 4 then ⟨.ofReprRaw ⟨0x30f1361b798a64e8, 0xf3b8ddab7ece5a2a, 0x16a8ca3ac61577f7, 0xc26a2ff874fd029b, 0x3636b76660701c6e, 0x51ba4ab241b6160⟩,
      .ofReprRaw ⟨0x0, 0x0, 0x0, 0x0, 0x0, 0x0⟩⟩
  else ⟨.ofReprRaw ⟨0xecfb361b798dba3a, 0xc100ddb891865a2c, 0xec08ff1232bda8e, 0xd5c13cc6f1ca4721, 0x47222a47bf7b5c04, 0x110f184e51c5f59⟩,
      .ofReprRaw ⟨0x0, 0x0, 0x0, 0x0, 0x0, 0x0⟩⟩

/-- `FrobeniusMapAssign`, fq6.go:211-218. -/
def frobeniusMap (f : FQ6) (power : UInt8) : FQ6 :=
  let c0 := f.c0.frobeniusMap power
  let c1 := f.c1.frobeniusMap power
  let c2 := f.c2.frobeniusMap power
  ⟨c0, c1.mul (frobeniusCoeffC1 (power.toNat % 6)), c2.mul (frobeniusCoeffC2 (power.toNat % 6))⟩

/-- `SquareAssign`, fq6.go:221-252. -/
def square (f : FQ6) : FQ6 :=
  let s0 := f.c0.square
  let ab := f.c0.mul f.c1
  let s1 := ab.double
  let s2 := f.c0.sub f.c1
  let s2 := s2.add f.c2
  let s2 := s2.square
  let bc := f.c1.mul f.c2
  let s3 := bc.double
  let s4 := f.c2.square
  let c0 := s3.mulByNonresidue
  let c0 := c0.add s0
  let c1 := s4.mulByNonresidue
  let c1 := c1.add s1
  let c2 := s1.add s2
  let c2 := c2.add s3
  let c2 := c2.sub s0
  let c2 := c2.sub s4
  ⟨c0, c1, c2⟩

/-- `MulAssign`, fq6.go:255-292, for distinct receiver and argument. -/
def mul (f other : FQ6) : FQ6 :=
  let aa := f.c0.mul other.c0
  let bb := f.c1.mul other.c1
  let cc := f.c2.mul other.c2
  let tmp := f.c1.add f.c2
  let t1 := other.c1.add other.c2
  let t1 := t1.mul tmp
  let t1 := t1.sub bb
  let t1 := t1.sub cc
  let t1 := t1.mulByNonresidue
  let t1 := t1.add aa
  let tmp := f.c0.add f.c2
  let c2 := other.c0
  let c2 := c2.add other.c2
  let c2 := c2.mul tmp
  let c2 := c2.sub aa
  let c2 := c2.add bb
  let c2 := c2.sub cc
  let tmp := f.c0.add f.c1
  let c1 := other.c0
  let c1 := c1.add other.c1
  let c1 := c1.mul tmp
  let c1 := c1.sub aa
  let c1 := c1.sub bb
  let cc := cc.mulByNonresidue
  let c1 := c1.add cc
  ⟨t1, c1, c2⟩

/-- `f.MulAssign(f)`, fq6.go:255-292 with `other` pointing to `f`: every read of `other.ci` reads the
current `f.ci`, so after `f.c2 = other.c0.Copy()` the next statement adds `f.c2` to itself, and
likewise for `c1`. -/
def mulSelf (f : FQ6) : FQ6 :=
  let aa := f.c0.mul f.c0
  let bb := f.c1.mul f.c1
  let cc := f.c2.mul f.c2
  let tmp := f.c1.add f.c2
  let t1 := f.c1.add f.c2
  let t1 := t1.mul tmp
  let t1 := t1.sub bb
  let t1 := t1.sub cc
  let t1 := t1.mulByNonresidue
  let t1 := t1.add aa
  let tmp := f.c0.add f.c2
  let f : FQ6 := { f with c2 := f.c0 }
  let f : FQ6 := { f with c2 := f.c2.add f.c2 }
  let f : FQ6 := { f with c2 := f.c2.mul tmp }
  let f : FQ6 := { f with c2 := f.c2.sub aa }
  let f : FQ6 := { f with c2 := f.c2.add bb }
  let f : FQ6 := { f with c2 := f.c2.sub cc }
  let tmp := f.c0.add f.c1
  let f : FQ6 := { f with c1 := f.c0 }
  let f : FQ6 := { f with c1 := f.c1.add f.c1 }
  let f : FQ6 := { f with c1 := f.c1.mul tmp }
  let f : FQ6 := { f with c1 := f.c1.sub aa }
  let f : FQ6 := { f with c1 := f.c1.sub bb }
  let cc := cc.mulByNonresidue
  let f : FQ6 := { f with c1 := f.c1.add cc }
  { f with c0 := t1 }

/-- `InverseAssign`, fq6.go:295-336: the new receiver (unchanged on failure) and the result. (The unused
`c1c2` is omitted.) -/
def inverse (f : FQ6) : FQ6 × Bool :=
  let c0 := f.c2.mulByNonresidue
  let c0 := c0.mul f.c1
  let c0 := c0.neg
  let c0s := f.c0.square
  let c0 := c0.add c0s
  let c1 := f.c2.square
  let c1 := c1.mulByNonresidue
  let c0c1 := f.c0.mul f.c1
  let c0c2 := f.c0.mul f.c2
  let c1 := c1.sub c0c1
  let c2 := f.c1.square
  let c2 := c2.sub c0c2
  let tmp1 := f.c2.mul c1
  let tmp2 := f.c1.mul c2
  let tmp1 := tmp1.add tmp2
  let tmp1 := tmp1.mulByNonresidue
  let tmp2 := f.c0.mul c0
  let tmp1 := tmp1.add tmp2
  let t := tmp1.inverse
  if !t.2 then (f, false)
  else (⟨t.1.mul c0, t.1.mul c1, t.1.mul c2⟩, true)

/-- The loop of `Exp`, fq6.go:339-351: state `(nCopy, fi, res)`. -/
def expLoop : (fuel : Nat) → (nCopy : FQRepr) → (fi res : FQ6) → Option FQ6
  | 0, _, _, _ => none
  | fuel + 1, nCopy, fi, res =>
    if nCopy.cmp bigZero ≠ 0 then
      let res := if !nCopy.isEven then res.mul fi else res
      let fi := fi.mulSelf
      let nCopy := nCopy.rsh 1
      expLoop fuel nCopy fi res
    else some res

/-- `Exp`, fq6.go:339-351 (`none`: the loop outlasts the fuel; it does not). -/
def exp? (f : FQ6) (n : FQRepr) : Option FQ6 := expLoop 385 n f one

end FQ6

/- No effect on the kernel or on meaning. -/
attribute [irreducible] FQ6.mul FQ6.add FQ6.sub FQ6.neg FQ6.double FQ6.square FQ6.mulByNonresidue
  FQ6.mulBy1 FQ6.mulBy01 FQ6.inverse FQ6.equals FQ6.isZero FQ6.frobeniusMap FQ6.mulSelf FQ6.zero FQ6.one

end Bls
