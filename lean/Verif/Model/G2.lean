import Verif.Model.G1
import Verif.Model.FQ2
/-
g2.go without `G2Prepared` (Verif/Model/Pairing.lean) and the hash maps (Verif/Model/Hash2.lean); same
conventions as Verif/Model/G1.lean. `[96]byte` and `[192]byte` are byte lists of that length.
-/
namespace Bls

/-- `G2Affine`, g2.go:12-16. -/
@[ext] structure G2Affine where
  x : FQ2
  y : FQ2
  infinity : Bool
deriving DecidableEq, Repr

/-- `G2Projective`, g2.go:298-302; the constructor is `NewG2Projective`, g2.go:305-307. -/
@[ext] structure G2Projective where
  x : FQ2
  y : FQ2
  z : FQ2
deriving DecidableEq, Repr

namespace G2Affine

/-- `NewG2Affine`, g2.go:19-21. -/
def new (x y : FQ2) : G2Affine := ⟨x, y, false⟩

/-- `G2AffineZero`, g2.go:24. -/
def zero : G2Affine := ⟨FQ2.zero, FQ2.one, true⟩

/-- `g2GeneratorXC1`, g2.go:26. -/
def generatorXC1 : FQRepr := .ofNat 0x13e02b6052719f607dacd3a088274f65596bd0d09920b61ab5da61bbdc7f5049334cf11213945d57e5ac7d055d042b7e

/-- `g2GeneratorXC0`, g2.go:27. -/
def generatorXC0 : FQRepr := .ofNat 0x24aa2b2f08f0a91260805272dc51051c6e47ad4fa403b02b4510b647ae3d1770bac0326a805bbefd48056c8c121bdb8

/-- `g2GeneratorYC1`, g2.go:28. -/
def generatorYC1 : FQRepr := .ofNat 0x606c4a02ea734cc32acd2b02bc28b99cb3e287e85a763af267492ab572e99ab3f370d275cec1da1aaa9075ff05f79be

/-- `g2GeneratorYC0`, g2.go:29. -/
def generatorYC0 : FQRepr := .ofNat 0xce5d527727d6e118cc9cdc6da2e351aadfd9baa8cbdd3a76d429a695160d12c923ac9cc3baca289e193548608b82801

/-- `BCoeffFQ2`, g2.go:32. -/
def bCoeffFQ2 : FQ2 := ⟨G1Affine.bCoeff, G1Affine.bCoeff⟩

/-- `G2AffineOne`, g2.go:35-50. -/
def one : G2Affine := ⟨⟨.ofRepr generatorXC0, .ofRepr generatorXC1⟩, ⟨.ofRepr generatorYC0, .ofRepr generatorYC1⟩, false⟩

/-- `IsZero`, g2.go:58-60. -/
def isZero (g : G2Affine) : Bool := g.infinity

/-- `NegAssign`, g2.go:63-67. -/
def neg (g : G2Affine) : G2Affine := if !g.isZero then { g with y := g.y.neg } else g

end G2Affine

namespace G2Projective

/-- `G2ProjectiveZero`, g2.go:310. -/
def zero : G2Projective := ⟨FQ2.zero, FQ2.one, FQ2.zero⟩

/-- `IsZero`, g2.go:328-330. -/
def isZero (g : G2Projective) : Bool := g.z.isZero

/-- `Equals`, g2.go:333-362. -/
def equals (g other : G2Projective) : Bool :=
  if g.isZero then other.isZero
  else if other.isZero then false
  else
    let z1 := g.z.square
    let z2 := other.z.square
    let tmp1 := g.x.mul z2
    let tmp2 := other.x.mul z1
    if !tmp1.equals tmp2 then false
    else
      let z1 := z1.mul g.z
      let z1 := z1.mul other.y
      let z2 := z2.mul other.z
      let z2 := z2.mul g.y
      z1.equals z2

/-- `ToAffine`, g2.go:365-386. -/
def toAffine (g : G2Projective) : G2Affine :=
  if g.isZero then G2Affine.zero
  else if g.z.equals FQ2.one then .new g.x g.y
  else
    let t := g.z.inverse
    let zInvSquared := t.1.square
    let x := g.x.mul zInvSquared
    let y := g.y.mul zInvSquared
    let y := y.mul t.1
    .new x y

/-- `Double`, g2.go:389-443. -/
def double (g : G2Projective) : G2Projective :=
  if g.isZero then g
  else
    let a := g.x.square
    let b := g.y.square
    let c := b.square
    let d := g.x.add b
    let d := d.square
    let d := d.sub a
    let d := d.sub c
    let d := d.double
    let e := a.double
    let e := e.add a
    let f := e.square
    let newZ := g.z.mul g.y
    let newZ := newZ.double
    let newX := f.sub d
    let newX := newX.sub d
    let c := c.double
    let c := c.double
    let c := c.double
    let newY := d.sub newX
    let newY := newY.mul e
    let newY := newY.sub c
    ⟨newX, newY, newZ⟩

/-- `Add`, g2.go:446-529. -/
def add (g other : G2Projective) : G2Projective :=
  if g.isZero then other
  else if other.isZero then g
  else
    let z1z1 := g.z.square
    let z2z2 := other.z.square
    let u1 := g.x.mul z2z2
    let u2 := other.x.mul z1z1
    let s1 := g.y.mul other.z
    let s1 := s1.mul z2z2
    let s2 := other.y.mul g.z
    let s2 := s2.mul z1z1
    if u1.equals u2 && s1.equals s2 then g.double
    else
      let h := u2.sub u1
      let i := h.double
      let i := i.square
      let j := h.mul i
      let r := s2.sub s1
      let r := r.double
      let u1 := u1.mul i
      let newX := r.square
      let newX := newX.sub j
      let newX := newX.sub u1
      let newX := newX.sub u1
      let u1 := u1.sub newX
      let u1 := u1.mul r
      let s1 := s1.mul j
      let s1 := s1.double
      let u1 := u1.sub s1
      let newZ := g.z.add other.z
      let newZ := newZ.square
      let newZ := newZ.sub z1z1
      let newZ := newZ.sub z2z2
      let newZ := newZ.mul h
      ⟨newX, u1, newZ⟩

end G2Projective

/-- `G2Affine.ToProjective`, g2.go:70-76. -/
def G2Affine.toProjective (g : G2Affine) : G2Projective :=
  if g.isZero then .zero else ⟨g.x, g.y, FQ2.one⟩

namespace G2Projective

/-- `G2ProjectiveOne`, g2.go:313. -/
def one : G2Projective := G2Affine.one.toProjective

/-- `AddAffine`, g2.go:532-606. -/
def addAffine (g : G2Projective) (other : G2Affine) : G2Projective :=
  if g.isZero then other.toProjective
  else if other.isZero then g
  else
    let z1z1 := g.z.square
    let u2 := other.x.mul z1z1
    let s2 := other.y.mul g.z
    let s2 := s2.mul z1z1
    if g.x.equals u2 && g.y.equals s2 then g.double
    else
      let u2 := u2.sub g.x
      let hh := u2.square
      let i := hh.double
      let i := i.double
      let j := u2.mul i
      let s2 := s2.sub g.y
      let s2 := s2.double
      let v := g.x.mul i
      let newX := s2.square
      let newX := newX.sub j
      let newX := newX.sub v
      let newX := newX.sub v
      let newY := v.sub newX
      let newY := newY.mul s2
      let i0 := g.y.mul j
      let i0 := i0.double
      let newY := newY.sub i0
      let newZ := g.z.add u2
      let newZ := newZ.square
      let newZ := newZ.sub z1z1
      let newZ := newZ.sub hh
      ⟨newX, newY, newZ⟩

/-- `Mul`, g2.go:609-619 (`none`: the bit access panics; it does not, see `mul?_eq`). -/
def mul? (g : G2Projective) (b : FQRepr) : Option G2Projective :=
  scalarLoop double (fun res => res.add g) b.bit b.bitLen b.bitLen 0 zero

/-- `Mul`, g2.go:609-619, with the unreachable panic defaulted. -/
def mul (g : G2Projective) (b : FQRepr) : G2Projective := (g.mul? b).getD zero

/-- `MulFR`, g2.go:622-632. -/
def mulFR? (g : G2Projective) (b : FRRepr) : Option G2Projective :=
  scalarLoop double (fun res => res.add g) b.bit b.bitLen b.bitLen 0 zero

/-- `MulFR`, g2.go:622-632, with the unreachable panic defaulted. -/
def mulFR (g : G2Projective) (b : FRRepr) : G2Projective := (g.mulFR? b).getD zero

end G2Projective

namespace G2Affine

/-- `Mul`, g2.go:79-89. -/
def mul? (g : G2Affine) (b : FQRepr) : Option G2Projective :=
  scalarLoop G2Projective.double (fun res => res.addAffine g) b.bit b.bitLen b.bitLen 0 .zero

/-- `Mul`, g2.go:79-89, with the unreachable panic defaulted. -/
def mul (g : G2Affine) (b : FQRepr) : G2Projective := (g.mul? b).getD .zero

/-- `MulFR`, g2.go:92-102. -/
def mulFR? (g : G2Affine) (b : FRRepr) : Option G2Projective :=
  scalarLoop G2Projective.double (fun res => res.addAffine g) b.bit b.bitLen b.bitLen 0 .zero

/-- `MulFR`, g2.go:92-102, with the unreachable panic defaulted. -/
def mulFR (g : G2Affine) (b : FRRepr) : G2Projective := (g.mulFR? b).getD .zero

/-- `MulBig`, g2.go:105-115, for a non-negative `big.Int` (its `Bit` does not panic here). -/
def mulBig? (g : G2Affine) (b : Nat) : Option G2Projective :=
  let bitLen := if b = 0 then 0 else Nat.log2 b + 1
  scalarLoop G2Projective.double (fun res => res.addAffine g) (fun n => some (b.testBit n)) bitLen bitLen 0 .zero

/-- `MulBig`, g2.go:105-115. -/
def mulBig (g : G2Affine) (b : Nat) : G2Projective := (g.mulBig? b).getD .zero

/-- `IsOnCurve`, g2.go:118-130. -/
def isOnCurve (g : G2Affine) : Bool :=
  if g.infinity then true
  else
    let y2 := g.y.square
    let x3b := g.x.square
    let x3b := x3b.mul g.x
    let x3b := x3b.add bCoeffFQ2
    y2.equals x3b

/-- `GetG2PointFromX`, g2.go:149-169; `none` is the returned error. -/
def getPointFromX (x : FQ2) (greatest : Bool) : Option G2Affine :=
  let x3b := x.square
  let x3b := x3b.mul x
  let x3b := x3b.add bCoeffFQ2
  let t := x3b.sqrt
  if !t.2 then none
  else
    let negY := t.1.neg
    let yVal := if decide (t.1.cmp negY < 0) != greatest then t.1 else negY
    some (.new x yVal)

/-- `IsInCorrectSubgroupAssumingOnCurve`, g2.go:293-295. -/
def isInCorrectSubgroup (g : G2Affine) : Bool := (g.mulFR frChar).isZero

/-- `g2Cofactor`, g2.go:133. -/
def cofactor : Nat := 0x5d543a95414e7f1091d50792876a202cd91de4547085abaa68a205b2e5a7ddfa628f1cb4d9e82ef21537e293a6691ae1616ec6e786f0c70cf1c38e31c7238e5

/-- `ScaleByCofactor`, g2.go:136-138. -/
def scaleByCofactor (g : G2Affine) : G2Projective := g.mulBig cofactor

/-- `Equals`, g2.go:141-143. -/
def equals (g other : G2Affine) : Bool :=
  (g.infinity == other.infinity) || (g.x.equals other.x && g.y.equals other.y)

/-- `SerializeBytes`, g2.go:172-186. -/
def serializeBytes (g : G2Affine) : List UInt8 :=
  g.x.c0.toRepr.bytes ++ g.x.c1.toRepr.bytes ++ g.y.c0.toRepr.bytes ++ g.y.c1.toRepr.bytes

/-- `SetRawBytes`, g2.go:189-215. -/
def setRawBytes (g : G2Affine) (u : List UInt8) : G2Affine :=
  { g with
    x := ⟨.ofRepr (.fromBytes (slice u 0 48)), .ofRepr (.fromBytes (slice u 48 96))⟩
    y := ⟨.ofRepr (.fromBytes (slice u 96 144)), .ofRepr (.fromBytes (slice u 144 192))⟩ }

/-- `DecompressG2Unchecked`, g2.go:232-265; `none` is a returned error. -/
def decompressUnchecked (b : List UInt8) : Option G2Affine :=
  let b0 := b.getD 0 0
  if b0 &&& 0x80 == 0 then none
  else if b0 &&& 0x40 != 0 then
    let c' := b.set 0 (b0 &&& 0x3f)
    if c'.any (· != 0) then none
    else some zero
  else
    let greatest := b0 &&& 0x20 != 0
    let c' := b.set 0 (b0 &&& 0x1f)
    let xC1Bytes := slice c' 0 48
    let xC0Bytes := slice c' 48 96
    let xC0FQ := FQ.ofRepr (.fromBytes xC0Bytes)
    let xC1FQ := FQ.ofRepr (.fromBytes xC1Bytes)
    getPointFromX ⟨xC0FQ, xC1FQ⟩ greatest

/-- `DecompressG2`, g2.go:219-229. -/
def decompress (b : List UInt8) : Option G2Affine :=
  match decompressUnchecked b with
  | none => none
  | some affine => if !affine.isInCorrectSubgroup then none else some affine

/-- `CompressG2`, g2.go:268-289. -/
def compress (affine : G2Affine) : List UInt8 :=
  let res : List UInt8 := List.replicate 96 0
  let res :=
    if affine.isZero then res.modify 0 (· ||| 0x40)
    else
      let res := affine.x.c1.toRepr.bytes ++ affine.x.c0.toRepr.bytes
      let negY := affine.y.neg
      if affine.y.cmp negY > 0 then res.modify 0 (· ||| 0x20) else res
  res.modify 0 (· ||| 0x80)

end G2Affine

/-- One iteration of `RandG2`, g2.go:806-826, given the byte read
(`none`: read error) and the results of the two `rand.Int` calls (`none`: error). The result `ok none` is another iteration. -/
def randG2Step (b : Option UInt8) (d0 d1 : Option Int) : Outcome (Option G2Projective) :=
  match b with
  | none => .err
  | some b0 =>
    match FQ2.rand d0 d1 with
    | none => .panic
    | some none => .err
    | some (some f) =>
      .ok ((G2Affine.getPointFromX f (if b0 % 2 == 0 then true else false)).bind fun p =>
        if !p.isZero then some p.scaleByCofactor else none)

/-- `RandG2`, g2.go:804-828, on the list of draws it makes. -/
def randG2 : List (Option UInt8 × Option Int × Option Int) → Outcome G2Projective
  | [] => .running
  | (b, d0, d1) :: rest =>
    match randG2Step b d0 d1 with
    | .ok (some p1) => .ok p1
    | .ok none => randG2 rest
    | .err => .err
    | .panic => .panic
    | .running => .running

/- No effect on the kernel or on meaning. -/
attribute [irreducible] G2Projective.double G2Projective.add G2Projective.addAffine
  G2Projective.toAffine G2Projective.equals G2Affine.getPointFromX G2Projective.zero
  G2Projective.mul G2Projective.mulFR G2Affine.mul G2Affine.mulFR G2Affine.mulBig G2Affine.cofactor

end Bls
