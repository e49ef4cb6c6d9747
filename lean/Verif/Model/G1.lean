import Verif.Model.FR
/-
g1.go, without the SWU map (Verif/Model/Hash1.lean). FQ and FQRepr are Go value types without shared
storage once copied, so points are given by the values of their coordinates; the places where
pointers are shared are in Verif/Model/Heap.lean. `[48]byte` and `[96]byte` are byte lists of that
length; the masks `1<<7`, `1<<6`, `1<<5` are written out.
-/
namespace Bls

/-- The loop shared by `Mul`, `MulFR` and `MulBig`, e.g. g1.go:63-73: `k` iterations left of `bitLen`,
loop variable `i`. `bit` is the scalar's `Bit` method (`none` a panic), `dbl` and `add` what the body
does to `res`. -/
def scalarLoop {α : Type} (dbl add : α → α) (bit : Nat → Option Bool) (bitLen : Nat) :
    (k i : Nat) → (res : α) → Option α
  | 0, _, res => some res
  | k + 1, i, res =>
    match bit (bitLen - i - 1) with
    | none => none
    | some o =>
      let res := dbl res
      let res := if o then add res else res
      scalarLoop dbl add bit bitLen k (i + 1) res

/-- `G1Affine`, g1.go:10-14. -/
@[ext] structure G1Affine where
  x : FQ
  y : FQ
  infinity : Bool
deriving DecidableEq, Repr

/-- `G1Projective`, g1.go:252-256; the constructor is `NewG1Projective`, g1.go:264-266. -/
@[ext] structure G1Projective where
  x : FQ
  y : FQ
  z : FQ
deriving DecidableEq, Repr

namespace G1Affine

/-- `NewG1Affine`, g1.go:17-19. -/
def new (x y : FQ) : G1Affine := ⟨x, y, false⟩

/-- `G1AffineZero`, g1.go:22. -/
def zero : G1Affine := ⟨FQ.zero, FQ.one, true⟩

/-- `g1GeneratorX`, g1.go:25. -/
def generatorX : FQRepr := .ofNat 3685416753713387016781088315183077757961620795782546409894578378688607592378376318836054947676345821548104185464507

/-- `g1GeneratorY`, g1.go:26. -/
def generatorY : FQRepr := .ofNat 1339506544944476473020471379941921221584933875938349620426543736416511423956333506472724655353366534992391756441569

/-- `BCoeff`, g1.go:29. -/
def bCoeff : FQ := .ofReprRaw ⟨0xaa270000000cfff3, 0x53cc0032fc34000a, 0x478fe97a6b0a807f, 0xb1d37ebee6ba24d7, 0x8ec9733bbf78ab2f, 0x9d645513d83de7e⟩

/-- `G1AffineOne`, g1.go:32. -/
def one : G1Affine := ⟨.ofRepr generatorX, .ofRepr generatorY, false⟩

/-- `IsZero`, g1.go:47-49. -/
def isZero (g : G1Affine) : Bool := g.infinity

/-- `NegAssign`, g1.go:52-56. -/
def neg (g : G1Affine) : G1Affine := if !g.isZero then { g with y := g.y.neg } else g

end G1Affine

namespace G1Projective

/-- `G1ProjectiveZero`, g1.go:269. -/
def zero : G1Projective := ⟨FQ.zero, FQ.one, FQ.zero⟩

/-- `NegAssign`, g1.go:259-261. -/
def neg (g : G1Projective) : G1Projective := { g with y := g.y.neg }

/-- `IsZero`, g1.go:287-289. -/
def isZero (g : G1Projective) : Bool := g.z.isZero

/-- `Equal`, g1.go:292-319. -/
def equal (g other : G1Projective) : Bool :=
  if g.isZero then other.isZero
  else if other.isZero then false
  else
    let z1 := g.z.square
    let z2 := other.z.square
    let tmp1 := g.x.mul z2
    let tmp2 := other.x.mul z1
    if !tmp1.equals tmp2 then false
    else
      let z1 := z1.mul g.z
      let z1 := z1.mul other.y
      let z2 := z2.mul other.z
      let z2 := z2.mul g.y
      z1.equals z2

/-- `ToAffine`, g1.go:322-340. (The test `g.z.IsZero()` of the second branch can never hold there; it
is kept.) -/
def toAffine (g : G1Projective) : G1Affine :=
  if g.isZero then G1Affine.zero
  else if g.z.isZero then .new g.x g.y
  else
    let t := g.z.inverse
    let zInvSquared := t.1.square
    let x := g.x.mul zInvSquared
    let y := g.y.mul zInvSquared
    let y := y.mul t.1
    .new x y

/-- `Double`, g1.go:343-397. -/
def double (g : G1Projective) : G1Projective :=
  if g.isZero then g
  else
    let a := g.x.square
    let b := g.y.square
    let c := b.square
    let d := g.x.add b
    let d := d.square
    let d := d.sub a
    let d := d.sub c
    let d := d.double
    let e := a.double
    let e := e.add a
    let f := e.square
    let newZ := g.z.mul g.y
    let newZ := newZ.double
    let newX := f.sub d
    let newX := newX.sub d
    let c := c.double
    let c := c.double
    let c := c.double
    let newY := d.sub newX
    let newY := newY.mul e
    let newY := newY.sub c
    ⟨newX, newY, newZ⟩

/-- `Add`, g1.go:400-482. -/
def add (g other : G1Projective) : G1Projective :=
  if g.isZero then other
  else if other.isZero then g
  else
    let z1z1 := g.z.square
    let z2z2 := other.z.square
    let u1 := g.x.mul z2z2
    let u2 := other.x.mul z1z1
    let s1 := g.y.mul other.z
    let s1 := s1.mul z2z2
    let s2 := other.y.mul g.z
    let s2 := s2.mul z1z1
    if u1.equals u2 && s1.equals s2 then g.double
    else
      let h := u2.sub u1
      let i := h.double
      let i := i.square
      let j := h.mul i
      let s2 := s2.sub s1
      let s2 := s2.double
      let u1 := u1.mul i
      let newX := s2.square
      let newX := newX.sub j
      let newX := newX.sub u1
      let newX := newX.sub u1
      let u1 := u1.sub newX
      let u1 := u1.mul s2
      let s1 := s1.mul j
      let s1 := s1.double
      let u1 := u1.sub s1
      let newZ := g.z.add other.z
      let newZ := newZ.square
      let newZ := newZ.sub z1z1
      let newZ := newZ.sub z2z2
      let newZ := newZ.mul h
      ⟨newX, u1, newZ⟩

end G1Projective

/-- `G1Affine.ToProjective`, g1.go:59-64. -/
def G1Affine.toProjective (g : G1Affine) : G1Projective :=
  if g.isZero then .zero else ⟨g.x, g.y, FQ.one⟩

namespace G1Projective

/-- `G1ProjectiveOne`, g1.go:272. -/
def one : G1Projective := G1Affine.one.toProjective

/-- `AddAffine`, g1.go:485-559. -/
def addAffine (g : G1Projective) (other : G1Affine) : G1Projective :=
  if g.isZero then other.toProjective
  else if other.isZero then g
  else
    let z1z1 := g.z.square
    let u2 := other.x.mul z1z1
    let s2 := other.y.mul g.z
    let s2 := s2.mul z1z1
    if g.x.equals u2 && g.y.equals s2 then g.double
    else
      let u2 := u2.sub g.x
      let hh := u2.square
      let i := hh.double
      let i := i.double
      let j := u2.mul i
      let s2 := s2.sub g.y
      let s2 := s2.double
      let v := g.x.mul i
      let newX := s2.square
      let newX := newX.sub j
      let newX := newX.sub v
      let newX := newX.sub v
      let newY := v.sub newX
      let newY := newY.mul s2
      let i0 := g.y.mul j
      let i0 := i0.double
      let newY := newY.sub i0
      let newZ := g.z.add u2
      let newZ := newZ.square
      let newZ := newZ.sub z1z1
      let newZ := newZ.sub hh
      ⟨newX, newY, newZ⟩

/-- `Mul`, g1.go:562-572 (`none`: the bit access panics; it does not, see `mul?_eq`). -/
def mul? (g : G1Projective) (b : FQRepr) : Option G1Projective :=
  scalarLoop double (fun res => res.add g) b.bit b.bitLen b.bitLen 0 zero

/-- `Mul`, g1.go:562-572, with the unreachable panic defaulted. -/
def mul (g : G1Projective) (b : FQRepr) : G1Projective := (g.mul? b).getD zero

/-- `MulFR`, g1.go:575-585. -/
def mulFR? (g : G1Projective) (b : FRRepr) : Option G1Projective :=
  scalarLoop double (fun res => res.add g) b.bit b.bitLen b.bitLen 0 zero

/-- `MulFR`, g1.go:575-585, with the unreachable panic defaulted. -/
def mulFR (g : G1Projective) (b : FRRepr) : G1Projective := (g.mulFR? b).getD zero

end G1Projective

/-- `frChar`, g1.go:133. -/
def frChar : FRRepr := .ofNat 52435875175126190479447740508185965837690552500527637822603658699938581184513

namespace G1Affine

/-- `Mul`, g1.go:67-77. -/
def mul? (g : G1Affine) (b : FQRepr) : Option G1Projective :=
  scalarLoop G1Projective.double (fun res => res.addAffine g) b.bit b.bitLen b.bitLen 0 .zero

/-- `Mul`, g1.go:67-77, with the unreachable panic defaulted. -/
def mul (g : G1Affine) (b : FQRepr) : G1Projective := (g.mul? b).getD .zero

/-- `MulFR`, g1.go:80-90. -/
def mulFR? (g : G1Affine) (b : FRRepr) : Option G1Projective :=
  scalarLoop G1Projective.double (fun res => res.addAffine g) b.bit b.bitLen b.bitLen 0 .zero

/-- `MulFR`, g1.go:80-90, with the unreachable panic defaulted. -/
def mulFR (g : G1Affine) (b : FRRepr) : G1Projective := (g.mulFR? b).getD .zero

/-- `IsOnCurve`, g1.go:93-105. -/
def isOnCurve (g : G1Affine) : Bool :=
  if g.infinity then true
  else
    let y2 := g.y.square
    let x3b := g.x.square
    let x3b := x3b.mul g.x
    let x3b := x3b.add bCoeff
    y2.equals x3b

/-- `GetG1PointFromX`, g1.go:111-131; `none` is the returned error. -/
def getPointFromX (x : FQ) (greatest : Bool) : Option G1Affine :=
  let x3b := x.square
  let x3b := x3b.mul x
  let x3b := x3b.add bCoeff
  let t := x3b.sqrt
  if !t.2 then none
  else
    let negY := t.1.neg
    let yVal := if decide (t.1.cmp negY < 0) != greatest then t.1 else negY
    some (.new x yVal)

/-- `IsInCorrectSubgroupAssumingOnCurve`, g1.go:137-141. -/
def isInCorrectSubgroup (g : G1Affine) : Bool := (g.mulFR frChar).isZero

/-- `g1Cofactor`, g1.go:144. -/
def cofactor : FQRepr := .ofNat 76329603384216526031706109802092473003

/-- `ScaleByCofactor`, g1.go:147-149. -/
def scaleByCofactor (g : G1Affine) : G1Projective := g.mul cofactor

/-- `Equals`, g1.go:152-154. -/
def equals (g other : G1Affine) : Bool :=
  (g.infinity == other.infinity && g.infinity == true) || (g.x.equals other.x && g.y.equals other.y)

/-- `SerializeBytes`, g1.go:157-167. -/
def serializeBytes (g : G1Affine) : List UInt8 := g.x.toRepr.bytes ++ g.y.toRepr.bytes

/-- `SetRawBytes`, g1.go:170-181. -/
def setRawBytes (g : G1Affine) (u : List UInt8) : G1Affine :=
  { g with
    x := ⟨FQRepr.fromBytes (slice u 0 48)⟩
    y := ⟨FQRepr.fromBytes (slice u 48 96)⟩ }

/-- `DecompressG1Unchecked`, g1.go:199-227; `none` is a returned error. -/
def decompressUnchecked (b : List UInt8) : Option G1Affine :=
  let b0 := b.getD 0 0
  if b0 &&& 0x80 == 0 then none
  else if b0 &&& 0x40 != 0 then
    let copyBytes := b.set 0 (b0 &&& 0x3f)
    if copyBytes.any (· != 0) then none
    else some zero
  else
    let greatest := b0 &&& 0x20 != 0
    let copyBytes := b.set 0 (b0 &&& 0x1f)
    let x := FQRepr.fromBytes copyBytes
    let xFQ := FQ.ofRepr x
    getPointFromX xFQ greatest

/-- `DecompressG1`, g1.go:185-195. -/
def decompress (b : List UInt8) : Option G1Affine :=
  match decompressUnchecked b with
  | none => none
  | some affine => if !affine.isInCorrectSubgroup then none else some affine

/-- `CompressG1`, g1.go:230-249. -/
def compress (affine : G1Affine) : List UInt8 :=
  let res : List UInt8 := List.replicate 48 0
  let res :=
    if affine.isZero then res.modify 0 (· ||| 0x40)
    else
      let res := affine.x.toRepr.bytes
      let negY := affine.y.neg
      if affine.y.cmp negY > 0 then res.modify 0 (· ||| 0x20) else res
  res.modify 0 (· ||| 0x80)

end G1Affine

/-- How a call that draws randomness ends; `running` means the listed draws did not suffice. -/
inductive Outcome (α : Type) where
  | ok (a : α)
  | err
  | panic
  | running
deriving DecidableEq, Repr

/-- One iteration of `RandG1`, g1.go:590-610, given the byte read
(`none`: read error) and the result of `rand.Int` (`none`: error). The result `ok none` is another iteration. -/
def randG1Step (b : Option UInt8) (d : Option Int) : Outcome (Option G1Projective) :=
  match b with
  | none => .err
  | some b0 =>
    match FQ.rand d with
    | none => .panic
    | some none => .err
    | some (some f) =>
      .ok ((G1Affine.getPointFromX f (if b0 % 2 == 0 then true else false)).bind fun p =>
        if !p.isZero then some p.scaleByCofactor else none)

/-- `RandG1`, g1.go:588-612, on the list of draws it makes. -/
def randG1 : List (Option UInt8 × Option Int) → Outcome G1Projective
  | [] => .running
  | (b, d) :: rest =>
    match randG1Step b d with
    | .ok (some p1) => .ok p1
    | .ok none => randG1 rest
    | .err => .err
    | .panic => .panic
    | .running => .running

/- No effect on the kernel or on meaning. -/
attribute [irreducible] G1Projective.double G1Projective.add G1Projective.addAffine
  G1Projective.toAffine G1Projective.equal G1Affine.getPointFromX G1Projective.zero
  G1Projective.mul G1Projective.mulFR G1Affine.mul G1Affine.mulFR

end Bls
