import Verif.Model.FQ12
import Verif.Model.G2
/-
pairing.go and the prepared-point part of g2.go. A panic is `none` in `millerLoop` and the outer `none`
in `pairing`; a nil result of `FinalExponentiation` is its `none`. FQ2, FQ6, FQ12 and G1Affine hold
their coordinates by value and every method receiver here is a fresh copy, so plain values model the
Go variables.
-/
namespace Bls

/-- `blsX`, g2.go:634: the absolute value of the curve parameter. -/
def blsX : FQRepr := .ofNat 0xd201000000010000

/-- `blsIsNegative`, g2.go:636. -/
def blsIsNegative : Bool := true

/-- The `[3]FQ2` line coefficients, g2.go:640. -/
abbrev Coeffs := FQ2 × FQ2 × FQ2

/-- `G2Prepared`, g2.go:639-642. -/
structure G2Prepared where
  coeffs : List Coeffs
  infinity : Bool

/-- `IsZero`, g2.go:645-647. -/
def G2Prepared.isZero (g : G2Prepared) : Bool := g.infinity

/-- `doublingStep`, g2.go:655-708: the new `r` and the returned coefficients. -/
def doublingStep (r : G2Projective) : G2Projective × Coeffs :=
  let tmp0 := r.x.square
  let tmp1 := r.y.square
  let tmp2 := tmp1.square
  let tmp3 := tmp1.add r.x
  let tmp3 := tmp3.square
  let tmp3 := tmp3.sub tmp0
  let tmp3 := tmp3.sub tmp2
  let tmp3 := tmp3.double
  let tmp4 := tmp0.double
  let tmp4 := tmp4.add tmp0
  let tmp6 := r.x.add tmp4
  let tmp5 := tmp4.square
  let zSquared := r.z.square
  let rx := tmp5.sub tmp3
  let rx := rx.sub tmp3
  let rz := r.z.add r.y
  let rz := rz.square
  let rz := rz.sub tmp1
  let rz := rz.sub zSquared
  let ry := tmp3.sub rx
  let ry := ry.mul tmp4
  let tmp2 := tmp2.double
  let tmp2 := tmp2.double
  let tmp2 := tmp2.double
  let ry := ry.sub tmp2
  let tmp3 := tmp4.mul zSquared
  let tmp3 := tmp3.double
  let tmp3 := tmp3.neg
  let tmp6 := tmp6.square
  let tmp6 := tmp6.sub tmp0
  let tmp6 := tmp6.sub tmp5
  let tmp1 := tmp1.double
  let tmp1 := tmp1.double
  let tmp6 := tmp6.sub tmp1
  let tmp0 := rz.mul zSquared
  let tmp0 := tmp0.double
  (⟨rx, ry, rz⟩, (tmp0, tmp3, tmp6))

/-- `additionStep`, g2.go:710-772: the new `r` and the returned coefficients. -/
def additionStep (r : G2Projective) (q : G2Affine) : G2Projective × Coeffs :=
  let zSquared := r.z.square
  let ySquared := q.y.square
  let t0 := zSquared.mul q.x
  let t1 := q.y.add r.z
  let t1 := t1.square
  let t1 := t1.sub ySquared
  let t1 := t1.sub zSquared
  let t1 := t1.mul zSquared
  let t2 := t0.sub r.x
  let t3 := t2.square
  let t4 := t3.double
  let t4 := t4.double
  let t5 := t4.mul t2
  let t6 := t1.sub r.y
  let t6 := t6.sub r.y
  let t9 := t6.mul q.x
  let t7 := t4.mul r.x
  let rx := t6.square
  let rx := rx.sub t5
  let rx := rx.sub t7
  let rx := rx.sub t7
  let rz := r.z.add t2
  let rz := rz.square
  let rz := rz.sub zSquared
  let rz := rz.sub t3
  let t10 := q.y.add rz
  let t8 := t7.sub rx
  let t8 := t8.mul t6
  let t0 := r.y.mul t5
  let t0 := t0.double
  let ry := t8.sub t0
  let t10 := t10.square
  let t10 := t10.sub ySquared
  let zSquared := rz.square
  let t10 := t10.sub zSquared
  let t9 := t9.double
  let t9 := t9.sub t10
  let t10 := rz.double
  let t6 := t6.neg
  let t6 := t6.double
  (⟨rx, ry, rz⟩, (t10, t6, t9))

/-- The loop of `G2AffineToPrepared`, g2.go:777-795, over the bits of `b` (`blsXRsh1`): `k` iterations
left, loop variable `i`. `none` is a panic of `Bit`. -/
def prepareLoop (q : G2Affine) (b : FQRepr) :
    (k i : Nat) → (foundOne : Bool) → (r : G2Projective) → (coeffs : List Coeffs) →
    Option (G2Projective × List Coeffs)
  | 0, _, _, r, coeffs => some (r, coeffs)
  | k + 1, i, foundOne, r, coeffs =>
    match b.bit (b.bitLen - i) with
    | none => none
    | some set =>
      if !foundOne then prepareLoop q b k (i + 1) set r coeffs
      else
        let d := doublingStep r
        let coeffs := coeffs ++ [d.2]
        if set then
          let a := additionStep d.1 q
          prepareLoop q b k (i + 1) foundOne a.1 (coeffs ++ [a.2])
        else prepareLoop q b k (i + 1) foundOne d.1 coeffs

/-- `G2AffineToPrepared`, g2.go:650-801 (`none`: a panic of `Bit`; there is none). -/
def G2Affine.toPrepared (q : G2Affine) : Option G2Prepared :=
  if q.isZero then some ⟨[], true⟩
  else
    let blsXRsh1 := blsX.rsh 1
    match prepareLoop q blsXRsh1 (blsXRsh1.bitLen + 1) 0 false q.toProjective [] with
    | none => none
    | some (r, coeffs) => some ⟨coeffs ++ [(doublingStep r).2], false⟩

/-- `pairingItem`, pairing.go:9-13. A nil `p` is `none`; the zero value is `⟨none, [], 0⟩`. -/
structure PairingItem where
  p : Option G1Affine
  q : List Coeffs
  qIndex : Nat

/-- The body of the first loop of `MillerLoop`, pairing.go:18-26. -/
def PairingItem.make (item : G1Affine × G2Prepared) : PairingItem :=
  if !item.1.isZero && !item.2.isZero then ⟨some item.1, item.2.coeffs, 0⟩ else ⟨none, [], 0⟩

/-- `ell`, pairing.go:28-39. -/
def ell (f : FQ12) (coeffs : Coeffs) (p : G1Affine) : FQ12 :=
  let c0 := coeffs.1
  let c1 := coeffs.2.1
  let c0 : FQ2 := ⟨c0.c0.mul p.y, c0.c1.mul p.y⟩
  let c1 : FQ2 := ⟨c1.c0.mul p.x, c1.c1.mul p.x⟩
  f.mulBy014 coeffs.2.2 c1 c0

/-- The loop over the pairs that applies `ell`, pairing.go:53-56, 58-61 and 66-69: the new `f` and pairs.
`none` is a panic: `pair.q[pair.qIndex]` out of range, or `pair.p` nil. -/
def ellAll : (f : FQ12) → (pairs : List PairingItem) → Option (FQ12 × List PairingItem)
  | f, [] => some (f, [])
  | f, pair :: rest =>
    match pair.q[pair.qIndex]?, pair.p with
    | some coeffs, some p =>
      match ellAll (ell f coeffs p) rest with
      | none => none
      | some (f, rest) => some (f, { pair with qIndex := pair.qIndex + 1 } :: rest)
    | _, _ => none

/-- The loop of `MillerLoop`, pairing.go:46-65, over the bits of `b` (`blsXRsh1`): `k` iterations left,
loop variable `i`. -/
def millerGo (b : FQRepr) :
    (k i : Nat) → (foundOne : Bool) → (f : FQ12) → (pairs : List PairingItem) →
    Option (FQ12 × List PairingItem)
  | 0, _, _, f, pairs => some (f, pairs)
  | k + 1, i, foundOne, f, pairs =>
    match b.bit (b.bitLen - i) with
    | none => none
    | some set =>
      if !foundOne then millerGo b k (i + 1) set f pairs
      else
        match ellAll f pairs with
        | none => none
        | some (f, pairs) =>
          if set then
            match ellAll f pairs with
            | none => none
            | some (f, pairs) => millerGo b k (i + 1) foundOne f.square pairs
          else millerGo b k (i + 1) foundOne f.square pairs

/-- `MillerLoop`, pairing.go:16-75 (`none`: it panics). -/
def millerLoop (items : List (G1Affine × G2Prepared)) : Option FQ12 :=
  let pairs := items.map PairingItem.make
  let blsXRsh1 := blsX.rsh 1
  match millerGo blsXRsh1 (blsXRsh1.bitLen + 1) 0 false FQ12.one pairs with
  | none => none
  | some (f, pairs) =>
    match ellAll f pairs with
    | none => none
    | some (f, _) => some (if blsIsNegative then f.conjugate else f)

/-- `ExpByX`, pairing.go:92-98. -/
def expByX (f : FQ12) (x : FQRepr) : FQ12 :=
  let newf := f.exp x
  if blsIsNegative then newf.conjugate else newf

/-- `FinalExponentiation`, pairing.go:79-129 (`none`: it returns nil). -/
def finalExponentiation (r : FQ12) : Option FQ12 :=
  let f1 := r.conjugate
  let t := r.inverse
  if !t.2 then none
  else
    let f2 := t.1
    let r := f1.mul f2
    let f2 := r
    let r := r.frobeniusMap 2
    let r := r.mul f2
    let x := blsX
    let y0 := r.square
    let y1 := expByX y0 x
    let x := x.rsh 1
    let y2 := expByX y1 x
    let x := x.lsh 1
    let y3 := r.conjugate
    let y1 := y1.mul y3
    let y1 := y1.conjugate
    let y1 := y1.mul y2
    let y2 := expByX y1 x
    let y3 := expByX y2 x
    let y1 := y1.conjugate
    let y3 := y3.mul y1
    let y1 := y1.conjugate
    let y1 := y1.frobeniusMap 3
    let y2 := y2.frobeniusMap 2
    let y1 := y1.mul y2
    let y2 := expByX y3 x
    let y2 := y2.mul y0
    let y2 := y2.mul r
    let y1 := y1.mul y2
    let y3 := y3.frobeniusMap 1
    let y1 := y1.mul y3
    some y1

/-- `Pairing`, pairing.go:132-136: outer `none` a panic, inner `none` a nil result. -/
def pairing (p : G1Projective) (q : G2Projective) : Option (Option FQ12) :=
  match q.toAffine.toPrepared with
  | none => none
  | some prep => (millerLoop [(p.toAffine, prep)]).map finalExponentiation

/-- `CompareTwoPairings`, pairing.go:140-147 (`none`: a panic, including `Equals` on a nil result). -/
def compareTwoPairings (p1 : G1Projective) (q1 : G2Projective) (p2 : G1Projective) (q2 : G2Projective) :
    Option Bool :=
  let negP2 := p2.neg
  q1.toAffine.toPrepared.bind fun prep1 =>
  q2.toAffine.toPrepared.bind fun prep2 =>
  (millerLoop [(p1.toAffine, prep1), (negP2.toAffine, prep2)]).bind fun f =>
  (finalExponentiation f).map fun g => g.equals FQ12.one

attribute [irreducible] doublingStep additionStep ell finalExponentiation expByX G2Affine.toPrepared millerLoop

end Bls
