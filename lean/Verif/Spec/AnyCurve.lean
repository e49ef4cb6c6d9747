import Verif.Spec.Denote
/-
Points of any curve `y² = x³ + c`, held in the structures the library has for G1 and G2.
-/
namespace Bls

/-- The coordinates are canonical and, unless `z` is 0, they are Jacobian coordinates of a pair with `y² = x³ + c`. -/
def G1Projective.OnCurve (c : Fq) (g : G1Projective) : Prop :=
  g.x.isValid ∧ g.y.isValid ∧ g.z.isValid ∧ ((g.z.int : Fq) = 0 ∨ (g.y.int : Fq) ^ 2 = (g.x.int : Fq) ^ 3 + c * (g.z.int : Fq) ^ 6)

/-- The value is `G1AffineZero`, or it is finite with canonical coordinates and `y² = x³ + c`. -/
def G1Affine.OnCurve (c : Fq) (a : G1Affine) : Prop :=
  a = G1Affine.zero ∨ (a.infinity = false ∧ a.x.isValid ∧ a.y.isValid ∧ (a.y.int : Fq) ^ 2 = (a.x.int : Fq) ^ 3 + c)

/-- The coordinates are canonical and denote the point `P` of `y² = x³ + c` in Jacobian coordinates. -/
def G1Projective.DenotesOn {c : Fq} (g : G1Projective) (P : (curve c).Point) : Prop :=
  g.x.isValid ∧ g.y.isValid ∧ g.z.isValid ∧ JPt P (g.x.int : Fq) (g.y.int : Fq) (g.z.int : Fq)

/-- The value is `G1AffineZero` and `P` is infinity, or its coordinates are canonical and are those of the point `P` of
`y² = x³ + c`. -/
def G1Affine.DenotesOn {c : Fq} (a : G1Affine) (P : (curve c).Point) : Prop :=
  (a = G1Affine.zero ∧ P = 0) ∨
  (a.infinity = false ∧ a.x.isValid ∧ a.y.isValid ∧ IsAt P (a.x.int : Fq) (a.y.int : Fq))

/-- The coordinates are canonical and, unless `z` is 0, they are Jacobian coordinates of a pair with `y² = x³ + c`. -/
def G2Projective.OnCurve (c : Fq2) (g : G2Projective) : Prop :=
  g.x.isValid ∧ g.y.isValid ∧ g.z.isValid ∧ (g.z.fld = 0 ∨ g.y.fld ^ 2 = g.x.fld ^ 3 + c * g.z.fld ^ 6)

/-- The value is `G2AffineZero`, or it is finite with canonical coordinates and `y² = x³ + c`. -/
def G2Affine.OnCurve (c : Fq2) (a : G2Affine) : Prop :=
  a = G2Affine.zero ∨ (a.infinity = false ∧ a.x.isValid ∧ a.y.isValid ∧ a.y.fld ^ 2 = a.x.fld ^ 3 + c)

/-- The coordinates are canonical and denote the point `P` of `y² = x³ + c` in Jacobian coordinates. -/
def G2Projective.DenotesOn {c : Fq2} (g : G2Projective) (P : (curve c).Point) : Prop :=
  g.x.isValid ∧ g.y.isValid ∧ g.z.isValid ∧ JPt P g.x.fld g.y.fld g.z.fld

/-- The value is `G2AffineZero` and `P` is infinity, or its coordinates are canonical and are those of the point `P` of
`y² = x³ + c`. -/
def G2Affine.DenotesOn {c : Fq2} (a : G2Affine) (P : (curve c).Point) : Prop :=
  (a = G2Affine.zero ∧ P = 0) ∨
  (a.infinity = false ∧ a.x.isValid ∧ a.y.isValid ∧ IsAt P a.x.fld a.y.fld)

/-- Everything the point operations compute from the affine values in `S`. -/
inductive G1Made (S : G1Affine → Prop) : G1Projective → Prop
  | zero : G1Made S G1Projective.zero
  | toProjective (a : G1Affine) : S a → G1Made S a.toProjective
  | negAssign (a : G1Affine) : S a → G1Made S a.neg.toProjective
  | affine (g : G1Projective) : G1Made S g → G1Made S g.toAffine.toProjective
  | negAffine (g : G1Projective) : G1Made S g → G1Made S g.toAffine.neg.toProjective
  | neg (g : G1Projective) : G1Made S g → G1Made S g.neg
  | double (g : G1Projective) : G1Made S g → G1Made S g.double
  | add (g k : G1Projective) : G1Made S g → G1Made S k → G1Made S (g.add k)
  | addAffine (g : G1Projective) (a : G1Affine) : G1Made S g → S a → G1Made S (g.addAffine a)
  | addToAffine (g k : G1Projective) : G1Made S g → G1Made S k → G1Made S (g.addAffine k.toAffine)
  | mul (g : G1Projective) (n : FQRepr) : G1Made S g → G1Made S (g.mul n)
  | mulFR (g : G1Projective) (n : FRRepr) : G1Made S g → G1Made S (g.mulFR n)
  | mulAffine (a : G1Affine) (n : FQRepr) : S a → G1Made S (a.mul n)
  | mulFRAffine (a : G1Affine) (n : FRRepr) : S a → G1Made S (a.mulFR n)

/-- Everything the point operations compute from the affine values in `S`. -/
inductive G2Made (S : G2Affine → Prop) : G2Projective → Prop
  | zero : G2Made S G2Projective.zero
  | toProjective (a : G2Affine) : S a → G2Made S a.toProjective
  | negAssign (a : G2Affine) : S a → G2Made S a.neg.toProjective
  | affine (g : G2Projective) : G2Made S g → G2Made S g.toAffine.toProjective
  | negAffine (g : G2Projective) : G2Made S g → G2Made S g.toAffine.neg.toProjective
  | double (g : G2Projective) : G2Made S g → G2Made S g.double
  | add (g k : G2Projective) : G2Made S g → G2Made S k → G2Made S (g.add k)
  | addAffine (g : G2Projective) (a : G2Affine) : G2Made S g → S a → G2Made S (g.addAffine a)
  | addToAffine (g k : G2Projective) : G2Made S g → G2Made S k → G2Made S (g.addAffine k.toAffine)
  | mul (g : G2Projective) (n : FQRepr) : G2Made S g → G2Made S (g.mul n)
  | mulFR (g : G2Projective) (n : FRRepr) : G2Made S g → G2Made S (g.mulFR n)
  | mulAffine (a : G2Affine) (n : FQRepr) : S a → G2Made S (a.mul n)
  | mulFRAffine (a : G2Affine) (n : FRRepr) : S a → G2Made S (a.mulFR n)
  | mulBig (a : G2Affine) (n : ℕ) : S a → G2Made S (a.mulBig n)

end Bls
