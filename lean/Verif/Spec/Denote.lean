import Verif.Model.FQ12
import Verif.Model.G2
import Verif.Spec.Limbs
import Verif.Spec.Points
/-
What the library's values denote, as an observer of the API sees it. Integers are what `ToRepr`
returns; tower elements and points are given by the integers their coordinates denote. The fields are
in Verif/Spec/Fields.lean, the curve groups in Verif/Spec/Points.lean, `q` and `r` in
Verif/Spec/Params.lean.
-/
namespace Bls

/-- The integer denoted by a base-field element: what `ToRepr` returns, read as a number. -/
def FQ.int (a : FQ) : ℕ := a.toRepr.toNat

/-- The integer denoted by a scalar: what `ToRepr` returns, read as a number. -/
def FR.int (a : FR) : ℕ := a.toRepr.toNat

/-- The field element denoted by an FQ2. -/
noncomputable def FQ2.fld (a : FQ2) : Fq2 := ⟨(a.c0.int : Fq), (a.c1.int : Fq)⟩
/-- Both coordinates are canonical. -/
def FQ2.isValid (a : FQ2) : Bool := a.c0.isValid && a.c1.isValid

/-- The field element denoted by an FQ6. -/
noncomputable def FQ6.fld (a : FQ6) : Fq6 := ⟨a.c0.fld, a.c1.fld, a.c2.fld⟩
/-- All coordinates are canonical. -/
def FQ6.isValid (a : FQ6) : Bool := a.c0.isValid && a.c1.isValid && a.c2.isValid

/-- The field element denoted by an FQ12. -/
noncomputable def FQ12.fld (a : FQ12) : Fq12 := ⟨a.c0.fld, a.c1.fld⟩
/-- All coordinates are canonical. -/
def FQ12.isValid (a : FQ12) : Bool := a.c0.isValid && a.c1.isValid

/-- The coordinates `(x, y, z)` are canonical and denote `P` in Jacobian coordinates. -/
def G1Projective.Denotes (g : G1Projective) (P : E1) : Prop :=
  g.x.isValid ∧ g.y.isValid ∧ g.z.isValid ∧ JPt P (g.x.int : Fq) (g.y.int : Fq) (g.z.int : Fq)

/-- The affine value is `G1AffineZero` and `P` is infinity, or its coordinates are canonical and are
those of `P`. -/
def G1Affine.Denotes (a : G1Affine) (P : E1) : Prop :=
  (a = G1Affine.zero ∧ P = 0) ∨
  (a.infinity = false ∧ a.x.isValid ∧ a.y.isValid ∧ IsAt P (a.x.int : Fq) (a.y.int : Fq))

/-- The coordinates `(x, y, z)` are canonical and denote `P` in Jacobian coordinates. -/
def G2Projective.Denotes (g : G2Projective) (P : E2) : Prop :=
  g.x.isValid ∧ g.y.isValid ∧ g.z.isValid ∧ JPt P g.x.fld g.y.fld g.z.fld

/-- The affine value is `G2AffineZero` and `P` is infinity, or its coordinates are canonical and are
those of `P`. -/
def G2Affine.Denotes (a : G2Affine) (P : E2) : Prop :=
  (a = G2Affine.zero ∧ P = 0) ∨
  (a.infinity = false ∧ a.x.isValid ∧ a.y.isValid ∧ IsAt P a.x.fld a.y.fld)

end Bls
