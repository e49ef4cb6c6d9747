import Verif.Spec.Curve
import Verif.Spec.Fields
/-
The two curve groups, and the point that Jacobian coordinates denote.
-/
namespace Bls
open WeierstrassCurve

/-- `(x : y : z)` in Jacobian coordinates denotes `P`: infinity when `z = 0`, and otherwise the affine
point `(x/z², y/z³)`. -/
def JPt {F : Type*} [Field F] {b : F} (P : (curve b).Point) (x y z : F) : Prop :=
  (z = 0 ∧ P = 0) ∨ (z ≠ 0 ∧ IsAt P (x / z ^ 2) (y / z ^ 3))

/-- The constant of the second curve: `4(1+u)`. -/
noncomputable def b2 : Fq2 := ⟨4, 4⟩

/-- `E1`: the points of `y² = x³ + 4` over Fq. -/
abbrev E1 := (curve (4 : Fq)).Point
/-- `E2`: the points of `y² = x³ + 4(1+u)` over Fq2. -/
abbrev E2 := (curve b2).Point

/-- `x` is larger than `y` as an integer in [0, q). -/
def Fq.Greater (x y : Fq) : Prop := y.val < x.val
/-- `x` is larger than `y` in the lexicographic order, the coefficient of `u` being most significant. -/
def Fq2.Greater (x y : Fq2) : Prop := y.c1.val < x.c1.val ∨ (y.c1 = x.c1 ∧ y.c0.val < x.c0.val)

theorem b2_eq : b2 = 4 * (1 + Fq2.u) := by
  have h4 : (4 : Fq2) = Fq2.of 4 := by rw [map_ofNat]
  rw [h4]
  ext1 <;> simp [b2, Fq2.u]

end Bls
