import Mathlib.AlgebraicGeometry.EllipticCurve.Affine.Point
import Mathlib.Tactic.LinearCombination
/-
The curves `y² = x³ + b` as Mathlib Weierstrass curves, with Mathlib's group law on their points.
-/
namespace Bls
open WeierstrassCurve

variable {F : Type*} [Field F]

/-- The Weierstrass curve `y² = x³ + b`. -/
def curve (b : F) : WeierstrassCurve.Affine F := ⟨0, 0, 0, 0, b⟩

/-- `P` is the affine point with coordinates `(x, y)`. -/
def IsAt {b : F} (P : (curve b).Point) (x y : F) : Prop := ∃ h, P = .some x y h

/-- What makes `y² = x³ + b` an elliptic curve. -/
class GoodCurve (b : F) : Prop where
  two_ne : (2 : F) ≠ 0
  three_ne : (3 : F) ≠ 0
  b_ne : b ≠ 0

section
variable {b : F}

@[simp] theorem curve_a₁ : (curve b).a₁ = 0 := rfl
@[simp] theorem curve_a₂ : (curve b).a₂ = 0 := rfl
@[simp] theorem curve_a₃ : (curve b).a₃ = 0 := rfl
@[simp] theorem curve_a₄ : (curve b).a₄ = 0 := rfl
@[simp] theorem curve_a₆ : (curve b).a₆ = b := rfl

theorem curve_equation_iff {x y : F} : (curve b).Equation x y ↔ y ^ 2 = x ^ 3 + b := by
  rw [Affine.equation_iff]; simp

theorem curve_negY {x y : F} : (curve b).negY x y = -y := by simp [Affine.negY]

theorem curve_nonsingular [hb : GoodCurve b] {x y : F} (h : y ^ 2 = x ^ 3 + b) :
    (curve b).Nonsingular x y := by
  rw [Affine.nonsingular_iff, curve_equation_iff]
  refine ⟨h, ?_⟩
  simp only [curve_a₁, curve_a₂, curve_a₃, curve_a₄]
  by_contra hc
  push Not at hc
  obtain ⟨h1, h2⟩ := hc
  have hx : x = 0 := by
    have : 3 * x ^ 2 = 0 := by linear_combination -h1
    rcases mul_eq_zero.mp this with h | h
    · exact absurd h hb.three_ne
    · exact pow_eq_zero_iff (two_ne_zero) |>.mp h
  have hy : y = 0 := by
    have : 2 * y = 0 := by linear_combination h2
    rcases mul_eq_zero.mp this with h | h
    · exact absurd h hb.two_ne
    · exact h
  apply hb.b_ne
  rw [hx, hy] at h
  linear_combination -h

/-- The affine point `(x, y)`. -/
def pt [GoodCurve b] (x y : F) (h : y ^ 2 = x ^ 3 + b) : (curve b).Point :=
  .some x y (curve_nonsingular h)

theorem pt_isAt [GoodCurve b] {x y : F} (h : y ^ 2 = x ^ 3 + b) : IsAt (pt x y h) x y :=
  ⟨_, rfl⟩

theorem IsAt.on {P : (curve b).Point} {x y : F} (h : IsAt P x y) : y ^ 2 = x ^ 3 + b := by
  obtain ⟨h, rfl⟩ := h
  exact curve_equation_iff.mp h.1

theorem IsAt.ne_zero {P : (curve b).Point} {x y : F} (h : IsAt P x y) : P ≠ 0 := by
  obtain ⟨h, rfl⟩ := h
  exact Affine.Point.some_ne_zero h

theorem IsAt.inj {P Q : (curve b).Point} {x y : F} (h : IsAt P x y) (h' : IsAt Q x y) : P = Q := by
  obtain ⟨h, rfl⟩ := h
  obtain ⟨h', rfl⟩ := h'
  rfl

theorem IsAt.coord {P : (curve b).Point} {x y x' y' : F} (h : IsAt P x y) (h' : IsAt P x' y') :
    x = x' ∧ y = y' := by
  obtain ⟨h, rfl⟩ := h
  obtain ⟨h', e⟩ := h'
  simpa using e

theorem zero_or_isAt (P : (curve b).Point) : P = 0 ∨ ∃ x y, IsAt P x y := by
  cases P with
  | zero => exact Or.inl rfl
  | some x y h => exact Or.inr ⟨x, y, h, rfl⟩

theorem IsAt.neg {P : (curve b).Point} {x y : F} (h : IsAt P x y) : IsAt (-P) x (-y) := by
  obtain ⟨h, rfl⟩ := h
  rw [Affine.Point.neg_some]
  refine ⟨by rw [← curve_negY (b := b) (x := x)]; exact (Affine.nonsingular_neg ..).mpr h, ?_⟩
  simp

variable [DecidableEq F]

theorem IsAt.add_neg {P Q : (curve b).Point} {x y : F} (h : IsAt P x y) (h' : IsAt Q x (-y)) :
    P + Q = 0 := by
  rw [h'.inj h.neg]; exact add_neg_cancel P

theorem IsAt.add_of_X_ne {P Q : (curve b).Point} {x₁ y₁ x₂ y₂ l x₃ y₃ : F}
    (h₁ : IsAt P x₁ y₁) (h₂ : IsAt Q x₂ y₂) (hx : x₁ ≠ x₂) (hl : l * (x₁ - x₂) = y₁ - y₂)
    (h₃ : x₃ = l ^ 2 - x₁ - x₂) (h₄ : y₃ = l * (x₁ - x₃) - y₁) : IsAt (P + Q) x₃ y₃ := by
  obtain ⟨h₁, rfl⟩ := h₁
  obtain ⟨h₂, rfl⟩ := h₂
  rw [Affine.Point.add_of_X_ne hx]
  have hs : (curve b).slope x₁ x₂ y₁ y₂ = l := by
    rw [Affine.slope_of_X_ne hx, div_eq_iff (sub_ne_zero.mpr hx), hl]
  have e1 : (curve b).addX x₁ x₂ ((curve b).slope x₁ x₂ y₁ y₂) = x₃ := by
    rw [hs, Affine.addX, h₃]; simp
  have e2 : (curve b).addY x₁ x₂ y₁ ((curve b).slope x₁ x₂ y₁ y₂) = y₃ := by
    rw [Affine.addY, Affine.negAddY, curve_negY, e1, hs, h₄]; ring
  rw [← e1, ← e2]
  exact ⟨_, rfl⟩

theorem IsAt.add_self {P Q : (curve b).Point} {x y l x₃ y₃ : F}
    (h₁ : IsAt P x y) (h₂ : IsAt Q x y) (hy : 2 * y ≠ 0) (hl : l * (2 * y) = 3 * x ^ 2)
    (h₃ : x₃ = l ^ 2 - x - x) (h₄ : y₃ = l * (x - x₃) - y) : IsAt (P + Q) x₃ y₃ := by
  rw [h₂.inj h₁]
  obtain ⟨h₁, rfl⟩ := h₁
  have hy' : y ≠ (curve b).negY x y := by
    rw [curve_negY]; intro h; apply hy; linear_combination h
  rw [Affine.Point.add_self_of_Y_ne hy']
  have hs : (curve b).slope x x y y = l := by
    rw [Affine.slope_of_Y_ne rfl hy', curve_negY, sub_neg_eq_add, ← two_mul, div_eq_iff hy]
    simp only [curve_a₁, curve_a₂, curve_a₄]
    linear_combination -hl
  have e1 : (curve b).addX x x ((curve b).slope x x y y) = x₃ := by
    rw [hs, Affine.addX, h₃]; simp
  have e2 : (curve b).addY x x y ((curve b).slope x x y y) = y₃ := by
    rw [Affine.addY, Affine.negAddY, curve_negY, e1, hs, h₄]; ring
  rw [← e1, ← e2]
  exact ⟨_, rfl⟩

end
end Bls
