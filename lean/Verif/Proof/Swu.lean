import Mathlib.NumberTheory.LegendreSymbol.QuadraticChar.Basic
import Mathlib.Tactic.FieldSimp
import Verif.Spec.Hash
import Verif.Proof.FQ2
/-
The simplified SWU map and the chord rule on `y² = x³ + Ax + B`, over any field.
-/
namespace Bls
open WeierstrassCurve

section
variable {F : Type*} [Field F] {A B ξ t : F}

theorem swu_common (s : F) (hA : A ≠ 0) (hs : s ^ 2 + s ≠ 0) :
    weier A B (s * (-B / A * (1 + 1 / (s ^ 2 + s)))) = s ^ 3 * weier A B (-B / A * (1 + 1 / (s ^ 2 + s))) := by
  generalize hx : -B / A * (1 + 1 / (s ^ 2 + s)) = x
  have h0 : s ≠ 0 := by rintro rfl; simp at hs
  have h1 : s + 1 ≠ 0 := by intro e; exact hs (by linear_combination s * e)
  have h : A * (s ^ 2 + s) * x = -B * (s ^ 2 + s + 1) := by rw [← hx]; field_simp
  unfold weier
  have : (A * x * (s ^ 3 - s) + B * (s ^ 3 - 1)) = 0 := by
    linear_combination (s - 1) * h
  linear_combination -this

theorem swuX0_eq {N : F} (hA : A ≠ 0) (hN : N ≠ 0) : -B / A * (1 + 1 / N) = -B * (N + 1) / (A * N) := by
  field_simp

theorem swu_x1 (hA : A ≠ 0) (hN : ξ ^ 2 * t ^ 4 + ξ * t ^ 2 ≠ 0) :
    weier A B (ξ * t ^ 2 * swuX0 A B ξ t) = ξ ^ 3 * t ^ 6 * weier A B (swuX0 A B ξ t) := by
  have e : ξ ^ 2 * t ^ 4 + ξ * t ^ 2 = (ξ * t ^ 2) ^ 2 + ξ * t ^ 2 := by ring
  have := swu_common (B := B) (ξ * t ^ 2) hA (e ▸ hN)
  rw [swuX0, if_neg hN, e, this]; ring

/-- When the first candidate is not on the curve the second one is. -/
theorem swu_second (hA : A ≠ 0) (mul : ∀ a b : F, ¬ IsSquare a → ¬ IsSquare b → IsSquare (a * b))
    (hξ : ¬ IsSquare ξ) (he : IsSquare (weier A B (B / (ξ * A))))
    (h0 : ¬ IsSquare (weier A B (swuX0 A B ξ t))) :
    IsSquare (weier A B (ξ * t ^ 2 * swuX0 A B ξ t)) ∧ t ≠ 0 := by
  have hN : ξ ^ 2 * t ^ 4 + ξ * t ^ 2 ≠ 0 := by
    intro e; rw [swuX0, if_pos e] at h0; exact h0 he
  refine ⟨?_, by rintro rfl; simp at hN⟩
  rw [swu_x1 hA hN]
  obtain ⟨s, hs⟩ := mul _ _ hξ h0
  exact ⟨ξ * t ^ 3 * s, by linear_combination ξ ^ 2 * t ^ 6 * hs⟩

theorem swuX_isSquare (hA : A ≠ 0) (mul : ∀ a b : F, ¬ IsSquare a → ¬ IsSquare b → IsSquare (a * b))
    (hξ : ¬ IsSquare ξ) (he : IsSquare (weier A B (B / (ξ * A)))) :
    IsSquare (weier A B (swuX A B ξ t)) := by
  unfold swuX
  split_ifs with h
  · exact h
  · exact (swu_second hA mul hξ he h).1

@[simp] theorem swCurve_a₁ : (swCurve A B).a₁ = 0 := rfl
@[simp] theorem swCurve_a₂ : (swCurve A B).a₂ = 0 := rfl
@[simp] theorem swCurve_a₃ : (swCurve A B).a₃ = 0 := rfl
@[simp] theorem swCurve_a₄ : (swCurve A B).a₄ = A := rfl
@[simp] theorem swCurve_a₆ : (swCurve A B).a₆ = B := rfl

theorem swCurve_equation_iff {x y : F} : (swCurve A B).Equation x y ↔ y ^ 2 = weier A B x := by
  rw [Affine.equation_iff]; simp [weier]

theorem swCurve_negY {x y : F} : (swCurve A B).negY x y = -y := by simp [Affine.negY]

theorem swCurve_nonsingular (h2 : (2 : F) ≠ 0) (hd : 4 * A ^ 3 + 27 * B ^ 2 ≠ 0) {x y : F}
    (h : y ^ 2 = weier A B x) : (swCurve A B).Nonsingular x y := by
  refine ((swCurve A B).equation_iff_nonsingular_of_Δ_ne_zero ?_).mp (swCurve_equation_iff.mpr h)
  have : (swCurve A B).Δ = -(2 ^ 4) * (4 * A ^ 3 + 27 * B ^ 2) := by
    simp only [WeierstrassCurve.Δ, WeierstrassCurve.b₂, WeierstrassCurve.b₄, WeierstrassCurve.b₆,
      WeierstrassCurve.b₈, swCurve_a₁, swCurve_a₂, swCurve_a₃, swCurve_a₄, swCurve_a₆]
    ring
  rw [this]
  exact mul_ne_zero (neg_ne_zero.mpr (pow_ne_zero _ h2)) hd

theorem SwAt.on {P : (swCurve A B).Point} {x y : F} (h : SwAt P x y) : y ^ 2 = weier A B x := by
  obtain ⟨h, rfl⟩ := h
  exact swCurve_equation_iff.mp h.1

theorem SwAt.inj {P Q : (swCurve A B).Point} {x y : F} (h : SwAt P x y) (h' : SwAt Q x y) : P = Q := by
  obtain ⟨h, rfl⟩ := h
  obtain ⟨h', rfl⟩ := h'
  rfl

theorem SwAt.coord {P : (swCurve A B).Point} {x y x' y' : F} (h : SwAt P x y) (h' : SwAt P x' y') :
    x = x' ∧ y = y' := by
  obtain ⟨h, rfl⟩ := h
  obtain ⟨h', e⟩ := h'
  simpa using e

theorem SwAt.neg {P : (swCurve A B).Point} {x y : F} (h : SwAt P x y) : SwAt (-P) x (-y) := by
  obtain ⟨h, rfl⟩ := h
  rw [Affine.Point.neg_some]
  refine ⟨by rw [← swCurve_negY (A := A) (B := B) (x := x)]; exact (Affine.nonsingular_neg ..).mpr h, ?_⟩
  simp

theorem SwAt.ne {P Q : (swCurve A B).Point} {x₁ y₁ x₂ y₂ : F} (h₁ : SwAt P x₁ y₁) (h₂ : SwAt Q x₂ y₂)
    (h : P ≠ Q) (h' : P ≠ -Q) : x₁ ≠ x₂ := by
  rintro rfl
  have e : (y₁ - y₂) * (y₁ + y₂) = 0 := by linear_combination h₁.on - h₂.on
  rcases mul_eq_zero.mp e with e | e
  · rw [sub_eq_zero.mp e] at h₁; exact h (h₁.inj h₂)
  · rw [eq_neg_of_add_eq_zero_left e] at h₁; exact h' (h₁.inj h₂.neg)

theorem SwAt.add_of_X_ne [DecidableEq F] {P Q : (swCurve A B).Point} {x₁ y₁ x₂ y₂ l x₃ y₃ : F}
    (h₁ : SwAt P x₁ y₁) (h₂ : SwAt Q x₂ y₂) (hx : x₁ ≠ x₂) (hl : l * (x₁ - x₂) = y₁ - y₂)
    (h₃ : x₃ = l ^ 2 - x₁ - x₂) (h₄ : y₃ = l * (x₁ - x₃) - y₁) : SwAt (P + Q) x₃ y₃ := by
  obtain ⟨h₁, rfl⟩ := h₁
  obtain ⟨h₂, rfl⟩ := h₂
  rw [Affine.Point.add_of_X_ne hx]
  have hs : (swCurve A B).slope x₁ x₂ y₁ y₂ = l := by
    rw [Affine.slope_of_X_ne hx, div_eq_iff (sub_ne_zero.mpr hx), hl]
  have e1 : (swCurve A B).addX x₁ x₂ ((swCurve A B).slope x₁ x₂ y₁ y₂) = x₃ := by
    rw [hs, Affine.addX, h₃]; simp
  have e2 : (swCurve A B).addY x₁ x₂ y₁ ((swCurve A B).slope x₁ x₂ y₁ y₂) = y₃ := by
    rw [Affine.addY, Affine.negAddY, swCurve_negY, e1, hs, h₄]; ring
  rw [← e1, ← e2]
  exact ⟨_, rfl⟩

/-- The mixed-addition formulas on two affine points give the chord. -/
theorem SwAt.mixed [DecidableEq F] {P Q : (swCurve A B).Point} {x₁ y₁ x₂ y₂ X Y Z : F} (h2 : (2 : F) ≠ 0)
    (h₁ : SwAt P x₁ y₁) (h₂ : SwAt Q x₂ y₂) (hx : x₁ ≠ x₂)
    (hX : X = 4 * (y₂ - y₁) ^ 2 - 4 * (x₂ - x₁) ^ 3 - 8 * x₁ * (x₂ - x₁) ^ 2)
    (hY : Y = 2 * (y₂ - y₁) * (4 * x₁ * (x₂ - x₁) ^ 2 - X) - 8 * y₁ * (x₂ - x₁) ^ 3)
    (hZ : Z = 2 * (x₂ - x₁)) :
    Z ≠ 0 ∧ SwAt (P + Q) (X * (Z⁻¹ * Z⁻¹)) (Y * (Z⁻¹ * Z⁻¹) * Z⁻¹) := by
  have hd : x₂ - x₁ ≠ 0 := sub_ne_zero.mpr (Ne.symm hx)
  have hz : Z ≠ 0 := by rw [hZ]; exact mul_ne_zero h2 hd
  refine ⟨hz, ?_⟩
  have hd' : x₁ - x₂ ≠ 0 := sub_ne_zero.mpr hx
  refine SwAt.add_of_X_ne (l := (y₂ - y₁) / (x₂ - x₁)) h₁ h₂ hx ?_ ?_ ?_
  · field_simp; ring
  · rw [hX, hZ]; field_simp; ring
  · rw [hY, hX, hZ]; field_simp; ring

theorem polyAt_nil (x : F) : polyAt [] x = 0 := rfl
theorem polyAt_cons (c : F) (l : List F) (x : F) : polyAt (c :: l) x = c + x * polyAt l x := rfl

end

theorem Fq.nonsquare_mul (a b : Fq) (ha : ¬ IsSquare a) (hb : ¬ IsSquare b) : IsSquare (a * b) := by
  have h := map_mul (quadraticChar Fq) a b
  rw [quadraticChar_neg_one_iff_not_isSquare.mpr ha, quadraticChar_neg_one_iff_not_isSquare.mpr hb] at h
  have h0 : a * b ≠ 0 := by
    intro e; rw [e, MulChar.map_zero] at h; norm_num at h
  exact (quadraticChar_one_iff_isSquare h0).mp (by rw [h]; norm_num)

theorem Fq2.nonsquare_mul (a b : Fq2) (ha : ¬ IsSquare a) (hb : ¬ IsSquare b) : IsSquare (a * b) := by
  rw [Fq2.isSquare_iff] at *
  rw [Fq2.nrm_mul]
  exact Fq.nonsquare_mul _ _ ha hb

end Bls
