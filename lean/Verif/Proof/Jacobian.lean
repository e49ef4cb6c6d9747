import Verif.Spec.Points
/-
The Jacobian doubling and addition formulas on `y² = x³ + b`, over any field.
-/
namespace Bls
open WeierstrassCurve

variable {F : Type*} [Field F] {b : F} {P Q : (curve b).Point} {x y z x₁ y₁ z₁ x₂ y₂ z₂ X Y Z : F}

theorem JPt.zero_iff (h : JPt P x y z) : z = 0 ↔ P = 0 := by
  rcases h with ⟨h1, h2⟩ | ⟨h1, h2⟩
  · exact iff_of_true h1 h2
  · exact iff_of_false h1 h2.ne_zero

theorem JPt.isAt (h : JPt P x y z) (hz : z ≠ 0) : IsAt P (x / z ^ 2) (y / z ^ 3) := by
  rcases h with ⟨h1, h2⟩ | ⟨h1, h2⟩
  · exact absurd h1 hz
  · exact h2

theorem JPt.ofZero : JPt (0 : (curve b).Point) x y 0 := Or.inl ⟨rfl, rfl⟩

theorem JPt.ofAffine (h : IsAt P x y) : JPt P x y 1 := by
  refine Or.inr ⟨one_ne_zero, ?_⟩
  rw [one_pow, one_pow, div_one, div_one]; exact h

theorem JPt.neg (h : JPt P x y z) : JPt (-P) x (-y) z := by
  rcases h with ⟨h1, h2⟩ | ⟨h1, h2⟩
  · exact Or.inl ⟨h1, by rw [h2, Affine.Point.neg_zero]⟩
  · refine Or.inr ⟨h1, ?_⟩
    rw [neg_div]; exact h2.neg

theorem JPt.eq_iff (h₁ : JPt P x₁ y₁ z₁) (h₂ : JPt Q x₂ y₂ z₂) (hz₁ : z₁ ≠ 0) (hz₂ : z₂ ≠ 0) :
    P = Q ↔ x₁ * z₂ ^ 2 = x₂ * z₁ ^ 2 ∧ y₁ * z₂ ^ 3 = y₂ * z₁ ^ 3 := by
  have p := h₁.isAt hz₁
  have q := h₂.isAt hz₂
  have e1 : x₁ / z₁ ^ 2 = x₂ / z₂ ^ 2 ↔ x₁ * z₂ ^ 2 = x₂ * z₁ ^ 2 :=
    div_eq_div_iff (pow_ne_zero _ hz₁) (pow_ne_zero _ hz₂)
  have e2 : y₁ / z₁ ^ 3 = y₂ / z₂ ^ 3 ↔ y₁ * z₂ ^ 3 = y₂ * z₁ ^ 3 :=
    div_eq_div_iff (pow_ne_zero _ hz₁) (pow_ne_zero _ hz₂)
  rw [← e1, ← e2]
  constructor
  · rintro rfl
    exact p.coord q
  · rintro ⟨h1, h2⟩
    rw [h1, h2] at p
    exact p.inj q

variable [DecidableEq F]

theorem JPt.double [hb : GoodCurve b] (h : JPt P x y z) (hz : z ≠ 0)
    (hX : X = 9 * x ^ 4 - 8 * (x * y ^ 2)) (hY : Y = 3 * x ^ 2 * (4 * (x * y ^ 2) - X) - 8 * y ^ 4)
    (hZ : Z = 2 * (y * z)) : JPt (P + P) X Y Z := by
  have p := h.isAt hz
  by_cases hy : y = 0
  · refine Or.inl ⟨by rw [hZ, hy]; ring, ?_⟩
    refine p.add_neg ?_
    rw [hy, zero_div, neg_zero]
    rw [hy, zero_div] at p
    exact p
  have h2 := hb.two_ne
  have hZ0 : Z ≠ 0 := by rw [hZ]; exact mul_ne_zero h2 (mul_ne_zero hy hz)
  refine Or.inr ⟨hZ0, ?_⟩
  refine p.add_self (l := 3 * x ^ 2 / (2 * (y * z))) p ?_ ?_ ?_ ?_
  · exact mul_ne_zero h2 (div_ne_zero hy (pow_ne_zero _ hz))
  · field_simp
  · rw [hX, hZ]; field_simp; ring
  · rw [hY, hX, hZ]; field_simp; ring

theorem JPt.add [hb : GoodCurve b] (h₁ : JPt P x₁ y₁ z₁) (h₂ : JPt Q x₂ y₂ z₂) (hz₁ : z₁ ≠ 0) (hz₂ : z₂ ≠ 0)
    (hne : ¬ (x₁ * z₂ ^ 2 = x₂ * z₁ ^ 2 ∧ y₁ * z₂ ^ 3 = y₂ * z₁ ^ 3)) {H R : F}
    (hH : H = x₂ * z₁ ^ 2 - x₁ * z₂ ^ 2) (hR : R = y₂ * z₁ ^ 3 - y₁ * z₂ ^ 3)
    (hX : X = 4 * R ^ 2 - 4 * H ^ 3 - 8 * (x₁ * z₂ ^ 2 * H ^ 2))
    (hY : Y = 2 * R * (4 * (x₁ * z₂ ^ 2 * H ^ 2) - X) - 8 * (y₁ * z₂ ^ 3 * H ^ 3))
    (hZ : Z = 2 * (z₁ * z₂ * H)) : JPt (P + Q) X Y Z := by
  have p := h₁.isAt hz₁
  have q := h₂.isAt hz₂
  have h2 := hb.two_ne
  by_cases h0 : H = 0
  · refine Or.inl ⟨by rw [hZ, h0]; ring, ?_⟩
    have ex : x₁ * z₂ ^ 2 = x₂ * z₁ ^ 2 := by linear_combination hH - h0
    have ex' : x₁ / z₁ ^ 2 = x₂ / z₂ ^ 2 := (div_eq_div_iff (pow_ne_zero _ hz₁) (pow_ne_zero _ hz₂)).mpr ex
    have o1 := p.on
    have o2 := q.on
    rw [ex'] at o1
    have ee : (y₁ / z₁ ^ 3 - y₂ / z₂ ^ 3) * (y₁ / z₁ ^ 3 + y₂ / z₂ ^ 3) = 0 := by linear_combination o1 - o2
    rcases mul_eq_zero.mp ee with e | e
    · exfalso
      refine hne ⟨ex, ?_⟩
      exact (div_eq_div_iff (pow_ne_zero _ hz₁) (pow_ne_zero _ hz₂)).mp (sub_eq_zero.mp e)
    · rw [ex', eq_neg_of_add_eq_zero_left e] at p
      rw [add_comm]
      exact q.add_neg p
  have hZ0 : Z ≠ 0 := by rw [hZ]; exact mul_ne_zero h2 (mul_ne_zero (mul_ne_zero hz₁ hz₂) h0)
  refine Or.inr ⟨hZ0, ?_⟩
  refine p.add_of_X_ne (l := R / (z₁ * z₂ * H)) q ?_ ?_ ?_ ?_
  · intro e
    have := (div_eq_div_iff (pow_ne_zero _ hz₁) (pow_ne_zero _ hz₂)).mp e
    exact h0 (by rw [hH, this, sub_self])
  · field_simp
    rw [hH, hR]; ring
  · rw [hX, hZ]; field_simp
    rw [hH]; ring
  · rw [hY, hX, hZ]; field_simp
    rw [hH]; ring

end Bls
