import Verif.Spec.Curve
/-
Lines through points of a Weierstrass curve form a 2-cocycle, up to vertical lines and constants. The
proof is by ideals of the coordinate ring.
-/
namespace Bls.Line
open WeierstrassCurve WeierstrassCurve.Affine Polynomial Ideal
open scoped Polynomial.Bivariate

variable {F : Type*} [Field F] {W : Affine F}

/-- The vertical line through a point; 1 at infinity. -/
noncomputable def vf : W.Point → W.CoordinateRing
  | .zero => 1
  | .some x _ _ => CoordinateRing.XClass W x

/-- The ideal of functions vanishing at a point. -/
noncomputable def idl : W.Point → Ideal W.CoordinateRing
  | .zero => ⊤
  | .some x y _ => CoordinateRing.XYIdeal W x (C y)

theorem vf_zero : vf (0 : W.Point) = 1 := rfl
theorem idl_zero : idl (0 : W.Point) = ⊤ := rfl

theorem vf_ne_zero (P : W.Point) : vf P ≠ 0 := by
  cases P with
  | zero => exact one_ne_zero
  | some x y h => exact CoordinateRing.XClass_ne_zero x

theorem idl_neg (P : W.Point) : idl (-P) * idl P = span {vf P} := by
  cases P with
  | zero => exact (Ideal.mul_top _).trans (Ideal.span_singleton_one).symm
  | some x y h => exact CoordinateRing.XYIdeal_neg_mul h

variable [DecidableEq F]

/-- The line through two points: the tangent if they agree, vertical if they are opposite or one of
them is at infinity. -/
noncomputable def lf : W.Point → W.Point → W.CoordinateRing
  | .zero, Q => vf Q
  | .some x y h, .zero => vf (.some x y h)
  | .some x₁ y₁ _, .some x₂ y₂ _ =>
    if x₁ = x₂ ∧ y₁ = W.negY x₂ y₂ then CoordinateRing.XClass W x₁
    else CoordinateRing.YClass W (linePolynomial x₁ y₁ (W.slope x₁ x₂ y₁ y₂))

theorem lf_zero_left (Q : W.Point) : lf 0 Q = vf Q := rfl
theorem lf_zero_right (P : W.Point) : lf P 0 = vf P := by cases P <;> rfl

theorem lf_vert {x y x' y' : F} {h : W.Nonsingular x y} {h' : W.Nonsingular x' y'}
    (hxy : x = x' ∧ y = W.negY x' y') :
    lf (.some x y h) (.some x' y' h') = CoordinateRing.XClass W x := if_pos hxy

theorem lf_line {x y x' y' : F} {h : W.Nonsingular x y} {h' : W.Nonsingular x' y'}
    (hxy : ¬(x = x' ∧ y = W.negY x' y')) :
    lf (.some x y h) (.some x' y' h') =
      CoordinateRing.YClass W (linePolynomial x y (W.slope x x' y y')) := if_neg hxy

theorem lf_ne_zero (P Q : W.Point) : lf P Q ≠ 0 := by
  by_cases hP : P = 0
  · rw [hP, lf_zero_left]; exact vf_ne_zero Q
  by_cases hQ : Q = 0
  · rw [hQ, lf_zero_right]; exact vf_ne_zero P
  cases P with
  | zero => exact absurd rfl hP
  | some x y h =>
    cases Q with
    | zero => exact absurd rfl hQ
    | some x' y' h' =>
      by_cases hxy : x = x' ∧ y = W.negY x' y'
      · rw [lf_vert hxy]; exact CoordinateRing.XClass_ne_zero x
      · rw [lf_line hxy]; exact CoordinateRing.YClass_ne_zero _

theorem idl_add (P Q : W.Point) :
    span {vf (P + Q)} * (idl P * idl Q) = span {lf P Q} * idl (P + Q) := by
  by_cases hP : P = 0
  · rw [hP, zero_add, idl_zero, lf_zero_left, Ideal.top_mul]
  by_cases hQ : Q = 0
  · rw [hQ, add_zero, idl_zero, lf_zero_right, Ideal.mul_top]
  cases P with
  | zero => exact absurd rfl hP
  | some x y h =>
    cases Q with
    | zero => exact absurd rfl hQ
    | some x' y' h' =>
      by_cases hxy : x = x' ∧ y = W.negY x' y'
      · rw [Point.add_of_Y_eq hxy.1 hxy.2, lf_vert hxy, vf_zero, idl_zero, Ideal.mul_top,
          Ideal.span_singleton_one, Ideal.top_mul]
        obtain ⟨rfl, rfl⟩ := hxy
        exact CoordinateRing.XYIdeal_neg_mul h'
      · rw [Point.add_some hxy, lf_line hxy]
        exact CoordinateRing.XYIdeal_mul_XYIdeal h.1 h'.1 hxy

theorem cocycle_ideal (A B C : W.Point) :
    span {vf (B + C) * lf A B * lf (A + B) C} * idl (A + B + C) =
      span {vf (A + B) * lf B C * lf A (B + C)} * idl (A + B + C) := by
  have h1 := idl_add A B
  have h2 := idl_add (A + B) C
  have h3 := idl_add B C
  have h4 := idl_add A (B + C)
  rw [← add_assoc] at h4
  simp only [← Ideal.span_singleton_mul_span_singleton]
  calc span {vf (B + C)} * span {lf A B} * span {lf (A + B) C} * idl (A + B + C)
      = span {vf (B + C)} * span {lf A B} * (span {lf (A + B) C} * idl (A + B + C)) := by ring
    _ = span {vf (B + C)} * span {vf (A + B + C)} * idl C * (span {lf A B} * idl (A + B)) := by rw [← h2]; ring
    _ = span {vf (A + B)} * span {vf (A + B + C)} * idl A * (span {vf (B + C)} * (idl B * idl C)) := by rw [← h1]; ring
    _ = span {vf (A + B)} * span {lf B C} * (span {vf (A + B + C)} * (idl A * idl (B + C))) := by rw [h3]; ring
    _ = _ := by rw [h4]; ring

theorem cocycle_assoc (A B C : W.Point) :
    Associated (vf (B + C) * lf A B * lf (A + B) C) (vf (A + B) * lf B C * lf A (B + C)) := by
  rw [← Ideal.span_singleton_eq_span_singleton]
  have h := cocycle_ideal A B C
  have h' := congrArg (· * idl (-(A + B + C))) h
  simp only [mul_assoc _ (idl (A + B + C)), mul_comm (idl (A + B + C)), idl_neg,
    Ideal.span_singleton_mul_span_singleton] at h'
  rw [Ideal.span_singleton_eq_span_singleton] at h' ⊢
  exact Associated.of_mul_right h' (Associated.refl _) (vf_ne_zero _)

omit [DecidableEq F] in
theorem unit_const {e : W.CoordinateRing} (he : IsUnit e) :
    ∃ a : F, a ≠ 0 ∧ e = CoordinateRing.mk W (C (C a)) := by
  obtain ⟨p, q, rfl⟩ := CoordinateRing.exists_smul_basis_eq e
  have hn := (he.map (Algebra.norm F[X]))
  have hd := Polynomial.degree_eq_zero_of_isUnit hn
  rw [CoordinateRing.degree_norm_smul_basis] at hd
  have hq : q = 0 := by
    by_contra hq
    have : (2 • q.degree + 3) ≤ 0 := hd ▸ le_max_right _ _
    rw [Polynomial.degree_eq_natDegree hq] at this
    have h' : ((q.natDegree + q.natDegree + 3 : ℕ) : WithBot ℕ) ≤ ((0 : ℕ) : WithBot ℕ) := by
      rw [two_nsmul] at this; exact_mod_cast this
    have := Nat.cast_withBot _ ▸ Nat.cast_withBot _ ▸ h'
    have := WithBot.coe_le_coe.mp this
    omega
  rw [hq, Polynomial.degree_zero] at hd
  have hp : p.degree ≤ 0 := by
    by_contra hp
    push Not at hp
    have hp0 : p ≠ 0 := by rintro rfl; simp at hp
    have : (2 • p.degree) ≤ 0 := hd ▸ le_max_left _ _
    rw [Polynomial.degree_eq_natDegree hp0] at this hp
    have h1 : 0 < p.natDegree := by exact_mod_cast hp
    have h' : ((p.natDegree + p.natDegree : ℕ) : WithBot ℕ) ≤ ((0 : ℕ) : WithBot ℕ) := by
      rw [two_nsmul] at this; exact_mod_cast this
    have := Nat.cast_withBot _ ▸ Nat.cast_withBot _ ▸ h'
    have := WithBot.coe_le_coe.mp this
    omega
  have hp' := Polynomial.eq_C_of_degree_le_zero hp
  refine ⟨p.coeff 0, ?_, ?_⟩
  · intro h0
    rw [h0, C_0] at hp'
    rw [hp', hq, zero_smul, zero_smul, add_zero] at he
    exact not_isUnit_zero he
  · rw [hq, zero_smul, add_zero, CoordinateRing.smul, mul_one, hp']
    simp

theorem cocycle (A B D : W.Point) : ∃ a : F, a ≠ 0 ∧
    vf (B + D) * lf A B * lf (A + B) D * CoordinateRing.mk W (C (C a)) = vf (A + B) * lf B D * lf A (B + D) := by
  obtain ⟨e, he⟩ := cocycle_assoc A B D
  obtain ⟨a, ha, h⟩ := unit_const e.isUnit
  exact ⟨a, ha, by rw [← h, he]⟩

theorem lf_comm (A B : W.Point) : lf A B = lf B A := by
  by_cases hP : A = 0
  · rw [hP, lf_zero_left, lf_zero_right]
  by_cases hQ : B = 0
  · rw [hQ, lf_zero_left, lf_zero_right]
  cases A with
  | zero => exact absurd rfl hP
  | some x y h =>
    cases B with
    | zero => exact absurd rfl hQ
    | some x' y' h' =>
      have hsym : (x = x' ∧ y = W.negY x' y') ↔ (x' = x ∧ y' = W.negY x y) := by
        constructor
        · rintro ⟨rfl, rfl⟩; exact ⟨rfl, by rw [negY_negY]⟩
        · rintro ⟨rfl, rfl⟩; exact ⟨rfl, by rw [negY_negY]⟩
      by_cases hxy : x = x' ∧ y = W.negY x' y'
      · rw [lf_vert hxy, lf_vert (hsym.mp hxy), hxy.1]
      · rw [lf_line hxy, lf_line (fun e => hxy (hsym.mpr e))]
        congr 1
        by_cases hx : x = x'
        · subst hx
          have : y = y' := Y_eq_of_Y_ne h.1 h'.1 rfl (fun e => hxy ⟨rfl, e⟩)
          subst this; rfl
        · have hx' : x' ≠ x := fun e => hx e.symm
          rw [slope_of_X_ne hx, slope_of_X_ne hx']
          simp only [linePolynomial]
          have e1 : (y' - y) / (x' - x) = (y - y') / (x - x') := by
            rw [← neg_sub y y', ← neg_sub x x', neg_div_neg_eq]
          rw [e1]
          have hs : (y - y') / (x - x') * (x - x') = y - y' := div_mul_cancel₀ _ (sub_ne_zero.mpr hx)
          have := congrArg (Polynomial.C) hs
          simp only [map_mul, map_sub] at this ⊢
          linear_combination -this

/-! ### Evaluation at a point with coordinates in an extension -/

variable {K : Type*} [Field K] {b : F}

omit [DecidableEq F] in
theorem ev_aux (ι : F →+* K) {x y : K} (h : y ^ 2 = x ^ 3 + ι b) :
    (curve b).polynomial.eval₂ (eval₂RingHom ι x) y = 0 := by
  simp [Affine.polynomial, h]
  rw [eval₂_pow, eval₂_C]; simp

/-- The value of a function on the curve at a point with coordinates in an extension. -/
noncomputable def ev (ι : F →+* K) {x y : K} (h : y ^ 2 = x ^ 3 + ι b) : (curve b).CoordinateRing →+* K :=
  AdjoinRoot.lift (eval₂RingHom ι x) y (ev_aux ι h)

omit [DecidableEq F] in
theorem ev_XClass (ι : F →+* K) {x y : K} (h : y ^ 2 = x ^ 3 + ι b) (x₁ : F) :
    ev ι h (CoordinateRing.XClass _ x₁) = x - ι x₁ := by
  rw [ev, CoordinateRing.XClass, AdjoinRoot.lift_mk]; simp

omit [DecidableEq F] in
theorem ev_YClass (ι : F →+* K) {x y : K} (h : y ^ 2 = x ^ 3 + ι b) (x₁ y₁ l : F) :
    ev ι h (CoordinateRing.YClass _ (linePolynomial x₁ y₁ l)) = y - (ι l * (x - ι x₁) + ι y₁) := by
  rw [ev, CoordinateRing.YClass, AdjoinRoot.lift_mk]; simp [linePolynomial]

omit [DecidableEq F] in
theorem ev_const (ι : F →+* K) {x y : K} (h : y ^ 2 = x ^ 3 + ι b) (a : F) :
    ev ι h (CoordinateRing.mk _ (C (C a))) = ι a := by
  rw [ev, AdjoinRoot.lift_mk]; simp

end Bls.Line
