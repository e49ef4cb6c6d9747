import Verif.Proof.PairingVal
/-
Bilinearity of the Miller products after the final exponentiation.
-/
namespace Bls
open WeierstrassCurve

/-! ### The line through two points of the first curve, at a point of the second -/

/-- The value at `(x, y)` of the twisted line `y = l x + m`. -/
noncomputable def hv (l m : Fq) (x y : Fq2) : Fq12 :=
  Fq12.ofFq2 y - (Fq12.w * Fq12.ofFq l * Fq12.ofFq2 x + Fq12.w ^ 3 * Fq12.ofFq m)

theorem hv_eq (l m : Fq) (x y : Fq2) : hv l m x y = ⟨⟨y, 0, 0⟩, ⟨-(Fq2.of l * x), -Fq2.of m, 0⟩⟩ := by
  have e : Fq12.w ^ 3 = Fq12.of Fq6.v * Fq12.w := by rw [pow_succ, Fq12.w_sq]
  rw [hv, e]
  ext1
  · ext1 <;> simp [Fq12.ofFq2, Fq12.ofFq]
  · ext1 <;> simp [Fq12.ofFq2, Fq12.ofFq]

theorem hv_ne {l m : Fq} {x y : Fq2} (hy : y ≠ 0) : hv l m x y ≠ 0 := by
  intro h
  rw [hv_eq] at h
  exact hy (congrArg (fun a : Fq12 => a.c0.c0) h)

theorem hv_neg (l m : Fq) (x y : Fq2) : hv l m x (-y) = -Fq12.conj (hv l m x y) := by
  rw [hv_eq, hv_eq]
  ext1
  · ext1 <;> simp
  · ext1 <;> simp

/-- The same after the final exponentiation; 1 at infinity. -/
noncomputable def hh (l m : Fq) (A : E2) : GT :=
  match A with
  | .zero => 1
  | .some x y h => phi (hv l m x y) (hv_ne (E2.at_y_ne ⟨h, rfl⟩))

theorem hh_zero (l m : Fq) : hh l m 0 = 1 := rfl

theorem hh_at {l m : Fq} {A : E2} {x y : Fq2} (h : IsAt A x y) :
    hh l m A = phi (hv l m x y) (hv_ne (E2.at_y_ne h)) := by
  obtain ⟨h, rfl⟩ := h; rfl

attribute [irreducible] hh

theorem hh_neg (l m : Fq) (A : E2) : hh l m (-A) = (hh l m A)⁻¹ := by
  rcases zero_or_isAt A with rfl | ⟨x, y, hA⟩
  · rw [neg_zero, hh_zero, inv_one]
  · rw [hh_at hA, hh_at hA.neg, phi_congr (hv_neg l m x y), phi_neg, phi_conj]

theorem hh_pow_r (l m : Fq) (A : E2) : hh l m A ^ r = 1 := by
  rcases zero_or_isAt A with rfl | ⟨x, y, hA⟩
  · rw [hh_zero, one_pow]
  · rw [hh_at hA, phi_pow_r]

theorem hv_frob (l m : Fq) (x y : Fq2) :
    hv l m x y ^ q = Fq12.ofFq2 (gam ^ 3) * hv l m (psi.α * psi.f x) (psi.β * psi.f y) := by
  have h := gam_ne
  have e1 : psi.α * psi.f x * gam ^ 3 = Fq2.conj x * gam := by
    change (gam ^ 2)⁻¹ * Fq2.conj x * gam ^ 3 = _
    field_simp
  have e2 : psi.β * psi.f y * gam ^ 3 = Fq2.conj y := by
    change (gam ^ 3)⁻¹ * Fq2.conj y * gam ^ 3 = _
    field_simp
  have e1' := congrArg Fq12.ofFq2 e1
  have e2' := congrArg Fq12.ofFq2 e2
  rw [map_mul Fq12.ofFq2 _ (gam ^ 3), map_mul Fq12.ofFq2 _ gam] at e1'
  rw [map_mul Fq12.ofFq2 _ (gam ^ 3)] at e2'
  have hw3 : (Fq12.w ^ 3) ^ q = Fq12.ofFq2 (gam ^ 3) * Fq12.w ^ 3 := by
    rw [← pow_mul, mul_comm 3 q, pow_mul, gam_w, mul_pow, map_pow]
  rw [hv, hv, sub_pow_char, add_pow_char, mul_pow, mul_pow, mul_pow, hw3, gam_w, Fq12.ofFq_pow_q, Fq12.ofFq_pow_q, ← map_pow,
    ← map_pow Fq12.ofFq2 x, Fq2.pow_q, Fq2.pow_q]
  linear_combination Fq12.w * Fq12.ofFq l * e1' - e2'

theorem hh_psi (l m : Fq) (A : E2) : hh l m (psi.hom A) = hh l m A ^ q := by
  rcases zero_or_isAt A with rfl | ⟨x, y, hA⟩
  · rw [map_zero, hh_zero, one_pow]
  · rw [hh_at hA, hh_at (psi.hom_at hA)]
    exact phi_frob (Fq12.pow_fullExp_ofFq2 (pow_ne_zero 3 gam_ne)) (hv_frob l m x y)

theorem lv_line (z l₀ m₀ : Fq) (l m : Fq2) : lv z (l₀ * z + m₀) l m =
    ((Fq12.w * Fq12.ofFq l₀) * twX z + Fq12.w ^ 3 * Fq12.ofFq m₀) - (Fq12.ofFq2 l * twX z + Fq12.ofFq2 m) := by
  rw [lv, twY, twX, map_add, map_mul]; ring

theorem hv_line (x l m : Fq2) (l₀ m₀ : Fq) : hv l₀ m₀ x (l * x + m) =
    (Fq12.ofFq2 l * Fq12.ofFq2 x + Fq12.ofFq2 m) - ((Fq12.w * Fq12.ofFq l₀) * Fq12.ofFq2 x + Fq12.w ^ 3 * Fq12.ofFq m₀) := by
  rw [hv, map_add, map_mul]

theorem recip_arith {K : Type*} [Field K] {w b l m x₁ x₂ x₃ l₀ m₀ z₁ z₂ z₃ : K}
    (e1 : x₁ + x₂ + x₃ = l ^ 2) (e2 : x₁ * x₂ + x₁ * x₃ + x₂ * x₃ = -2 * l * m) (e3 : x₁ * x₂ * x₃ = m ^ 2 - b)
    (d1 : z₁ + z₂ + z₃ = l₀ ^ 2) (d2 : z₁ * z₂ + z₁ * z₃ + z₂ * z₃ = -2 * l₀ * m₀) (d3 : z₁ * z₂ * z₃ = m₀ ^ 2 - 4)
    (hb : b = w ^ 6 * 4) :
    (w * l₀ * (w ^ 2 * z₁) + w ^ 3 * m₀ - (l * (w ^ 2 * z₁) + m)) * (w * l₀ * (w ^ 2 * z₂) + w ^ 3 * m₀ - (l * (w ^ 2 * z₂) + m)) *
      (w * l₀ * (w ^ 2 * z₃) + w ^ 3 * m₀ - (l * (w ^ 2 * z₃) + m)) =
    -((l * x₁ + m - (w * l₀ * x₁ + w ^ 3 * m₀)) * (l * x₂ + m - (w * l₀ * x₂ + w ^ 3 * m₀)) *
        (l * x₃ + m - (w * l₀ * x₃ + w ^ 3 * m₀))) := by
  refine line_reciprocity (b := b) e1 e2 e3 ?_ ?_ ?_
  · linear_combination w ^ 2 * d1
  · linear_combination w ^ 4 * d2
  · linear_combination w ^ 6 * d3 + hb

theorem lines_reciprocity {P₁ P₂ : E1} {l₀ m₀ z₁ z₂ z₃ : Fq} (h₀ : LD P₁ P₂ l₀ m₀ z₁ z₂ z₃)
    {A B : E2} {l m x₁ x₂ x₃ : Fq2} (h : LD A B l m x₁ x₂ x₃) :
    lv z₁ (l₀ * z₁ + m₀) l m * lv z₂ (l₀ * z₂ + m₀) l m * lv z₃ (l₀ * z₃ + m₀) l m =
    -(hv l₀ m₀ x₁ (l * x₁ + m) * hv l₀ m₀ x₂ (l * x₂ + m) * hv l₀ m₀ x₃ (l * x₃ + m)) := by
  simp only [lv_line, hv_line, twX]
  have e1 := congrArg Fq12.ofFq2 h.e1
  have e2 := congrArg Fq12.ofFq2 h.e2
  have e3 := congrArg Fq12.ofFq2 h.e3
  have d1 := congrArg Fq12.ofFq h₀.e1
  have d2 := congrArg Fq12.ofFq h₀.e2
  have d3 := congrArg Fq12.ofFq h₀.e3
  have hb : Fq12.ofFq2 b2 = Fq12.w ^ 6 * 4 := by
    rw [Fq12.w_pow_six, b2_xi, map_mul, map_ofNat, mul_comm]
  simp only [map_add, map_mul, map_neg, map_sub, map_pow, map_ofNat] at e1 e2 e3 d1 d2 d3
  have k := recip_arith e1 e2 e3 d1 d2 d3 hb
  linear_combination k

theorem phi_six {a₁ a₂ a₃ a₄ a₅ a₆ : Fq12} {h₁ : a₁ ≠ 0} {h₂ : a₂ ≠ 0} {h₃ : a₃ ≠ 0} {h₄ : a₄ ≠ 0} {h₅ : a₅ ≠ 0} {h₆ : a₆ ≠ 0}
    (e : a₁ * a₂ * a₃ = -(a₄ * a₅ * a₆)) :
    phi a₁ h₁ * phi a₂ h₂ * phi a₃ h₃ = phi a₄ h₄ * phi a₅ h₅ * phi a₆ h₆ := by
  have n : -(a₄ * a₅ * a₆) ≠ 0 := neg_ne_zero.mpr (mul_ne_zero (mul_ne_zero h₄ h₅) h₆)
  have k : phi (-(a₄ * a₅ * a₆)) n = phi a₄ h₄ * phi a₅ h₅ * phi a₆ h₆ := by
    rw [phi_neg, phi_mul (mul_ne_zero h₄ h₅) h₆, phi_mul h₄ h₅]
  rw [← phi_mul, ← phi_mul, phi_congr e, k]

theorem cob_arith {G : Type*} [CommGroup G] {a b c d e f : G} (h : a * b * c⁻¹ = d * e * f⁻¹) : a * b * f = c * d * e := by
  rw [mul_inv_eq_iff_eq_mul] at h
  rw [h, mul_right_comm, inv_mul_cancel_right, mul_comm, mul_assoc]

theorem cob_six {G : Type*} [CommGroup G] {a b c d e f p₁ p₂ p₃ p₄ p₅ p₆ : G} (h₁ : a = p₁) (h₂ : b = p₂) (h₃ : c⁻¹ = p₃)
    (h₄ : d = p₄) (h₅ : e = p₅) (h₆ : f⁻¹ = p₆) (k : p₁ * p₂ * p₃ = p₄ * p₅ * p₆) : a * b * f = c * d * e := by
  subst h₁ h₂ h₃ h₄ h₅ h₆
  exact cob_arith k

theorem cob_phi {a₁ a₂ a₃ a₄ a₅ a₆ : Fq12} {h₁ : a₁ ≠ 0} {h₂ : a₂ ≠ 0} {h₃ : a₃ ≠ 0} {h₄ : a₄ ≠ 0} {h₅ : a₅ ≠ 0} {h₆ : a₆ ≠ 0}
    {a b c d e f : GT} (k₁ : a = phi a₁ h₁) (k₂ : b = phi a₂ h₂) (k₃ : c⁻¹ = phi a₃ h₃)
    (k₄ : d = phi a₄ h₄) (k₅ : e = phi a₅ h₅) (k₆ : f⁻¹ = phi a₆ h₆) (k : a₁ * a₂ * a₃ = -(a₄ * a₅ * a₆)) :
    a * b * f = c * d * e := cob_six k₁ k₂ k₃ k₄ k₅ k₆ (phi_six k)

theorem left_arith {G : Type*} [CommGroup G] {a b c d e : G} (h : a * b * d⁻¹ = c * e) (k : e * d = 1) : c = a * b := by
  rw [mul_inv_eq_iff_eq_mul, mul_assoc, k, mul_one] at h
  exact h.symm

theorem right_arith {G : Type*} [CommGroup G] {a b c d e : G} (h : a * b * d⁻¹ = e * c) (k : e * d = 1) : c = a * b := by
  rw [mul_comm e c] at h
  exact left_arith h k

theorem cc_coboundary {P₁ P₂ : E1} {l₀ m₀ z₁ z₂ z₃ : Fq} (h₀ : LD P₁ P₂ l₀ m₀ z₁ z₂ z₃) (A B : E2) :
    cc P₁ A B * cc P₂ A B * hh l₀ m₀ (A + B) = cc (P₁ + P₂) A B * hh l₀ m₀ A * hh l₀ m₀ B := by
  by_cases hd : A = 0 ∨ B = 0 ∨ A + B = 0
  · rw [cc_degenerate _ hd, cc_degenerate _ hd, cc_degenerate _ hd, one_mul, one_mul, one_mul]
    rcases hd with h | h | h
    · rw [h, zero_add, hh_zero, one_mul]
    · rw [h, add_zero, hh_zero, mul_one]
    · rw [h, eq_neg_of_add_eq_zero_left h, hh_neg, hh_zero, inv_mul_cancel]
  · push Not at hd
    obtain ⟨l, m, x₁, x₂, x₃, h⟩ := LD.exists hd.1 hd.2.1 hd.2.2
    have e := lines_reciprocity h₀ h
    have y₁ := E1.at_y_ne h₀.at1
    have y₂ := E1.at_y_ne h₀.at2
    have y₃ := E1.at_y_ne h₀.at3.neg
    have w₁ := E2.at_y_ne h.at1
    have w₂ := E2.at_y_ne h.at2
    have w₃ := E2.at_y_ne h.at3.neg
    rw [neg_neg] at y₃ w₃
    have c1 := cc_LD h₀.at1 h
    have c2 := cc_LD h₀.at2 h
    have c3 := cc_LD h₀.at3.neg h
    have g1 := hh_at (l := l₀) (m := m₀) h.at1
    have g2 := hh_at (l := l₀) (m := m₀) h.at2
    have g3 := hh_at (l := l₀) (m := m₀) h.at3.neg
    simp only [neg_neg] at c3 g3
    have c3' := (cc_neg_left (P₁ + P₂) A B).symm.trans c3
    have g3' := (hh_neg l₀ m₀ (A + B)).symm.trans g3
    refine cob_phi c1 c2 c3' g1 g2 g3' ?_
    rw [e]

/-! ### The pairing on points -/

/-- The pairing: the Miller product over `|x|`, inverted because `x` is negative. -/
noncomputable def ee (P : E1) (Q : E2) : GT := (millerProd (cc P) Q blsU)⁻¹

/-- `Q` is an eigenvector of Frobenius with eigenvalue `x`. -/
def Eig (Q : E2) : Prop := blsU • Q = -psi.hom Q

theorem Eig.add {Q R : E2} (hQ : Eig Q) (hR : Eig R) : Eig (Q + R) := by
  unfold Eig at *
  rw [nsmul_add, hQ, hR, map_add, neg_add]

theorem r_dvd : r ∣ q + blsU := by rw [q, r, blsU]; decide +kernel

theorem pow_q_u {a : GT} (h : a ^ r = 1) : a ^ blsU * a ^ q = 1 := by
  rw [← pow_add, add_comm]
  obtain ⟨k, hk⟩ := r_dvd
  rw [hk, pow_mul, h, one_pow]

theorem millerProd_cc_zero (Q : E2) (n : ℕ) : millerProd (cc 0) Q n = 1 := by
  induction n with
  | zero => rfl
  | succ n ih => rw [millerProd, ih, cc_zero, one_mul]

theorem millerProd_cc_neg (P : E1) (Q : E2) (n : ℕ) : millerProd (cc (-P)) Q n = (millerProd (cc P) Q n)⁻¹ := by
  induction n with
  | zero => rw [millerProd, millerProd, inv_one]
  | succ n ih => rw [millerProd, millerProd, ih, cc_neg_left, mul_inv]

theorem ee_zero_left (Q : E2) : ee 0 Q = 1 := by rw [ee, millerProd_cc_zero, inv_one]

theorem ee_neg_left (P : E1) (Q : E2) : ee (-P) Q = (ee P Q)⁻¹ := by rw [ee, ee, millerProd_cc_neg]

theorem ee_add_left (P₁ P₂ : E1) {Q : E2} (hQ : Eig Q) : ee (P₁ + P₂) Q = ee P₁ Q * ee P₂ Q := by
  by_cases h1 : P₁ = 0
  · rw [h1, zero_add, ee_zero_left, one_mul]
  by_cases h2 : P₂ = 0
  · rw [h2, add_zero, ee_zero_left, mul_one]
  by_cases h3 : P₁ + P₂ = 0
  · rw [h3, eq_neg_of_add_eq_zero_left h3, ee_neg_left, ee_zero_left, inv_mul_cancel]
  obtain ⟨l₀, m₀, z₁, z₂, z₃, h⟩ := LD.exists h1 h2 h3
  have k := millerProd_coboundary (hh_zero l₀ m₀) (cc_coboundary h) Q blsU
  have hu : blsU • Q = -psi.hom Q := hQ
  rw [hu, hh_neg, hh_psi] at k
  rw [ee, ee, ee, ← mul_inv, inv_inj]
  exact left_arith k (pow_q_u (hh_pow_r l₀ m₀ Q))

theorem ee_add_right (P : E1) {Q R : E2} (hQ : Eig Q) (hR : Eig R) : ee P (Q + R) = ee P Q * ee P R := by
  have k := (cc_cocycle P).hom Q R blsU
  have hu : blsU • Q = -psi.hom Q := hQ
  have hu' : blsU • R = -psi.hom R := hR
  rw [hu, hu', cc_neg_right, cc_psi] at k
  rw [ee, ee, ee, ← mul_inv, inv_inj]
  exact right_arith k (pow_q_u (cc_pow_r P Q R))

theorem millerProd_pow_r (P : E1) (Q : E2) (n : ℕ) : millerProd (cc P) Q n ^ r = 1 := by
  induction n with
  | zero => rw [millerProd, one_pow]
  | succ n ih => rw [millerProd, mul_pow, ih, cc_pow_r, one_mul]

theorem ee_pow_r (P : E1) (Q : E2) : ee P Q ^ r = 1 := by rw [ee, inv_pow, millerProd_pow_r, inv_one]

end Bls
