import Verif.Proof.FinalExp
import Verif.Proof.LineData
import Verif.Proof.Extension
import Verif.Proof.Compress
/-
The values of lines after the final exponentiation: a symmetric 2-cocycle on the second curve group,
compatible with negation and Frobenius, and multiplicative in the first argument up to a coboundary.
-/
namespace Bls
open WeierstrassCurve

/-! ### What the final exponentiation kills -/

theorem fullExp_mul_r : (fullExp : ℤ) * r = 3 * ((q : ℤ) ^ 12 - 1) := by
  rw [← easy_hard, mul_assoc, hardExp_mul]; ring

theorem fullExp_eq : (fullExp : ℤ) = ((q : ℤ) ^ 6 - 1) * ((q ^ 2 + 1) * hardExp) := by
  rw [← easy_hard]; ring

theorem Fq12.pow_fullExp_of {a : Fq6} (ha : a ≠ 0) : (Fq12.of a) ^ fullExp = 1 := by
  rw [← zpow_natCast, fullExp_eq, zpow_mul, ← map_zpow₀, zpow_sub₀ ha, zpow_one, ← Nat.cast_pow, zpow_natCast,
    Fq6.pow_card, div_self ha, map_one, one_zpow]

theorem Fq12.pow_fullExp_ofFq2 {a : Fq2} (ha : a ≠ 0) : (Fq12.ofFq2 a) ^ fullExp = 1 :=
  Fq12.pow_fullExp_of ((map_ne_zero Fq6.of).mpr ha)

/-- The multiplicative group of Fq12, with one fixed group structure. -/
def GT : Type := Fq12ˣ

noncomputable instance GT.instCommGroup : CommGroup GT := inferInstanceAs (CommGroup Fq12ˣ)

/-- The underlying element. -/
def GT.val (a : GT) : Fq12 := Units.val (α := Fq12) a

/-- A nonzero element. -/
noncomputable def GT.mk0 (x : Fq12) (hx : x ≠ 0) : GT := Units.mk0 x hx

theorem GT.ext {a b : GT} (h : a.val = b.val) : a = b := Units.ext h
theorem GT.val_mk0 {x : Fq12} (hx : x ≠ 0) : (GT.mk0 x hx).val = x := rfl
theorem GT.val_one : (1 : GT).val = 1 := rfl
theorem GT.val_mul (a b : GT) : (a * b).val = a.val * b.val := Units.val_mul (α := Fq12) a b
theorem GT.val_ne (a : GT) : a.val ≠ 0 := Units.ne_zero (M₀ := Fq12) a

theorem GT.val_pow (a : GT) (n : ℕ) : (a ^ n).val = a.val ^ n := by
  induction n with
  | zero => rw [pow_zero, pow_zero, GT.val_one]
  | succ n ih => rw [pow_succ, pow_succ, GT.val_mul, ih]

attribute [irreducible] GT GT.val GT.mk0 GT.instCommGroup

/-- Final exponentiation of a nonzero element. -/
noncomputable def phi (x : Fq12) (hx : x ≠ 0) : GT := (GT.mk0 x hx) ^ fullExp

theorem phi_val {x : Fq12} (hx : x ≠ 0) : (phi x hx).val = x ^ fullExp := by
  rw [phi, GT.val_pow, GT.val_mk0]

theorem phi_congr {x y : Fq12} {hx : x ≠ 0} (h : x = y) : phi x hx = phi y (h ▸ hx) := by subst h; rfl

theorem phi_mul {x y : Fq12} (hx : x ≠ 0) (hy : y ≠ 0) : phi (x * y) (mul_ne_zero hx hy) = phi x hx * phi y hy := by
  apply GT.ext; rw [GT.val_mul, phi_val, phi_val, phi_val, mul_pow]

theorem phi_pow {x : Fq12} (hx : x ≠ 0) (n : ℕ) : phi (x ^ n) (pow_ne_zero n hx) = phi x hx ^ n := by
  apply GT.ext; rw [GT.val_pow, phi_val, phi_val, ← pow_mul, ← pow_mul, mul_comm]

theorem phi_of {a : Fq6} (ha : Fq12.of a ≠ 0) : phi (Fq12.of a) ha = 1 := by
  apply GT.ext; rw [phi_val, Fq12.pow_fullExp_of ((map_ne_zero Fq12.of).mp ha), GT.val_one]

theorem phi_ofFq2 {a : Fq2} (ha : Fq12.ofFq2 a ≠ 0) : phi (Fq12.ofFq2 a) ha = 1 := phi_of ha

theorem phi_neg {x : Fq12} (hx : -x ≠ 0) : phi (-x) hx = phi x (neg_ne_zero.mp hx) := by
  have h1 : Fq12.of (-1) ≠ 0 := (map_ne_zero Fq12.of).mpr (neg_ne_zero.mpr one_ne_zero)
  have e : -x = Fq12.of (-1) * x := by rw [map_neg, map_one, neg_one_mul]
  rw [phi_congr e, phi_mul h1 (neg_ne_zero.mp hx), phi_of, one_mul]

theorem Fq12.conj_ne {x : Fq12} (hx : x ≠ 0) : Fq12.conj x ≠ 0 := (map_ne_zero Fq12.conj).mpr hx

theorem phi_conj {x : Fq12} (hx : x ≠ 0) : phi (Fq12.conj x) (Fq12.conj_ne hx) = (phi x hx)⁻¹ := by
  refine eq_inv_of_mul_eq_one_left ?_
  have e : Fq12.conj x * x = Fq12.of (Fq12.nrm x) := by rw [mul_comm]; exact Fq12.mul_conj x
  rw [← phi_mul, phi_congr e, phi_of]

theorem phi_pow_r {x : Fq12} (hx : x ≠ 0) : phi x hx ^ r = 1 := by
  apply GT.ext
  rw [GT.val_pow, phi_val, GT.val_one, ← pow_mul, ← zpow_natCast, Nat.cast_mul, fullExp_mul_r, mul_comm,
    Fq12.zpow_card hx]

theorem phi_rel {v₁ v₂ a n₁ n₂ n₃ n₄ : Fq12} {h₁ : n₁ ≠ 0} {h₂ : n₂ ≠ 0} {h₃ : n₃ ≠ 0} {h₄ : n₄ ≠ 0}
    (k₁ : v₁ ^ fullExp = 1) (k₂ : v₂ ^ fullExp = 1) (k₃ : a ^ fullExp = 1) (e : v₁ * n₁ * n₂ * a = v₂ * n₃ * n₄) :
    phi n₁ h₁ * phi n₂ h₂ = phi n₃ h₃ * phi n₄ h₄ := by
  apply GT.ext
  rw [GT.val_mul, GT.val_mul, phi_val, phi_val, phi_val, phi_val]
  have := congrArg (· ^ fullExp) e
  simp only [mul_pow, k₁, k₂, k₃, one_mul, mul_one] at this
  exact this

theorem phi_frob {x y g : Fq12} {n : ℕ} {hx : x ≠ 0} {hy : y ≠ 0} (kg : g ^ fullExp = 1) (e : x ^ n = g * y) :
    phi y hy = phi x hx ^ n := by
  apply GT.ext
  rw [GT.val_pow, phi_val, phi_val, ← pow_mul, mul_comm, pow_mul, e, mul_pow, kg, one_mul]

attribute [irreducible] phi

/-! ### The twisted coordinates -/

/-- The embedding of the base field. -/
noncomputable def Fq12.ofFq : Fq →+* Fq12 := Fq12.ofFq2.comp Fq2.of

/-- The abscissa of a point of the first curve on the second one over Fq12: `w² x`. -/
noncomputable def twX (x : Fq) : Fq12 := Fq12.w ^ 2 * Fq12.ofFq x
/-- The ordinate of a point of the first curve on the second one over Fq12: `w³ y`. -/
noncomputable def twY (y : Fq) : Fq12 := Fq12.w ^ 3 * Fq12.ofFq y

theorem twX_eq (x : Fq) : twX x = ⟨⟨0, Fq2.of x, 0⟩, 0⟩ := by
  rw [twX, Fq12.w_sq]
  ext1
  · ext1 <;> simp [Fq12.ofFq, Fq12.ofFq2]
  · simp [Fq12.ofFq, Fq12.ofFq2]

theorem twY_eq (y : Fq) : twY y = ⟨0, ⟨0, Fq2.of y, 0⟩⟩ := by
  rw [twY, pow_succ, Fq12.w_sq]
  ext1
  · simp [Fq12.ofFq, Fq12.ofFq2]
  · ext1 <;> simp [Fq12.ofFq, Fq12.ofFq2]

theorem Fq12.w_ne : Fq12.w ≠ 0 := fun h => one_ne_zero (congrArg Fq12.c1 h)

theorem b2_xi : b2 = 4 * xi := by
  rw [b2_eq]; congr 1
  ext1 <;> simp [Fq2.u, xi]

instance goodCurve12 : GoodCurve (Fq12.ofFq2 b2) where
  two_ne := by rw [← map_ofNat Fq12.ofFq2 2]; exact (map_ne_zero Fq12.ofFq2).mpr (GoodCurve.two_ne (b := b2))
  three_ne := by rw [← map_ofNat Fq12.ofFq2 3]; exact (map_ne_zero Fq12.ofFq2).mpr (GoodCurve.three_ne (b := b2))
  b_ne := (map_ne_zero Fq12.ofFq2).mpr (GoodCurve.b_ne (b := b2))

/-- The isomorphism over Fq12 from the first curve to the second. -/
noncomputable def twist1 : TwistData (4 : Fq) (Fq12.ofFq2 b2) where
  f := Fq12.ofFq
  α := Fq12.w ^ 2
  β := Fq12.w ^ 3
  α_ne := pow_ne_zero 2 Fq12.w_ne
  sq := by ring
  hb := by
    rw [← pow_mul, Fq12.w_pow_six, b2_xi, map_mul, map_ofNat, map_ofNat, mul_comm]

/-- Base change of the second curve to Fq12. -/
noncomputable def twist2 : TwistData b2 (Fq12.ofFq2 b2) where
  f := Fq12.ofFq2
  α := 1
  β := 1
  α_ne := one_ne_zero
  sq := by ring
  hb := by ring

/-- `γ = w^(q-1)`. -/
noncomputable def gam : Fq2 := gammaN.toF

theorem gam_w : Fq12.w ^ q = Fq12.ofFq2 gam * Fq12.w := Fq12.w_pow_q

theorem gam_ne : gam ≠ 0 := by
  intro h
  have := gam_w
  rw [h, map_zero, zero_mul] at this
  exact pow_ne_zero q Fq12.w_ne this

theorem gam_six : gam ^ 6 * xi = Fq2.conj xi := by
  apply Fq12.ofFq2.injective
  rw [map_mul, map_pow, ← Fq12.w_pow_six, ← mul_pow, ← gam_w, ← Fq2.pow_q, map_pow, ← Fq12.w_pow_six, ← pow_mul, ← pow_mul,
    mul_comm]

/-- The endomorphism of the second curve that is Frobenius on the first one. -/
noncomputable def psi : TwistData b2 b2 where
  f := Fq2.conj
  α := (gam ^ 2)⁻¹
  β := (gam ^ 3)⁻¹
  α_ne := inv_ne_zero (pow_ne_zero 2 gam_ne)
  sq := by rw [inv_pow, inv_pow, ← pow_mul, ← pow_mul]
  hb := by
    have h := gam_ne
    rw [b2_xi, map_mul, ← gam_six, map_ofNat, inv_pow, ← pow_mul]
    field_simp

/-! ### Lines -/

theorem tw_on {x y : Fq} (h : y ^ 2 = x ^ 3 + 4) : twY y ^ 2 = twX x ^ 3 + Fq12.ofFq2 b2 := by
  have hb : Fq12.ofFq2 b2 = Fq12.w ^ 6 * Fq12.ofFq 4 := by
    rw [Fq12.w_pow_six, b2_xi, map_mul, map_ofNat, map_ofNat, mul_comm]
  have h' := congrArg Fq12.ofFq h
  rw [map_pow, map_add, map_pow] at h'
  rw [twX, twY, hb]
  linear_combination Fq12.w ^ 6 * h'

/-- The line through `A` and `B` at the twist of `P`; 1 if `P` is infinity. -/
noncomputable def lineVal (P : E1) (A B : E2) : Fq12 :=
  match P with
  | .zero => 1
  | .some x y h => Line.ev Fq12.ofFq2 (tw_on (x := x) (y := y) (curve_equation_iff.mp h.1)) (Line.lf A B)

theorem lineVal_zero (A B : E2) : lineVal 0 A B = 1 := rfl

theorem lineVal_at {P : E1} {x y : Fq} (h : IsAt P x y) (A B : E2) :
    lineVal P A B = Line.ev Fq12.ofFq2 (tw_on h.on) (Line.lf A B) := by
  obtain ⟨h, rfl⟩ := h; rfl

attribute [irreducible] lineVal

/-- The value of the line `y = l x + m` at the twist of `(x, y)`. -/
noncomputable def lv (x y : Fq) (l m : Fq2) : Fq12 := twY y - (Fq12.ofFq2 l * twX x + Fq12.ofFq2 m)

theorem lv_eq (x y : Fq) (l m : Fq2) : lv x y l m = ⟨⟨-m, -(l * Fq2.of x), 0⟩, ⟨0, Fq2.of y, 0⟩⟩ := by
  rw [lv, twX_eq, twY_eq]
  ext1
  · ext1 <;> simp [Fq12.ofFq2]
  · ext1 <;> simp [Fq12.ofFq2]

theorem lineVal_LD {P : E1} {x y : Fq} (h : IsAt P x y) {A B : E2} {l m x₁ x₂ x₃ : Fq2} (hl : LD A B l m x₁ x₂ x₃) :
    lineVal P A B = lv x y l m := by
  rw [lineVal_at h, hl.ev]; rfl

theorem E1.at_y_ne {P : E1} {x y : Fq} (h : IsAt P x y) : y ≠ 0 := by
  rintro rfl; exact E1.y_ne_zero h.on

theorem E2.at_y_ne {P : E2} {x y : Fq2} (h : IsAt P x y) : y ≠ 0 := by
  rintro rfl; exact E2.y_ne_zero h.on

theorem E2.at_x_ne {P : E2} {x y : Fq2} (h : IsAt P x y) : x ≠ 0 := by
  rintro rfl
  have h' := h.on
  rw [b2_xi] at h'
  have h2 : (2 : Fq2) ≠ 0 := GoodCurve.two_ne (b := b2)
  refine Fq2.xi_nonsquare ⟨y / 2, ?_⟩
  rw [← pow_two, div_pow, h', eq_div_iff (pow_ne_zero 2 h2)]
  ring

theorem lv_ne {x y : Fq} (hy : y ≠ 0) (l m : Fq2) : lv x y l m ≠ 0 := by
  intro h
  rw [lv_eq] at h
  have h1 := congrArg (fun a : Fq12 => a.c1.c1) h
  exact (map_ne_zero Fq2.of).mpr hy h1

/-- A vertical line at the twist of `P` is an element of Fq6. -/
theorem ev_vf {x y : Fq} (h : twY y ^ 2 = twX x ^ 3 + Fq12.ofFq2 b2) (A : E2) :
    ∃ a : Fq6, a ≠ 0 ∧ Line.ev Fq12.ofFq2 h (Line.vf A) = Fq12.of a := by
  rcases zero_or_isAt A with rfl | ⟨x₁, y₁, hA⟩
  · exact ⟨1, one_ne_zero, by rw [Line.vf_zero, map_one, map_one]⟩
  · have hx := E2.at_x_ne hA
    obtain ⟨h', rfl⟩ := hA
    refine ⟨⟨-x₁, Fq2.of x, 0⟩, ?_, ?_⟩
    · intro e
      exact hx (neg_eq_zero.mp (congrArg Fq6.c0 e))
    · change Line.ev Fq12.ofFq2 h (Affine.CoordinateRing.XClass _ x₁) = _
      rw [Line.ev_XClass, twX_eq]
      ext1
      · ext1 <;> simp [Fq12.ofFq2]
      · simp [Fq12.ofFq2]

/-- Degenerate lines. -/
theorem lf_degenerate {A B : E2} (h : A = 0 ∨ B = 0 ∨ A + B = 0) : ∃ D : E2, Line.lf A B = Line.vf D := by
  rcases h with rfl | rfl | h
  · exact ⟨B, Line.lf_zero_left B⟩
  · exact ⟨A, Line.lf_zero_right A⟩
  · have e := eq_neg_of_add_eq_zero_right h
    subst e
    rcases zero_or_isAt A with rfl | ⟨x₁, y₁, hA⟩
    · exact ⟨-0, Line.lf_zero_left _⟩
    · obtain ⟨h', rfl⟩ := hA
      refine ⟨.some x₁ y₁ h', ?_⟩
      rw [Affine.Point.neg_some, Line.lf_vert ⟨rfl, by rw [Affine.negY_negY]⟩]
      rfl

theorem lineVal_ne (P : E1) (A B : E2) : lineVal P A B ≠ 0 := by
  rcases zero_or_isAt P with rfl | ⟨x, y, hP⟩
  · rw [lineVal_zero]; exact one_ne_zero
  by_cases hd : A = 0 ∨ B = 0 ∨ A + B = 0
  · obtain ⟨D, hD⟩ := lf_degenerate hd
    obtain ⟨a, ha, e⟩ := ev_vf (tw_on hP.on) D
    rw [lineVal_at hP, hD, e]
    exact (map_ne_zero Fq12.of).mpr ha
  · push Not at hd
    obtain ⟨l, m, x₁, x₂, x₃, hl⟩ := LD.exists hd.1 hd.2.1 hd.2.2
    rw [lineVal_LD hP hl]
    exact lv_ne (E1.at_y_ne hP) l m

/-- The line through `A` and `B` at the twist of `P`, after the final exponentiation. -/
noncomputable def cc (P : E1) (A B : E2) : GT := phi (lineVal P A B) (lineVal_ne P A B)

theorem cc_zero (A B : E2) : cc 0 A B = 1 := by
  apply GT.ext; rw [cc, phi_val, lineVal_zero, one_pow, GT.val_one]

theorem cc_degenerate (P : E1) {A B : E2} (h : A = 0 ∨ B = 0 ∨ A + B = 0) : cc P A B = 1 := by
  rcases zero_or_isAt P with rfl | ⟨x, y, hP⟩
  · exact cc_zero A B
  obtain ⟨D, hD⟩ := lf_degenerate h
  obtain ⟨a, ha, e⟩ := ev_vf (tw_on hP.on) D
  rw [cc, phi_congr (by rw [lineVal_at hP, hD, e]), phi_of]

theorem cc_pow_r (P : E1) (A B : E2) : cc P A B ^ r = 1 := phi_pow_r _

theorem cc_LD {P : E1} {x y : Fq} (h : IsAt P x y) {A B : E2} {l m x₁ x₂ x₃ : Fq2} (hl : LD A B l m x₁ x₂ x₃) :
    cc P A B = phi (lv x y l m) (lv_ne (E1.at_y_ne h) l m) := phi_congr (lineVal_LD h hl)

theorem cc_cocycle (P : E1) : SymCocycle (cc P) where
  symm A B := by
    rcases zero_or_isAt P with rfl | ⟨x, y, hP⟩
    · rw [cc_zero, cc_zero]
    · exact phi_congr (by rw [lineVal_at hP, lineVal_at hP, Line.lf_comm])
  zero A := cc_degenerate P (Or.inl rfl)
  assoc A B D := by
    rcases zero_or_isAt P with rfl | ⟨x, y, hP⟩
    · simp only [cc_zero]
    · obtain ⟨a, ha, e⟩ := Line.cocycle A B D
      have e' := congrArg (Line.ev Fq12.ofFq2 (tw_on hP.on)) e
      obtain ⟨v₁, hv₁, e₁⟩ := ev_vf (tw_on hP.on) (B + D)
      obtain ⟨v₂, hv₂, e₂⟩ := ev_vf (tw_on hP.on) (A + B)
      simp only [map_mul, e₁, e₂, Line.ev_const, ← lineVal_at hP] at e'
      simp only [cc]
      exact phi_rel (Fq12.pow_fullExp_of hv₁) (Fq12.pow_fullExp_of hv₂) (Fq12.pow_fullExp_ofFq2 ha) e'

/-! ### Negation and Frobenius -/

theorem lv_conj (x y : Fq) (l m : Fq2) : lv x (-y) l m = Fq12.conj (lv x y l m) := by
  rw [lv_eq, lv_eq]
  ext1
  · rfl
  · ext1 <;> simp

theorem lv_neg (x y : Fq) (l m : Fq2) : lv x y (-l) (-m) = -Fq12.conj (lv x y l m) := by
  rw [lv_eq, lv_eq]
  ext1
  · ext1 <;> simp
  · ext1 <;> simp

theorem cc_neg_left (P : E1) (A B : E2) : cc (-P) A B = (cc P A B)⁻¹ := by
  rcases zero_or_isAt P with rfl | ⟨x, y, hP⟩
  · rw [neg_zero, cc_zero, inv_one]
  by_cases hd : A = 0 ∨ B = 0 ∨ A + B = 0
  · rw [cc_degenerate _ hd, cc_degenerate _ hd, inv_one]
  · push Not at hd
    obtain ⟨l, m, x₁, x₂, x₃, hl⟩ := LD.exists hd.1 hd.2.1 hd.2.2
    rw [cc_LD hP hl, cc_LD hP.neg hl, phi_congr (lv_conj x y l m), phi_conj]

theorem cc_neg_right (P : E1) (A B : E2) : cc P (-A) (-B) = (cc P A B)⁻¹ := by
  rcases zero_or_isAt P with rfl | ⟨x, y, hP⟩
  · rw [cc_zero, cc_zero, inv_one]
  by_cases hd : A = 0 ∨ B = 0 ∨ A + B = 0
  · have hd' : -A = 0 ∨ -B = 0 ∨ -A + -B = 0 := by rwa [neg_eq_zero, neg_eq_zero, ← neg_add, neg_eq_zero]
    rw [cc_degenerate _ hd, cc_degenerate _ hd', inv_one]
  · push Not at hd
    obtain ⟨l, m, x₁, x₂, x₃, hl⟩ := LD.exists hd.1 hd.2.1 hd.2.2
    rw [cc_LD hP hl, cc_LD hP hl.neg, phi_congr (lv_neg x y l m), phi_neg, phi_conj]

theorem Fq12.ofFq_pow_q (x : Fq) : Fq12.ofFq x ^ q = Fq12.ofFq x := by rw [← map_pow, Fq.pow_q]

theorem twX_pow_q (x : Fq) : twX x ^ q = Fq12.ofFq2 (gam ^ 2) * twX x := by
  rw [twX, mul_pow, Fq12.ofFq_pow_q, ← pow_mul, mul_comm 2 q, pow_mul, gam_w, map_pow]; ring

theorem twY_pow_q (y : Fq) : twY y ^ q = Fq12.ofFq2 (gam ^ 3) * twY y := by
  rw [twY, mul_pow, Fq12.ofFq_pow_q, ← pow_mul, mul_comm 3 q, pow_mul, gam_w, map_pow]; ring

theorem lv_frob (x y : Fq) (l m : Fq2) :
    lv x y l m ^ q = Fq12.ofFq2 (gam ^ 3) * lv x y (psi.β / psi.α * psi.f l) (psi.β * psi.f m) := by
  have h := gam_ne
  rw [lv, lv, sub_pow_char, add_pow_char, mul_pow, twX_pow_q, twY_pow_q, ← map_pow, ← map_pow, Fq2.pow_q, Fq2.pow_q]
  have e1 : psi.β / psi.α * psi.f l * gam ^ 3 = Fq2.conj l * gam ^ 2 := by
    change (gam ^ 3)⁻¹ / (gam ^ 2)⁻¹ * Fq2.conj l * gam ^ 3 = _
    field_simp
  have e2 : psi.β * psi.f m * gam ^ 3 = Fq2.conj m := by
    change (gam ^ 3)⁻¹ * Fq2.conj m * gam ^ 3 = _
    field_simp
  have e1' := congrArg Fq12.ofFq2 e1
  have e2' := congrArg Fq12.ofFq2 e2
  rw [map_mul Fq12.ofFq2 _ (gam ^ 3), map_mul Fq12.ofFq2 _ (gam ^ 2)] at e1'
  rw [map_mul Fq12.ofFq2 _ (gam ^ 3)] at e2'
  linear_combination twX x * e1' + e2'

theorem cc_psi (P : E1) (A B : E2) : cc P (psi.hom A) (psi.hom B) = cc P A B ^ q := by
  rcases zero_or_isAt P with rfl | ⟨x, y, hP⟩
  · rw [cc_zero, cc_zero, one_pow]
  by_cases hd : A = 0 ∨ B = 0 ∨ A + B = 0
  · have hd' : psi.hom A = 0 ∨ psi.hom B = 0 ∨ psi.hom A + psi.hom B = 0 := by
      rcases hd with h | h | h
      · exact Or.inl (by rw [h, map_zero])
      · exact Or.inr (Or.inl (by rw [h, map_zero]))
      · exact Or.inr (Or.inr (by rw [← map_add, h, map_zero]))
    rw [cc_degenerate _ hd, cc_degenerate _ hd', one_pow]
  · push Not at hd
    obtain ⟨l, m, x₁, x₂, x₃, hl⟩ := LD.exists hd.1 hd.2.1 hd.2.2
    rw [cc_LD hP hl, cc_LD hP (psi.hom_LD hl)]
    exact phi_frob (Fq12.pow_fullExp_ofFq2 (pow_ne_zero 3 gam_ne)) (lv_frob x y l m)

end Bls
