import Verif.Proof.Nondegen
import Verif.Proof.ClearData
/-
The endomorphism `(u² + u - 1) - (u + 1)ψ + 2ψ²` of E2 maps every point into the r-torsion: it kills the
torsion at every other prime dividing the number of points.
-/
namespace Bls.Grp

variable {G : Type*} [AddCommGroup G]

/-- `(u² + u - 1)X - (u + 1)ψX + 2ψ²X`. -/
def clr (u : ℕ) (ψ : G →+ G) : G →+ G :=
  (u * u + u) • AddMonoidHom.id G - AddMonoidHom.id G - (u + 1) • ψ + 2 • ψ.comp ψ

theorem clr_apply (u : ℕ) (ψ : G →+ G) (X : G) :
    clr u ψ X = (u * u + u) • X - X - (u + 1) • ψ X + 2 • ψ (ψ X) := rfl

theorem clr_eig {u l k : ℕ} {ψ : G →+ G} {B : G} (h : l • B = 0) (hψ : ψ B = k • B)
    (hd : (u * u + u + 2 * (k * k)) % l = (1 + (u + 1) * k) % l) : clr u ψ B = 0 := by
  have e : (u * u + u + 2 * (k * k)) • B = (1 + (u + 1) * k) • B := by
    rw [← Nat.div_add_mod (u * u + u + 2 * (k * k)) l, ← Nat.div_add_mod (1 + (u + 1) * k) l, hd,
      add_nsmul, add_nsmul, mul_nsmul, mul_nsmul, h, nsmul_zero, nsmul_zero]
  rw [clr_apply, hψ, map_nsmul, hψ, ← mul_nsmul', ← mul_nsmul', ← mul_nsmul', mul_assoc 2 k k]
  rw [add_nsmul, add_nsmul _ 1, one_nsmul] at e
  calc _ = (u * u + u) • B + (2 * (k * k)) • B - (B + ((u + 1) * k) • B) := by abel
    _ = 0 := by rw [e, sub_self]

theorem clr_cyclic [Finite G] {u l k m : ℕ} {ψ : G →+ G} {B X : G} (hl : l.Prime)
    (hc : Nat.card G = m * l) (hm : ¬ l ∣ m) (h0 : B ≠ 0) (h : l • B = 0) (hψ : ψ B = k • B)
    (hd : (u * u + u + 2 * (k * k)) % l = (1 + (u + 1) * k) % l) (hX : l • X = 0) : clr u ψ X = 0 := by
  obtain ⟨j, rfl⟩ := torsion_cyclic hl hc hm h0 h hX
  rw [map_nsmul, clr_eig h hψ hd, nsmul_zero]

theorem torsion_full [Finite G] {l m : ℕ} (hl : l.Prime) (hc : Nat.card G = m * (l * l)) (hm : ¬ l ∣ m)
    {P Q X : G} (h0 : P ≠ 0) (h : l • P = 0) (hQ : l • Q = 0) (hne : Q ∉ AddSubgroup.zmultiples P)
    (hX : l • X = 0) : ∃ i j : ℕ, X = i • P + j • Q := by
  have : Fact l.Prime := ⟨hl⟩
  have hH : Nat.card (AddSubgroup.zmultiples P) = l := by
    rw [Nat.card_zmultiples, addOrderOf_eq_prime h h0]
  have hc' : Nat.card (G ⧸ AddSubgroup.zmultiples P) = m * l := by
    have := AddSubgroup.card_eq_card_quotient_mul_card_addSubgroup (AddSubgroup.zmultiples P)
    rw [hH, hc, ← mul_assoc] at this
    exact (Nat.eq_of_mul_eq_mul_right hl.pos this).symm
  obtain ⟨j, hj⟩ := torsion_cyclic hl hc' hm (P := (Q : G ⧸ AddSubgroup.zmultiples P))
    (Q := (X : G ⧸ AddSubgroup.zmultiples P)) (by rwa [Ne, QuotientAddGroup.eq_zero_iff])
    (by rw [← QuotientAddGroup.mk_nsmul, hQ, QuotientAddGroup.mk_zero])
    (by rw [← QuotientAddGroup.mk_nsmul, hX, QuotientAddGroup.mk_zero])
  have hs : X - j • Q ∈ AddSubgroup.zmultiples P := by
    rw [← QuotientAddGroup.eq_zero_iff, QuotientAddGroup.mk_sub, QuotientAddGroup.mk_nsmul, hj, sub_self]
  obtain ⟨i, hi⟩ := mem_zmultiples_nat hl.pos h hs
  exact ⟨i, j, by rw [← hi]; abel⟩

theorem zsmul_of_dvd {l : ℕ} {n : ℤ} {P : G} (h : l • P = 0) (hd : n % l = 0) : n • P = 0 := by
  obtain ⟨k, rfl⟩ := Int.dvd_of_emod_eq_zero hd
  rw [mul_comm, mul_zsmul, natCast_zsmul, h, zsmul_zero]

theorem clr_full [Finite G] {u l m : ℕ} {a b : ℤ} {ψ α : G →+ G} (hα : ∀ X, ψ (α X) = α (ψ X)) {P X : G} (hl : l.Prime)
    (hc : Nat.card G = m * (l * l)) (hm : ¬ l ∣ m) (h0 : P ≠ 0) (h : l • P = 0)
    (hne : α P ∉ AddSubgroup.zmultiples P) (hs : P + α P + α (α P) = 0)
    (hψ : ψ P = a • P + b • α P)
    (hd1 : ((u : ℤ) * u + u - 1 - (u + 1) * a + 2 * (a * a - b * b)) % l = 0)
    (hd2 : (2 * (2 * (a * b) - b * b) - ((u : ℤ) + 1) * b) % l = 0) (hX : l • X = 0) : clr u ψ X = 0 := by
  have hQ : l • α P = 0 := by rw [← map_nsmul, h, map_zero]
  have hP : clr u ψ P = 0 := by
    have e2 : α (α P) = -P - α P := by rw [← sub_eq_zero, ← hs]; abel
    have e3 : ψ (ψ P) = (a * a - b * b) • P + (2 * (a * b) - b * b) • α P := by
      rw [hψ, map_add, map_zsmul, map_zsmul, hα, hψ, map_add, map_zsmul, map_zsmul, e2]
      module
    have e1 := zsmul_of_dvd h hd1
    have e4 := zsmul_of_dvd hQ hd2
    rw [clr_apply, e3, hψ]
    calc _ = ((u : ℤ) * u + u - 1 - (u + 1) * a + 2 * (a * a - b * b)) • P +
        (2 * (2 * (a * b) - b * b) - ((u : ℤ) + 1) * b) • α P := by module
      _ = 0 := by rw [e1, e4, add_zero]
  have hc2 : ∀ Y, clr u ψ (α Y) = α (clr u ψ Y) := by
    intro Y
    rw [clr_apply, clr_apply, hα, hα]
    simp only [map_add, map_sub, map_nsmul]
  obtain ⟨i, j, rfl⟩ := torsion_full hl hc hm h0 h hQ hne hX
  rw [map_add, map_nsmul, map_nsmul, hc2, hP, map_zero, nsmul_zero, nsmul_zero, add_zero]

end Bls.Grp

namespace Bls
open Chain

theorem psi_at {x y x' y' : N2} {P : E2} (hP : IsAt P x.toF y.toF)
    (hx : N2.mul x' (N2.mul gammaN gammaN) = N2.conj x)
    (hy : N2.mul y' (N2.mul gammaN (N2.mul gammaN gammaN)) = N2.conj y) :
    IsAt (psi.hom P) x'.toF y'.toF := by
  have h := psi.hom_at hP
  have hg := gam_ne
  have ex : x'.toF = psi.α * psi.f x.toF := by
    have := congrArg N2.toF hx
    rw [N2.toF_mul, N2.toF_mul, N2.toF_conj] at this
    change x'.toF = (gam ^ 2)⁻¹ * Fq2.conj x.toF
    rw [← this, ← gam]
    field_simp
  have ey : y'.toF = psi.β * psi.f y.toF := by
    have := congrArg N2.toF hy
    rw [N2.toF_mul, N2.toF_mul, N2.toF_mul, N2.toF_conj] at this
    change y'.toF = (gam ^ 3)⁻¹ * Fq2.conj y.toF
    rw [← this, ← gam]
    field_simp
  rwa [← ex, ← ey] at h

/-- A chain for `k•P` ending in `ψP`. -/
theorem psi_eig {x y x' y' : N2} {P : E2} {k : ℕ} {t : List (Bool × N2)} (hP : IsAt P x.toF y.toF)
    (hr : run N2.ops x y t 1 x y = some (k, x', y'))
    (hx : N2.mul x' (N2.mul gammaN gammaN) = N2.conj x)
    (hy : N2.mul y' (N2.mul gammaN (N2.mul gammaN gammaN)) = N2.conj y) : psi.hom P = k • P :=
  (psi_at hP hx hy).inj (run2 hP hr)

theorem conj_beta : Fq2.conj (N2.toF ⟨betaLit, 0⟩) = N2.toF ⟨betaLit, 0⟩ := by
  rw [← N2.toF_conj]
  have : N2.conj ⟨betaLit, 0⟩ = ⟨betaLit, 0⟩ := by decide +kernel
  rw [this]

theorem psi_aut (X : E2) : psi.hom (aut2.hom X) = aut2.hom (psi.hom X) := by
  rcases zero_or_isAt X with rfl | ⟨x, y, hX⟩
  · simp only [map_zero]
  · have h1 := psi.hom_at (aut2_at hX)
    have h2 := aut2_at (psi.hom_at hX)
    have e : psi.α * psi.f (N2.toF ⟨betaLit, 0⟩ * x) = N2.toF ⟨betaLit, 0⟩ * (psi.α * psi.f x) := by
      rw [map_mul]
      change psi.α * (Fq2.conj (N2.toF ⟨betaLit, 0⟩) * _) = _
      rw [conj_beta]; ring
    rw [e] at h1
    exact h1.inj h2

theorem clr_13 {X : E2} (hX : 13 • X = 0) : Grp.clr blsU psi.hom X = 0 := by
  have on := on2 (x := b13x) (y := b13y) (by decide +kernel)
  have hP := pt_isAt on
  generalize pt _ _ on = P at hP
  have hl := order2 hP b13_run (l := 13) (by decide +kernel) rfl
  have hs := aut2_sum hP (N2.ops_sound.nz _ (by decide +kernel))
  have hψ : psi.hom P = (0 : ℤ) • P + (8 : ℤ) • aut2.hom P := by
    have h1 := psi_at hP (x' := b13PsiX) (y' := b13PsiY) (by decide +kernel) (by decide +kernel)
    have h2 := aut2_at (run2 hP (t := b13BSlopes) (k := 8) (x' := b13BX) (y' := b13BY) (by decide +kernel))
    rw [← N2.toF_mul, map_nsmul] at h2
    have e : N2.mul ⟨betaLit, 0⟩ b13BX = b13PsiX := by decide +kernel
    have e2 : b13BY = b13PsiY := by decide +kernel
    rw [e, e2] at h2
    rw [h1.inj h2]
    module
  have hm : ¬ 13 ∣ 23 * 23 * 2713 * 11953 * 262069 * pLit * rLit := fun hd =>
    absurd (Nat.mod_eq_zero_of_dvd hd) (by decide +kernel)
  have hc : Nat.card E2 = 23 * 23 * 2713 * 11953 * 262069 * pLit * rLit * (13 * 13) := by
    rw [E2.card, r_eq]; decide +kernel
  have hne : aut2.hom P ∉ AddSubgroup.zmultiples P := by
    refine Grp.indep_split (k₁ := 3) (k₂ := 9) (by norm_num) hP.ne_zero hl hs (by norm_num) (by norm_num) ?_ ?_
    · exact aut2_ne hP (t := b13RSlopes0) (x' := b13RX0) (y' := b13RY0) (by decide +kernel) (by decide +kernel)
    · exact aut2_ne hP (t := b13RSlopes1) (x' := b13RX1) (y' := b13RY1) (by decide +kernel) (by decide +kernel)
  exact Grp.clr_full psi_aut (by norm_num) hc hm hP.ne_zero hl hne hs hψ (by decide +kernel) (by decide +kernel) hX

theorem clr_23 {X : E2} (hX : 23 • X = 0) : Grp.clr blsU psi.hom X = 0 := by
  have on := on2 (x := b23x) (y := b23y) (by decide +kernel)
  have hP := pt_isAt on
  generalize pt _ _ on = P at hP
  have hl := order2 hP b23_run (l := 23) (by decide +kernel) rfl
  have hs := aut2_sum hP (N2.ops_sound.nz _ (by decide +kernel))
  have hψ : psi.hom P = (3 : ℤ) • P + (13 : ℤ) • aut2.hom P := by
    have h1 := psi_at hP (x' := b23PsiX) (y' := b23PsiY) (by decide +kernel) (by decide +kernel)
    have h2 := aut2_at (run2 hP (t := b23BSlopes) (k := 13) (x' := b23BX) (y' := b23BY) (by decide +kernel))
    have h3 := run2 hP (t := b23ASlopes) (k := 3) (x' := b23AX) (y' := b23AY) (by decide +kernel)
    rw [← N2.toF_mul, map_nsmul] at h2
    have h4 := addp_sound N2.ops_sound h3 h2 (l := b23L) (x' := b23PsiX) (y' := b23PsiY) (by decide +kernel)
    rw [h1.inj h4]
    module
  have hm : ¬ 23 ∣ 13 * 13 * 2713 * 11953 * 262069 * pLit * rLit := fun hd =>
    absurd (Nat.mod_eq_zero_of_dvd hd) (by decide +kernel)
  have hc : Nat.card E2 = 13 * 13 * 2713 * 11953 * 262069 * pLit * rLit * (23 * 23) := by
    rw [E2.card, r_eq]; decide +kernel
  have hne : aut2.hom P ∉ AddSubgroup.zmultiples P :=
    Grp.indep_inert (by norm_num) (by norm_num) hP.ne_zero hl hs
  exact Grp.clr_full psi_aut (by norm_num) hc hm hP.ne_zero hl hne hs hψ (by decide +kernel) (by decide +kernel) hX

theorem clr_2713 {X : E2} (hX : 2713 • X = 0) : Grp.clr blsU psi.hom X = 0 := by
  have on := on2 (x := b2713x) (y := b2713y) (by decide +kernel)
  have hP := pt_isAt on
  generalize pt _ _ on = P at hP
  have hl := order2 hP b2713_run (l := 2713) (by decide +kernel) rfl
  have hψ := psi_eig hP (x' := b2713PsiX) (y' := b2713PsiY) (k := b2713Lam) (t := b2713PsiSlopes) (by decide +kernel)
    (by decide +kernel) (by decide +kernel)
  have hm : ¬ 2713 ∣ 13 * 13 * (23 * 23) * 11953 * 262069 * pLit * rLit := fun hd =>
    absurd (Nat.mod_eq_zero_of_dvd hd) (by decide +kernel)
  have hc : Nat.card E2 = 13 * 13 * (23 * 23) * 11953 * 262069 * pLit * rLit * 2713 := by
    rw [E2.card, r_eq]; decide +kernel
  exact Grp.clr_cyclic (by norm_num) hc hm hP.ne_zero hl hψ (by decide +kernel) hX

theorem clr_11953 {X : E2} (hX : 11953 • X = 0) : Grp.clr blsU psi.hom X = 0 := by
  have on := on2 (x := b11953x) (y := b11953y) (by decide +kernel)
  have hP := pt_isAt on
  generalize pt _ _ on = P at hP
  have hl := order2 hP b11953_run (l := 11953) (by decide +kernel) rfl
  have hψ := psi_eig hP (x' := b11953PsiX) (y' := b11953PsiY) (k := b11953Lam) (t := b11953PsiSlopes) (by decide +kernel)
    (by decide +kernel) (by decide +kernel)
  have hm : ¬ 11953 ∣ 13 * 13 * (23 * 23) * 2713 * 262069 * pLit * rLit := fun hd =>
    absurd (Nat.mod_eq_zero_of_dvd hd) (by decide +kernel)
  have hc : Nat.card E2 = 13 * 13 * (23 * 23) * 2713 * 262069 * pLit * rLit * 11953 := by
    rw [E2.card, r_eq]; decide +kernel
  exact Grp.clr_cyclic (by norm_num) hc hm hP.ne_zero hl hψ (by decide +kernel) hX

theorem clr_262069 {X : E2} (hX : 262069 • X = 0) : Grp.clr blsU psi.hom X = 0 := by
  have on := on2 (x := b262069x) (y := b262069y) (by decide +kernel)
  have hP := pt_isAt on
  generalize pt _ _ on = P at hP
  have hl := order2 hP b262069_run (l := 262069) (by decide +kernel) rfl
  have hψ := psi_eig hP (x' := b262069PsiX) (y' := b262069PsiY) (k := b262069Lam) (t := b262069PsiSlopes) (by decide +kernel)
    (by decide +kernel) (by decide +kernel)
  have hm : ¬ 262069 ∣ 13 * 13 * (23 * 23) * 2713 * 11953 * pLit * rLit := fun hd =>
    absurd (Nat.mod_eq_zero_of_dvd hd) (by decide +kernel)
  have hc : Nat.card E2 = 13 * 13 * (23 * 23) * 2713 * 11953 * pLit * rLit * 262069 := by
    rw [E2.card, r_eq]; decide +kernel
  exact Grp.clr_cyclic (by norm_num) hc hm hP.ne_zero hl hψ (by decide +kernel) hX

theorem clr_P {X : E2} (hX : pLit • X = 0) : Grp.clr blsU psi.hom X = 0 := by
  have on := on2 (x := bPx) (y := bPy) (by decide +kernel)
  have hP := pt_isAt on
  generalize pt _ _ on = P at hP
  have hl := order2 hP bP_run (l := pLit) (by decide +kernel) rfl
  have hψ := psi_eig hP (x' := bPPsiX) (y' := bPPsiY) (k := bPLam) (t := bPPsiSlopes) (by decide +kernel)
    (by decide +kernel) (by decide +kernel)
  have hm : ¬ pLit ∣ 13 * 13 * (23 * 23) * 2713 * 11953 * 262069 * rLit := fun hd =>
    absurd (Nat.mod_eq_zero_of_dvd hd) (by decide +kernel)
  have hc : Nat.card E2 = 13 * 13 * (23 * 23) * 2713 * 11953 * 262069 * rLit * pLit := by
    rw [E2.card, r_eq]; decide +kernel
  exact Grp.clr_cyclic prime448 hc hm hP.ne_zero hl hψ (by decide +kernel) hX

/-- `r·13·23·2713·11953·262069·p` kills E2. -/
theorem E2.exponent (X : E2) : (13 * 23 * 2713 * 11953 * 262069 * pLit * rLit) • X = 0 := by
  have key : ∀ l m : ℕ, l.Prime → Full (G := E2) l → l * l * m = h2 * r → (l * m) • X = 0 := by
    intro l m hl hf e
    exact hf.smul hl (by rw [E2.card, e]) X
  have a1 := key 13 _ (by norm_num) b13_full (show 13 * 13 * (23 * 23 * 2713 * 11953 * 262069 * pLit * rLit) = _ by rw [r_eq]; decide +kernel)
  have a2 := key 23 _ (by norm_num) b23_full (show 23 * 23 * (13 * 13 * 2713 * 11953 * 262069 * pLit * rLit) = _ by rw [r_eq]; decide +kernel)
  rw [← addOrderOf_dvd_iff_nsmul_eq_zero] at a1 a2 ⊢
  have g := Nat.dvd_gcd a1 a2
  refine g.trans (Nat.dvd_of_mod_eq_zero ?_)
  decide +kernel

/-- The endomorphism of `clearH2` maps into the r-torsion. -/
theorem clr_torsion (X : E2) : r • Grp.clr blsU psi.hom X = 0 := by
  rw [← map_nsmul, r_eq]
  have hY := E2.exponent X
  have key : ∀ l m : ℕ, (∀ Z : E2, l • Z = 0 → Grp.clr blsU psi.hom Z = 0) →
      l * m = 13 * 23 * 2713 * 11953 * 262069 * pLit → m • Grp.clr blsU psi.hom (rLit • X) = 0 := by
    intro l m hk e
    rw [← map_nsmul]
    refine hk _ ?_
    rw [← mul_nsmul', ← mul_nsmul', e, hY]
  have a1 := key 13 (23 * 2713 * 11953 * 262069 * pLit) (fun Z h => clr_13 h) (by decide +kernel)
  have a2 := key 23 (13 * 2713 * 11953 * 262069 * pLit) (fun Z h => clr_23 h) (by decide +kernel)
  have a3 := key 2713 (13 * 23 * 11953 * 262069 * pLit) (fun Z h => clr_2713 h) (by decide +kernel)
  have a4 := key 11953 (13 * 23 * 2713 * 262069 * pLit) (fun Z h => clr_11953 h) (by decide +kernel)
  have a5 := key 262069 (13 * 23 * 2713 * 11953 * pLit) (fun Z h => clr_262069 h) (by decide +kernel)
  have a6 := key pLit (13 * 23 * 2713 * 11953 * 262069) (fun Z h => clr_P h) (by decide +kernel)
  generalize Grp.clr blsU psi.hom (rLit • X) = Z at *
  rw [← addOrderOf_dvd_iff_nsmul_eq_zero] at a1 a2 a3 a4 a5 a6
  have g := Nat.dvd_gcd (Nat.dvd_gcd (Nat.dvd_gcd a1 a2) (Nat.dvd_gcd a3 a4)) (Nat.dvd_gcd a5 a6)
  rw [← AddMonoid.addOrderOf_eq_one_iff, ← Nat.dvd_one]
  refine g.trans (Nat.dvd_of_mod_eq_zero ?_)
  decide +kernel

end Bls
