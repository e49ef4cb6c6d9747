import Verif.Proof.GroupOrders
import Verif.Proof.OrderData
import Verif.Proof.BigPrimes
import Verif.Proof.Gens
import Verif.Proof.LineData
import Verif.Proof.FinalExp
/-
The number of points of the two curves: `#E1 = h1·r` and `#E2 = h2·r`.
-/
set_option exponentiation.threshold 1000
namespace Bls
open Chain

/-! ### The automorphism `(x, y) ↦ (βx, y)` -/

theorem beta_nat : (betaLit ^ 2 + betaLit + 1) % qLit = 0 := by decide +kernel

theorem beta_root : (betaLit : Fq) ^ 2 + (betaLit : Fq) + 1 = 0 := by
  have := N2.cast_eq_zero.mpr beta_nat
  simpa only [Nat.cast_add, Nat.cast_pow, Nat.cast_one] using this


section
variable {F : Type*} [Field F] [DecidableEq F] {b : F} [GoodCurve b]

/-- The curve map given by a cube root of unity. -/
noncomputable def autData (β : F) (h : β ^ 2 + β + 1 = 0) : TwistData b b where
  f := RingHom.id F
  α := β
  β := 1
  α_ne := by
    intro h0
    rw [h0] at h
    exact one_ne_zero (by linear_combination h)
  sq := by linear_combination (1 - β) * h
  hb := by simp

theorem aut_sum {β : F} (h : β ^ 2 + β + 1 = 0) {P : (curve b).Point} {x y : F} (hP : IsAt P x y)
    (hx : x ≠ 0) : P + (autData β h).hom P + (autData β h).hom ((autData β h).hom P) = 0 := by
  have h1 : IsAt ((autData (b := b) β h).hom P) (β * x) y := by
    have := (autData (b := b) β h).hom_at hP
    simpa [autData] using this
  have h2 : IsAt ((autData (b := b) β h).hom ((autData (b := b) β h).hom P)) (β * (β * x)) y := by
    have := (autData (b := b) β h).hom_at h1
    simpa [autData] using this
  have hb : β ≠ 1 := by
    intro e
    rw [e] at h
    exact GoodCurve.three_ne (b := b) (by linear_combination h)
  have h3 : IsAt (P + (autData (b := b) β h).hom P) (β * (β * x)) (-y) := by
    refine hP.add_of_X_ne (l := 0) h1 ?_ ?_ ?_ ?_
    · intro e
      refine hb (mul_right_cancel₀ hx ?_)
      linear_combination -e
    · ring
    · linear_combination x * h
    · ring
  rw [add_comm]
  exact h2.add_neg h3

end

noncomputable def aut1 : TwistData (4 : Fq) (4 : Fq) := autData (betaLit : Fq) beta_root

theorem beta2_root : (N2.toF ⟨betaLit, 0⟩) ^ 2 + N2.toF ⟨betaLit, 0⟩ + 1 = 0 := by
  have h := beta_root
  ext1
  · simp only [N2.toF, sq, Fq2.add_c0, Fq2.mul_c0, Fq2.one_c0, Fq2.zero_c0, Nat.cast_zero]; linear_combination h
  · simp [N2.toF, sq]

noncomputable def aut2 : TwistData b2 b2 := autData (N2.toF ⟨betaLit, 0⟩) beta2_root

theorem aut1_sum {P : E1} {x y : Fq} (hP : IsAt P x y) (hx : x ≠ 0) :
    P + aut1.hom P + aut1.hom (aut1.hom P) = 0 := aut_sum beta_root hP hx

theorem aut2_sum {P : E2} {x y : Fq2} (hP : IsAt P x y) (hx : x ≠ 0) :
    P + aut2.hom P + aut2.hom (aut2.hom P) = 0 := aut_sum beta2_root hP hx

theorem aut1_at {P : E1} {x y : Fq} (hP : IsAt P x y) : IsAt (aut1.hom P) ((betaLit : Fq) * x) y := by
  have := aut1.hom_at hP
  simpa [aut1, autData] using this

theorem aut2_at {P : E2} {x y : Fq2} (hP : IsAt P x y) :
    IsAt (aut2.hom P) (N2.toF ⟨betaLit, 0⟩ * x) y := by
  have := aut2.hom_at hP
  simpa [aut2, autData] using this

attribute [irreducible] aut1 aut2

/-! ### Points with a checked multiple -/

theorem qLit_pos' : 0 < qLit := by rw [← q_eq]; exact q_pos

theorem run1 {x y k x' y' : ℕ} {P : E1} {t : List (Bool × ℕ)} (hP : IsAt P (x : Fq) (y : Fq))
    (h : run (natOps qLit) x y t 1 x y = some (k, x', y')) : IsAt (k • P) (x' : Fq) (y' : Fq) :=
  run_sound (natOps_sound (F := Fq) qLit_pos' Fq.qLit_eq_zero) hP t 1 x y k x' y' (by simpa using hP) h

theorem run2 {x y x' y' : N2} {k : ℕ} {P : E2} {t : List (Bool × N2)} (hP : IsAt P x.toF y.toF)
    (h : run N2.ops x y t 1 x y = some (k, x', y')) : IsAt (k • P) x'.toF y'.toF :=
  run_sound N2.ops_sound hP t 1 x y k x' y' (by simpa using hP) h

theorem order1 {x y l k y' : ℕ} {P : E1} {t : List (Bool × ℕ)} (hP : IsAt P (x : Fq) (y : Fq))
    (h : run (natOps qLit) x y t 1 x y = some (k, x, y')) (hk : k + 1 = l)
    (hy : (y + y') % qLit = 0) : l • P = 0 := by
  have h1 := run1 hP h
  have e : (y' : Fq) = -(y : Fq) := by
    have := N2.cast_eq_zero.mpr hy
    rw [Nat.cast_add] at this
    linear_combination this
  rw [e] at h1
  rw [← hk, succ_nsmul, add_comm]
  exact hP.add_neg h1

theorem order2 {x y y' : N2} {k l : ℕ} {P : E2} {t : List (Bool × N2)} (hP : IsAt P x.toF y.toF)
    (h : run N2.ops x y t 1 x y = some (k, x, y')) (hk : k + 1 = l) (hy : N2.neg y = y') :
    l • P = 0 := by
  have h1 := run2 hP h
  rw [← hy, N2.toF_neg] at h1
  rw [← hk, succ_nsmul, add_comm]
  exact hP.add_neg h1

theorem on1 {x y : ℕ} (h : y ^ 2 % qLit = (x ^ 3 + 4) % qLit) : (y : Fq) ^ 2 = (x : Fq) ^ 3 + 4 :=
  cast_curve Fq.qLit_eq_zero h

theorem on2 {x y : N2} (h : N2.mul y y = N2.add (N2.mul (N2.mul x x) x) ⟨4, 4⟩) :
    y.toF ^ 2 = x.toF ^ 3 + b2 := by
  have := congrArg N2.toF h
  rw [N2.toF_add, N2.toF_mul, N2.toF_mul, N2.toF_mul, N2.toF_b2] at this
  rw [sq, this]; ring

theorem ne1 {a c : ℕ} (h : (natOps qLit).nz ((natOps qLit).sub a c) = true) : (a : Fq) ≠ (c : Fq) := by
  have hs := natOps_sound (F := Fq) qLit_pos' Fq.qLit_eq_zero
  have := hs.nz _ h
  rw [hs.sub] at this
  exact sub_ne_zero.mp this

theorem ne2 {a c : N2} (h : N2.ops.nz (N2.ops.sub a c) = true) : a.toF ≠ c.toF := by
  have := N2.ops_sound.nz _ h
  rw [N2.ops_sound.sub] at this
  exact sub_ne_zero.mp this

theorem nz1 {a : ℕ} (h : (natOps qLit).nz a = true) : (a : Fq) ≠ 0 :=
  (natOps_sound (F := Fq) qLit_pos' Fq.qLit_eq_zero).nz _ h

/-- The image of `P` under the automorphism is not `k•P`. -/
theorem aut1_ne {x y k x' y' : ℕ} {P : E1} {t : List (Bool × ℕ)} (hP : IsAt P (x : Fq) (y : Fq))
    (h : run (natOps qLit) x y t 1 x y = some (k, x', y'))
    (hne : (natOps qLit).nz ((natOps qLit).sub ((natOps qLit).mul betaLit x) x') = true) :
    aut1.hom P ≠ k • P := by
  intro e
  have h1 := run1 hP h
  have h2 := aut1_at hP
  rw [e] at h2
  have h3 := ne1 hne
  rw [(natOps_sound (F := Fq) qLit_pos' Fq.qLit_eq_zero).mul] at h3
  exact h3 (h2.coord h1).1

theorem aut2_ne {x y x' y' : N2} {k : ℕ} {P : E2} {t : List (Bool × N2)} (hP : IsAt P x.toF y.toF)
    (h : run N2.ops x y t 1 x y = some (k, x', y'))
    (hne : N2.ops.nz (N2.ops.sub (N2.ops.mul ⟨betaLit, 0⟩ x) x') = true) :
    aut2.hom P ≠ k • P := by
  intro e
  have h1 := run2 hP h
  have h2 := aut2_at hP
  rw [e] at h2
  have h3 := ne2 hne
  rw [N2.ops_sound.mul] at h3
  exact h3 (h2.coord h1).1

/-- Two independent points of order `l`. -/
def Full {G : Type*} [AddCommGroup G] (l : ℕ) : Prop :=
  ∃ P Q : G, P ≠ 0 ∧ l • P = 0 ∧ l • Q = 0 ∧ Q ∉ AddSubgroup.zmultiples P

theorem a11_run : run (natOps qLit) a11x a11y a11Slopes 1 a11x a11y = some (11 - 1, a11x, qLit - a11y) := by
  decide +kernel

theorem a11_full : Full (G := E1) 11 := by
  have on := on1 (x := a11x) (y := a11y) (by decide +kernel)
  have hP := pt_isAt on
  generalize pt _ _ on = P at hP
  have hl := order1 hP a11_run (l := 11) (by decide +kernel) (by decide +kernel)
  have hs := aut1_sum hP (nz1 (by decide +kernel))
  refine ⟨P, aut1.hom P, hP.ne_zero, hl, by rw [← map_nsmul, hl, map_zero], ?_⟩
  exact Grp.indep_inert (by norm_num) (by norm_num) hP.ne_zero hl hs

theorem a10177_run : run (natOps qLit) a10177x a10177y a10177Slopes 1 a10177x a10177y = some (10177 - 1, a10177x, qLit - a10177y) := by
  decide +kernel

theorem a10177_full : Full (G := E1) 10177 := by
  have on := on1 (x := a10177x) (y := a10177y) (by decide +kernel)
  have hP := pt_isAt on
  generalize pt _ _ on = P at hP
  have hl := order1 hP a10177_run (l := 10177) (by decide +kernel) (by decide +kernel)
  have hs := aut1_sum hP (nz1 (by decide +kernel))
  refine ⟨P, aut1.hom P, hP.ne_zero, hl, by rw [← map_nsmul, hl, map_zero], ?_⟩
  refine Grp.indep_split (k₁ := 4773) (k₂ := 5403) (by norm_num) hP.ne_zero hl hs (by norm_num) (by norm_num) ?_ ?_
  · exact aut1_ne hP (t := a10177RSlopes0) (x' := a10177RX0) (y' := a10177RY0) (by decide +kernel) (by decide +kernel)
  · exact aut1_ne hP (t := a10177RSlopes1) (x' := a10177RX1) (y' := a10177RY1) (by decide +kernel) (by decide +kernel)

theorem a859267_run : run (natOps qLit) a859267x a859267y a859267Slopes 1 a859267x a859267y = some (859267 - 1, a859267x, qLit - a859267y) := by
  decide +kernel

theorem a859267_full : Full (G := E1) 859267 := by
  have on := on1 (x := a859267x) (y := a859267y) (by decide +kernel)
  have hP := pt_isAt on
  generalize pt _ _ on = P at hP
  have hl := order1 hP a859267_run (l := 859267) (by decide +kernel) (by decide +kernel)
  have hs := aut1_sum hP (nz1 (by decide +kernel))
  refine ⟨P, aut1.hom P, hP.ne_zero, hl, by rw [← map_nsmul, hl, map_zero], ?_⟩
  refine Grp.indep_split (k₁ := 119571) (k₂ := 739695) (by norm_num) hP.ne_zero hl hs (by norm_num) (by norm_num) ?_ ?_
  · exact aut1_ne hP (t := a859267RSlopes0) (x' := a859267RX0) (y' := a859267RY0) (by decide +kernel) (by decide +kernel)
  · exact aut1_ne hP (t := a859267RSlopes1) (x' := a859267RX1) (y' := a859267RY1) (by decide +kernel) (by decide +kernel)

theorem a52437899_run : run (natOps qLit) a52437899x a52437899y a52437899Slopes 1 a52437899x a52437899y = some (52437899 - 1, a52437899x, qLit - a52437899y) := by
  decide +kernel

theorem a52437899_full : Full (G := E1) 52437899 := by
  have on := on1 (x := a52437899x) (y := a52437899y) (by decide +kernel)
  have hP := pt_isAt on
  generalize pt _ _ on = P at hP
  have hl := order1 hP a52437899_run (l := 52437899) (by decide +kernel) (by decide +kernel)
  have hs := aut1_sum hP (nz1 (by decide +kernel))
  refine ⟨P, aut1.hom P, hP.ne_zero, hl, by rw [← map_nsmul, hl, map_zero], ?_⟩
  exact Grp.indep_inert (by norm_num) (by norm_num) hP.ne_zero hl hs

theorem b13_run : run N2.ops b13x b13y b13Slopes 1 b13x b13y = some (13 - 1, b13x, N2.neg b13y) := by
  decide +kernel

theorem b13_full : Full (G := E2) 13 := by
  have on := on2 (x := b13x) (y := b13y) (by decide +kernel)
  have hP := pt_isAt on
  generalize pt _ _ on = P at hP
  have hl := order2 hP b13_run (l := 13) (by decide +kernel) rfl
  have hs := aut2_sum hP (N2.ops_sound.nz _ (by decide +kernel))
  refine ⟨P, aut2.hom P, hP.ne_zero, hl, by rw [← map_nsmul, hl, map_zero], ?_⟩
  refine Grp.indep_split (k₁ := 3) (k₂ := 9) (by norm_num) hP.ne_zero hl hs (by norm_num) (by norm_num) ?_ ?_
  · exact aut2_ne hP (t := b13RSlopes0) (x' := b13RX0) (y' := b13RY0) (by decide +kernel) (by decide +kernel)
  · exact aut2_ne hP (t := b13RSlopes1) (x' := b13RX1) (y' := b13RY1) (by decide +kernel) (by decide +kernel)

theorem b23_run : run N2.ops b23x b23y b23Slopes 1 b23x b23y = some (23 - 1, b23x, N2.neg b23y) := by
  decide +kernel

theorem b23_full : Full (G := E2) 23 := by
  have on := on2 (x := b23x) (y := b23y) (by decide +kernel)
  have hP := pt_isAt on
  generalize pt _ _ on = P at hP
  have hl := order2 hP b23_run (l := 23) (by decide +kernel) rfl
  have hs := aut2_sum hP (N2.ops_sound.nz _ (by decide +kernel))
  refine ⟨P, aut2.hom P, hP.ne_zero, hl, by rw [← map_nsmul, hl, map_zero], ?_⟩
  exact Grp.indep_inert (by norm_num) (by norm_num) hP.ne_zero hl hs

theorem b2713_run : run N2.ops b2713x b2713y b2713Slopes 1 b2713x b2713y = some (2713 - 1, b2713x, N2.neg b2713y) := by
  decide +kernel

theorem b2713_dvd [Finite E2] : 2713 ∣ Nat.card E2 := by
  have on := on2 (x := b2713x) (y := b2713y) (by decide +kernel)
  have hP := pt_isAt on
  generalize pt _ _ on = P at hP
  have hl := order2 hP b2713_run (l := 2713) (by decide +kernel) rfl
  exact Grp.dvd_card (by norm_num) hP.ne_zero hl

theorem b11953_run : run N2.ops b11953x b11953y b11953Slopes 1 b11953x b11953y = some (11953 - 1, b11953x, N2.neg b11953y) := by
  decide +kernel

theorem b11953_dvd [Finite E2] : 11953 ∣ Nat.card E2 := by
  have on := on2 (x := b11953x) (y := b11953y) (by decide +kernel)
  have hP := pt_isAt on
  generalize pt _ _ on = P at hP
  have hl := order2 hP b11953_run (l := 11953) (by decide +kernel) rfl
  exact Grp.dvd_card (by norm_num) hP.ne_zero hl

theorem b262069_run : run N2.ops b262069x b262069y b262069Slopes 1 b262069x b262069y = some (262069 - 1, b262069x, N2.neg b262069y) := by
  decide +kernel

theorem b262069_dvd [Finite E2] : 262069 ∣ Nat.card E2 := by
  have on := on2 (x := b262069x) (y := b262069y) (by decide +kernel)
  have hP := pt_isAt on
  generalize pt _ _ on = P at hP
  have hl := order2 hP b262069_run (l := 262069) (by decide +kernel) rfl
  exact Grp.dvd_card (by norm_num) hP.ne_zero hl

theorem bP_run : run N2.ops bPx bPy bPSlopes 1 bPx bPy = some (pLit - 1, bPx, N2.neg bPy) := by
  decide +kernel

theorem bP_dvd [Finite E2] : pLit ∣ Nat.card E2 := by
  have on := on2 (x := bPx) (y := bPy) (by decide +kernel)
  have hP := pt_isAt on
  generalize pt _ _ on = P at hP
  have hl := order2 hP bP_run (l := pLit) (by decide +kernel) rfl
  exact Grp.dvd_card prime448 hP.ne_zero hl


theorem Full.dvd {G : Type*} [AddCommGroup G] [Finite G] {l : ℕ} (hl : l.Prime) (h : Full (G := G) l) :
    l * l ∣ Nat.card G := by
  obtain ⟨P, Q, h0, h1, h2, h3⟩ := h
  exact Grp.sq_dvd_card hl h0 h1 h2 h3

theorem Full.smul {G : Type*} [AddCommGroup G] [Finite G] {l m : ℕ} (hl : l.Prime) (h : Full (G := G) l)
    (hc : Nat.card G ∣ l * l * m) (X : G) : (l * m) • X = 0 := by
  obtain ⟨P, Q, h0, h1, h2, h3⟩ := h
  exact Grp.smul_eq_zero hl h0 h1 h2 h3 hc X

/-- The point `(0, 2)` of order three. -/
theorem three_torsion : ∃ T : E1, IsAt T 0 2 ∧ 3 • T = 0 := by
  have on : (2 : Fq) ^ 2 = (0 : Fq) ^ 3 + 4 := by norm_num
  have hP := pt_isAt on
  generalize pt _ _ on = P at hP
  refine ⟨P, hP, ?_⟩
  have h2 : IsAt (P + P) (0 : Fq) (-2) := by
    refine hP.add_self (l := 0) hP ?_ ?_ ?_ ?_
    · have := GoodCurve.b_ne (b := (4 : Fq)); norm_num; exact this
    · ring
    · ring
    · ring
  rw [succ_nsmul, two_nsmul, add_comm]
  exact hP.add_neg h2

instance : Fintype Fq := ZMod.fintype q
instance : Finite Fq := inferInstance
instance E1.finite : Finite E1 := (card_points_le (4 : Fq)).1
instance E2.finite : Finite E2 := (card_points_le b2).1

theorem E1.dvd_card : h1 * r ∣ Nat.card E1 := by
  obtain ⟨T, hT, hT3⟩ := three_torsion
  have d3 : 3 ∣ Nat.card E1 := Grp.dvd_card Nat.prime_three hT.ne_zero hT3
  have dr : rLit ∣ Nat.card E1 := by
    rw [← r_eq]; exact Grp.dvd_card r_prime g1Gen_ne_zero r_smul_g1Gen
  have a := Nat.Coprime.mul_dvd_of_dvd_of_dvd (by decide +kernel) d3 (a11_full.dvd (by norm_num))
  have a := Nat.Coprime.mul_dvd_of_dvd_of_dvd (by decide +kernel) a (a10177_full.dvd (by norm_num))
  have a := Nat.Coprime.mul_dvd_of_dvd_of_dvd (by decide +kernel) a (a859267_full.dvd (by norm_num))
  have a := Nat.Coprime.mul_dvd_of_dvd_of_dvd (by decide +kernel) a (a52437899_full.dvd (by norm_num))
  have a := Nat.Coprime.mul_dvd_of_dvd_of_dvd (by decide +kernel) a dr
  have e : h1 * r = 3 * (11 * 11) * (10177 * 10177) * (859267 * 859267) * (52437899 * 52437899) * rLit := by
    rw [r_eq]; decide +kernel
  rw [e]
  exact a

theorem E2.dvd_card : h2 * r ∣ Nat.card E2 := by
  have dr : rLit ∣ Nat.card E2 := by
    rw [← r_eq]; exact Grp.dvd_card r_prime g2Gen_ne_zero r_smul_g2Gen
  have a := Nat.Coprime.mul_dvd_of_dvd_of_dvd (by decide +kernel) (b13_full.dvd (by norm_num)) (b23_full.dvd (by norm_num))
  have a := Nat.Coprime.mul_dvd_of_dvd_of_dvd (by decide +kernel) a b2713_dvd
  have a := Nat.Coprime.mul_dvd_of_dvd_of_dvd (by decide +kernel) a b11953_dvd
  have a := Nat.Coprime.mul_dvd_of_dvd_of_dvd (by decide +kernel) a b262069_dvd
  have a := Nat.Coprime.mul_dvd_of_dvd_of_dvd (by decide +kernel) a bP_dvd
  have a := Nat.Coprime.mul_dvd_of_dvd_of_dvd (by decide +kernel) a dr
  have e : h2 * r = 13 * 13 * (23 * 23) * 2713 * 11953 * 262069 * pLit * rLit := by
    rw [r_eq]; decide +kernel
  rw [e]
  exact a

theorem eq_of_bounds {c N B : ℕ} (hc : 0 < c) (hd : N ∣ c) (hle : c ≤ B) (hN : B < 2 * N) : c = N := by
  obtain ⟨k, rfl⟩ := hd
  have : k < 2 := by
    by_contra hk
    have : N * 2 ≤ N * k := Nat.mul_le_mul_left N (by omega)
    omega
  have hk : k ≠ 0 := by rintro rfl; simp at hc
  have : k = 1 := by omega
  rw [this, mul_one]

theorem E1.card : Nat.card E1 = h1 * r := by
  have hle := (card_points_le (4 : Fq)).2
  rw [Fq.card] at hle
  refine eq_of_bounds Nat.card_pos E1.dvd_card hle ?_
  rw [q_eq, r_eq]
  decide +kernel

theorem E2.card : Nat.card E2 = h2 * r := by
  have hle := (card_points_le b2).2
  rw [Fq2.card] at hle
  refine eq_of_bounds Nat.card_pos E2.dvd_card hle ?_
  rw [q_eq, r_eq]
  decide +kernel

/-- `(x - 1)·r` kills E1, `x` the (negative) curve parameter. -/
theorem E1.exponent (X : E1) : ((blsU + 1) * r) • X = 0 := by
  have key : ∀ l m : ℕ, l.Prime → Full (G := E1) l → l * l * m = h1 * r → (l * m) • X = 0 := by
    intro l m hl hf e
    exact hf.smul hl (by rw [E1.card, e]) X
  have a1 := key 11 _ (by norm_num) a11_full (show 11 * 11 * (3 * (10177 * 10177) * (859267 * 859267) * (52437899 * 52437899) * r) = _ by rw [r_eq]; decide +kernel)
  have a2 := key 10177 _ (by norm_num) a10177_full (show 10177 * 10177 * (3 * (11 * 11) * (859267 * 859267) * (52437899 * 52437899) * r) = _ by rw [r_eq]; decide +kernel)
  have a3 := key 859267 _ (by norm_num) a859267_full (show 859267 * 859267 * (3 * (11 * 11) * (10177 * 10177) * (52437899 * 52437899) * r) = _ by rw [r_eq]; decide +kernel)
  have a4 := key 52437899 _ (by norm_num) a52437899_full (show 52437899 * 52437899 * (3 * (11 * 11) * (10177 * 10177) * (859267 * 859267) * r) = _ by rw [r_eq]; decide +kernel)
  rw [← addOrderOf_dvd_iff_nsmul_eq_zero] at a1 a2 a3 a4 ⊢
  have g := Nat.dvd_gcd (Nat.dvd_gcd a1 a2) (Nat.dvd_gcd a3 a4)
  rw [r_eq] at g ⊢
  refine g.trans (Nat.dvd_of_mod_eq_zero ?_)
  decide +kernel

theorem E1.torsion {P : E1} (h : r • P = 0) : ∃ k : ℕ, P = k • g1Gen :=
  Grp.torsion_cyclic r_prime E1.card (fun hd => absurd (Nat.mod_eq_zero_of_dvd hd) (by rw [r_eq]; decide +kernel))
    g1Gen_ne_zero r_smul_g1Gen h

theorem E2.torsion {P : E2} (h : r • P = 0) : ∃ k : ℕ, P = k • g2Gen :=
  Grp.torsion_cyclic r_prime E2.card (fun hd => absurd (Nat.mod_eq_zero_of_dvd hd) (by rw [r_eq]; decide +kernel))
    g2Gen_ne_zero r_smul_g2Gen h

theorem E1.cofactor_torsion (P : E1) : r • (h1 • P) = 0 := by
  rw [← mul_nsmul, ← E1.card]; exact card_nsmul_eq_zero'

theorem E2.cofactor_torsion (P : E2) : r • (h2 • P) = 0 := by
  rw [← mul_nsmul, ← E2.card]; exact card_nsmul_eq_zero'

end Bls
