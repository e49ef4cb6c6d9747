import Verif.Proof.FROps
import Mathlib.Tactic.FieldSimp
set_option exponentiation.threshold 1000
/-
`FR.Inverse`: the binary extended Euclid loop terminates and returns the inverse.
-/
namespace Bls
open FRRepr FR

theorem Fr.neg_one_ne_one : (-1 : Fr) ≠ 1 := by
  have : Fact (2 < r) := ⟨lt_trans (by norm_num) r_gt⟩
  exact ZMod.neg_one_ne_one

theorem Fr.two_ne : (2 : Fr) ≠ 0 := by
  intro h
  apply Fr.neg_one_ne_one
  linear_combination -h

theorem FR.halveLoop_spec : ∀ (k fuel : ℕ) (u b : FRRepr), u.toNat ≠ 0 → u.toNat < 2 ^ k → k ≤ fuel →
    b.toNat < r →
    ∃ u' b' j, FR.halveLoop fuel u b = some (u', b') ∧ u.toNat = 2 ^ j * u'.toNat ∧
      u'.toNat % 2 = 1 ∧ b'.toNat < r ∧ (b'.toNat : Fr) * 2 ^ j = (b.toNat : Fr) := by
  intro k
  induction k with
  | zero => intro fuel u b h0 h1; omega
  | succ k ih =>
    intro fuel u b h0 h1 hf hb
    obtain ⟨m, rfl⟩ : ∃ m, fuel = m + 1 := ⟨fuel - 1, by omega⟩
    rw [FR.halveLoop]
    have hev := isEven_iff (f := u)
    have hbe := isEven_iff (f := b)
    by_cases hu : u.toNat % 2 = 0
    · rw [if_pos (hev.mpr hu)]
      simp only
      have hd : u.div2.toNat = u.toNat / 2 := div2_spec u
      have hq := r_lt
      have hqo : r % 2 = 1 := by rw [r]
      have hb' : ∃ b', (if b.isEven then b.div2 else (b.addNoCarry rFieldModulus).div2) = b' ∧
          b'.toNat < r ∧ (b'.toNat : Fr) * 2 = (b.toNat : Fr) := by
        by_cases hbz : b.toNat % 2 = 0
        · rw [if_pos (hbe.mpr hbz)]
          refine ⟨_, rfl, ?_, ?_⟩
          · rw [div2_spec]; omega
          · rw [div2_spec]
            have : b.toNat = b.toNat / 2 * 2 := by omega
            conv_rhs => rw [this]
            rw [Nat.cast_mul, Nat.cast_ofNat]
        · rw [if_neg (fun h => hbz (hbe.mp h))]
          have hs : (b.addNoCarry rFieldModulus).toNat = b.toNat + r := by
            rw [addNoCarry_spec, rFieldModulus_toNat]; exact Nat.mod_eq_of_lt (by omega)
          refine ⟨_, rfl, ?_, ?_⟩
          · rw [div2_spec, hs]; omega
          · rw [div2_spec, hs]
            have : (b.toNat + r) / 2 * 2 = b.toNat + r := by omega
            have h2 := congrArg (fun n : ℕ => (n : Fr)) this
            simpa only [Nat.cast_mul, Nat.cast_ofNat, Nat.cast_add, ZMod.natCast_self, add_zero]
              using h2
      obtain ⟨b', hbe', hbq, hbv⟩ := hb'
      rw [hbe']
      obtain ⟨u', b'', j, h2, h3, h4, h5, h6⟩ := ih m u.div2 b' (by rw [hd]; omega)
        (by rw [hd]; rw [pow_succ] at h1; omega) (by omega) hbq
      refine ⟨u', b'', j + 1, h2, ?_, h4, h5, ?_⟩
      · rw [pow_succ, mul_assoc, mul_comm 2, ← mul_assoc, ← h3, hd]; omega
      · rw [pow_succ, ← mul_assoc, h6, hbv]
    · rw [if_neg (fun h => hu (hev.mp h))]
      exact ⟨u, b, 0, rfl, by simp, by omega, hb, by simp⟩

/-- The outer loop. `a` is the Montgomery integer of the input, `K = R²`. -/
theorem FR.inverseLoop_spec {a K : Fr} : ∀ (n fuel : ℕ) (u v : FRRepr) (b c : FR), n < fuel →
    Nat.Coprime u.toNat v.toNat → u.toNat * v.toNat < 2 ^ n →
    (u.toNat % 2 = 0 ∨ v.toNat % 2 = 0 ∨ u.toNat * v.toNat * 2 < 2 ^ n) →
    b.n.toNat < r → c.n.toNat < r →
    (b.n.toNat : Fr) * a = u.toNat * K → (c.n.toNat : Fr) * a = v.toNat * K →
    ∃ d, FR.inverseLoop fuel u v b c = some d ∧ d.n.toNat < r ∧ (d.n.toNat : Fr) * a = K := by
  intro n
  induction n with
  | zero =>
    intro fuel u v b c hf hcop hlt _ hb hc hba hca
    obtain ⟨m, rfl⟩ : ∃ m, fuel = m + 1 := ⟨fuel - 1, by omega⟩
    have h0 : u.toNat * v.toNat = 0 := by omega
    have : u.toNat = 1 ∨ v.toNat = 1 := by
      rcases Nat.mul_eq_zero.mp h0 with h | h
      · rw [h] at hcop; exact Or.inr (by simpa using hcop)
      · rw [h] at hcop; exact Or.inl (by simpa using hcop)
    rw [FR.inverseLoop]
    have hu := cmp_eq_zero (f := u) (g := (FRRepr.new 1))
    have heq : u.equals (FRRepr.new 1) = true ↔ u.toNat = 1 := by
      rw [equals_iff, ← toNat_inj_iff, frOneRepr_toNat]
    have hv := cmp_eq_zero (f := v) (g := (FRRepr.new 1))
    rw [← toNat_inj_iff, frOneRepr_toNat] at hu hv
    rw [if_neg (by rw [Ne, Ne, hu, hv]; omega)]
    by_cases h1 : u.toNat = 1
    · rw [if_pos (heq.mpr h1)]
      exact ⟨b, rfl, hb, by rw [hba, h1]; simp⟩
    · rw [if_neg (fun h => h1 (heq.mp h))]
      exact ⟨c, rfl, hc, by rw [hca, this.resolve_left h1]; simp⟩
  | succ n ih =>
    intro fuel u v b c hf hcop hlt hpar hb hc hba hca
    obtain ⟨m, rfl⟩ : ∃ m, fuel = m + 1 := ⟨fuel - 1, by omega⟩
    rw [FR.inverseLoop]
    have hu := cmp_eq_zero (f := u) (g := (FRRepr.new 1))
    have heq : u.equals (FRRepr.new 1) = true ↔ u.toNat = 1 := by
      rw [equals_iff, ← toNat_inj_iff, frOneRepr_toNat]
    have hv := cmp_eq_zero (f := v) (g := (FRRepr.new 1))
    rw [← toNat_inj_iff, frOneRepr_toNat] at hu hv
    by_cases hcond : u.cmp (FRRepr.new 1) ≠ 0 ∧ v.cmp (FRRepr.new 1) ≠ 0
    · rw [if_pos hcond]
      have hu1 : u.toNat ≠ 1 := fun h => hcond.1 (hu.mpr h)
      have hv1 : v.toNat ≠ 1 := fun h => hcond.2 (hv.mpr h)
      have hu0 : u.toNat ≠ 0 := by
        intro h; rw [h] at hcop; exact hv1 (by simpa using hcop)
      have hv0 : v.toNat ≠ 0 := by
        intro h; rw [h] at hcop; exact hu1 (by simpa using hcop)
      obtain ⟨u', b', i, h1, h2, h3, h4, h5⟩ := FR.halveLoop_spec 256 257 u b.n hu0 u.toNat_lt
        (by norm_num) hb
      obtain ⟨v', c', j, k1, k2, k3, k4, k5⟩ := FR.halveLoop_spec 256 257 v c.n hv0 v.toNat_lt
        (by norm_num) hc
      simp only [h1, k1]
      have two : (2 : Fr) ≠ 0 := Fr.two_ne
      have hba' : (b'.toNat : Fr) * a = u'.toNat * K := by
        rw [← h5, h2, Nat.cast_mul, Nat.cast_pow, Nat.cast_ofNat] at hba
        apply mul_left_cancel₀ (pow_ne_zero i two)
        linear_combination hba
      have hca' : (c'.toNat : Fr) * a = v'.toNat * K := by
        rw [← k5, k2, Nat.cast_mul, Nat.cast_pow, Nat.cast_ofNat] at hca
        apply mul_left_cancel₀ (pow_ne_zero j two)
        linear_combination hca
      have hcop' : Nat.Coprime u'.toNat v'.toNat :=
        Nat.Coprime.of_dvd (Dvd.intro_left _ h2.symm) (Dvd.intro_left _ k2.symm) hcop
      have hprod : u'.toNat * v'.toNat < 2 ^ n := by
        have e : u.toNat * v.toNat = 2 ^ (i + j) * (u'.toNat * v'.toNat) := by
          rw [h2, k2, pow_add]; ring
        have hge : 1 ≤ 2 ^ (i + j) := Nat.one_le_two_pow
        rcases Nat.eq_zero_or_pos (i + j) with h0 | h0
        · have hi : i = 0 := by omega
          have hj : j = 0 := by omega
          rw [hi, pow_zero, one_mul] at h2
          rw [hj, pow_zero, one_mul] at k2
          rw [← h2] at h3 ⊢
          rw [← k2] at k3 ⊢
          have := (hpar.resolve_left (by omega)).resolve_left (by omega)
          rw [pow_succ] at this
          omega
        · have h22 : 2 ^ 1 ≤ 2 ^ (i + j) := Nat.pow_le_pow_right (by norm_num) h0
          have := Nat.mul_le_mul_right (u'.toNat * v'.toNat) h22
          rw [pow_succ] at hlt
          omega
      have hv'pos : 0 < v'.toNat := by omega
      have hu'pos : 0 < u'.toNat := by omega
      have hbr : (⟨b'⟩ : FR).Valid := h4
      have hcr : (⟨c'⟩ : FR).Valid := k4
      by_cases hge : u'.cmp v' ≥ 0
      · rw [if_pos hge]
        have hle : v'.toNat ≤ u'.toNat := cmp_nonneg.mp hge
        have hs : (u'.subNoBorrow v').toNat = u'.toNat - v'.toNat := subNoBorrow_of_le hle
        have hr := rep_iff.mp (hbr.rep.sub hcr.rep)
        rw [sub_mul, FR.val_mul_R, FR.val_mul_R] at hr
        refine ih m _ _ _ _ (by omega) ?_ ?_ ?_ hr.1 k4 ?_ hca'
        · rw [hs]; exact (Nat.coprime_sub_self_left hle).mpr hcop'
        · rw [hs]
          exact lt_of_le_of_lt (Nat.mul_le_mul_right _ (Nat.sub_le _ _)) hprod
        · left; rw [hs]; omega
        · rw [hr.2, hs, Nat.cast_sub hle]
          linear_combination hba' - hca'
      · rw [if_neg hge]
        have hle : u'.toNat ≤ v'.toNat := by
          have := mt cmp_nonneg.mpr hge
          omega
        have hs : (v'.subNoBorrow u').toNat = v'.toNat - u'.toNat := subNoBorrow_of_le hle
        have hr := rep_iff.mp (hcr.rep.sub hbr.rep)
        rw [sub_mul, FR.val_mul_R, FR.val_mul_R] at hr
        refine ih m _ _ _ _ (by omega) ?_ ?_ ?_ h4 hr.1 hba' ?_
        · rw [hs]; exact (Nat.coprime_sub_self_right hle).mpr hcop'
        · rw [hs]
          exact lt_of_le_of_lt (Nat.mul_le_mul_left _ (Nat.sub_le _ _)) hprod
        · right; left; rw [hs]; omega
        · rw [hr.2, hs, Nat.cast_sub hle]
          linear_combination hca' - hba'
    · rw [if_neg hcond]
      by_cases h1 : u.toNat = 1
      · rw [if_pos (heq.mpr h1)]
        exact ⟨b, rfl, hb, by rw [hba, h1]; simp⟩
      · rw [if_neg (fun h => h1 (heq.mp h))]
        have hv1 : v.toNat = 1 := by
          by_contra h
          exact hcond ⟨fun h' => h1 (hu.mp h'), fun h' => h (hv.mp h')⟩
        exact ⟨c, rfl, hc, by rw [hca, hv1]; simp⟩

/-- Inversion of a canonical element: terminates, and gives the inverse or reports zero. -/
theorem FR.Rep.inverse?_zero {f : FR} (hf : f.Rep 0) :
    f.inverse? = some none := by
  unfold FR.inverse?
  rw [if_pos (hf.isZero.mpr rfl)]

theorem FR.Rep.inverse?_ne {f : FR} {x : Fr} (hf : f.Rep x) (hx : x ≠ 0) :
    ∃ g, f.inverse? = some (some g) ∧ g.Rep x⁻¹ := by
  have hf' := rep_iff.mp hf
  have hq := r_lt
  have hR := Rr_ne.ne_zero
  have hne : f.n.toNat ≠ 0 := fun h => hx (hf.toNat_eq_zero.mp h)
  have hprod : f.n.toNat * r < 2 ^ 510 := by
    have h1 : r < 2 ^ 255 := by omega
    have h2 : f.n.toNat < 2 ^ 255 := lt_trans hf'.1 h1
    calc f.n.toNat * r < 2 ^ 255 * 2 ^ 255 := Nat.mul_lt_mul'' h2 h1
      _ = 2 ^ 510 := by rw [← pow_add]
  obtain ⟨d, h1, h2, h3⟩ := FR.inverseLoop_spec (a := (f.n.toNat : Fr)) (K := Rr * Rr) 511 520 f.n
    rFieldModulus ⟨frR2⟩ FR.zero (by norm_num)
    (by rw [rFieldModulus_toNat]
        exact Nat.Coprime.symm ((Nat.Prime.coprime_iff_not_dvd r_prime).mpr (fun h => absurd (Nat.le_of_dvd (Nat.pos_of_ne_zero hne) h) (not_le.mpr hf'.1))))
    (by rw [rFieldModulus_toNat]; omega)
    (by rw [rFieldModulus_toNat]; omega)
    (FR.rep_iff.mp frR2_rep).1
    (by have : FR.zero.n.toNat = 0 := FR.zero_rep.toNat_eq_zero.mpr rfl
        rw [this]; exact r_pos)
    (by have : (((⟨frR2⟩ : FR).n.toNat : ℕ) : Fr) = Rr * Rr := (FR.rep_iff.mp frR2_rep).2
        rw [this]; ring)
    (by have : FR.zero.n.toNat = 0 := FR.zero_rep.toNat_eq_zero.mpr rfl
        rw [this, rFieldModulus_toNat, ZMod.natCast_self]; simp)
  refine ⟨d, ?_, ?_⟩
  · unfold FR.inverse?
    rw [if_neg (fun h => hx (hf.isZero.mp h)), h1, Option.map_some]
  · rw [rep_iff]
    refine ⟨h2, ?_⟩
    rw [hf'.2] at h3
    have : (d.n.toNat : Fr) * x * Rr = Rr * Rr := by linear_combination h3
    have h4 := mul_right_cancel₀ hR this
    field_simp
    linear_combination h4


end Bls
