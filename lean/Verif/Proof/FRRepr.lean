import Verif.Model.FRRepr
import Verif.Proof.FQRepr
/-
Arithmetic meaning of the 4-limb operations.
-/
namespace Bls

set_option exponentiation.threshold 1000

namespace FRRepr

theorem toNat_lt (f : FRRepr) : f.toNat < 2 ^ 256 := by
  have := f.l0.lt; have := f.l1.lt; have := f.l2.lt
  have := f.l3.lt
  simp only [toNat]; omega

theorem toNat_inj {f g : FRRepr} (h : f.toNat = g.toNat) : f = g := by
  have := f.l0.lt; have := f.l1.lt; have := f.l2.lt
  have := f.l3.lt
  have := g.l0.lt; have := g.l1.lt; have := g.l2.lt
  have := g.l3.lt
  simp only [toNat] at h
  ext1 <;> apply UInt64.toNat_inj.mp <;> omega

theorem toNat_inj_iff {f g : FRRepr} : f.toNat = g.toNat ↔ f = g :=
  ⟨toNat_inj, fun h => h ▸ rfl⟩

theorem ofNat_toNat {n : ℕ} (h : n < 2 ^ 256) : (ofNat n).toNat = n := by
  simp only [toNat, ofNat, UInt64.toNat_ofNat']
  omega

theorem toNat_ofNat (f : FRRepr) : ofNat f.toNat = f := toNat_inj (ofNat_toNat f.toNat_lt)

theorem addNoCarry_spec (a b : FRRepr) :
    (addNoCarry a b).toNat = (a.toNat + b.toNat) % 2 ^ 256 := by
  have key : ∃ k : ℕ, (addNoCarry a b).toNat + 2 ^ 256 * k = a.toNat + b.toNat := by
    generalize hr : addNoCarry a b = r
    revert hr
    unfold addNoCarry
    adc z13 c0 e0
    adc z14 c1 e1
    adc z15 c2 e2
    adc z16 c3 e3
    rintro rfl
    refine ⟨c3.toNat, ?_⟩
    simp only [toNat]
    zify
    simp only [UInt64.toNat_zero, Nat.cast_zero] at e0
    linear_combination e0 + 2 ^ 64 * e1 + 2 ^ 128 * e2 + 2 ^ 192 * e3
  obtain ⟨k, hk⟩ := key
  have := (addNoCarry a b).toNat_lt
  omega

theorem subNoBorrow_spec (a b : FRRepr) :
    (subNoBorrow a b).toNat = (a.toNat + (2 ^ 256 - b.toNat)) % 2 ^ 256 := by
  have key : ∃ k : ℕ, (subNoBorrow a b).toNat + b.toNat = a.toNat + 2 ^ 256 * k ∧ k ≤ 1 := by
    generalize hr : subNoBorrow a b = r
    revert hr
    unfold subNoBorrow
    pair_step oc0 c0 e0; obtain ⟨e0, h0⟩ := sbb_fact e0 (by simp)
    pair_step oc1 c1 e1; obtain ⟨e1, h1⟩ := sbb_fact e1 h0
    pair_step oc2 c2 e2; obtain ⟨e2, h2⟩ := sbb_fact e2 h1
    pair_step oc3 c3 e3; obtain ⟨e3, h3⟩ := sbb_fact e3 h2
    rintro rfl
    refine ⟨c3.toNat, ?_, h3⟩
    simp only [toNat]
    zify
    simp only [UInt64.toNat_zero, Nat.cast_zero] at e0
    linear_combination e0 + 2 ^ 64 * e1 + 2 ^ 128 * e2 + 2 ^ 192 * e3
  obtain ⟨k, hk, hk1⟩ := key
  have := (subNoBorrow a b).toNat_lt
  have := b.toNat_lt
  omega

theorem subNoBorrow_of_le {a b : FRRepr} (h : b.toNat ≤ a.toNat) :
    (subNoBorrow a b).toNat = a.toNat - b.toNat := by
  have := a.toNat_lt
  rw [subNoBorrow_spec]; omega

theorem mul2_spec (f : FRRepr) : f.mul2.toNat = 2 * f.toNat % 2 ^ 256 := by
  have := f.l0.lt; have := f.l1.lt; have := f.l2.lt
  have := f.l3.lt
  have h0 : (f.l0 <<< 1 ||| 0).toNat = 2 * f.l0.toNat % 2 ^ 64 := by
    have := shl1_or f.l0 0
    simpa using this
  simp only [mul2, toNat, shl1_or, h0]
  omega

theorem div2_spec (f : FRRepr) : f.div2.toNat = f.toNat / 2 := by
  have := f.l0.lt; have := f.l1.lt; have := f.l2.lt
  have := f.l3.lt
  have h0 : (f.l3 >>> 1 ||| 0).toNat = f.l3.toNat / 2 := by
    have := FQRepr.shr1_or f.l3 0
    simpa using this
  simp only [div2, toNat, FQRepr.shr1_or, h0]
  omega

theorem equals_iff {f g : FRRepr} : f.equals g = true ↔ f = g := by
  simp only [equals, Bool.and_eq_true, beq_iff_eq]
  constructor
  · rintro ⟨⟨⟨h0, h1⟩, h2⟩, h3⟩; ext1 <;> assumption
  · rintro rfl; simp

theorem cmp_spec (f g : FRRepr) : f.cmp g = if f.toNat < g.toNat then -1
    else if f.toNat = g.toNat then 0 else 1 := by
  have := f.l0.lt; have := f.l1.lt; have := f.l2.lt
  have := f.l3.lt
  have := g.l0.lt; have := g.l1.lt; have := g.l2.lt
  have := g.l3.lt
  by_cases h1 : f.toNat < g.toNat
  · rw [if_pos h1]
    simp only [cmp, toNat, ne_eq, ← UInt64.toNat_inj, gt_iff_lt, UInt64.lt_iff_toNat_lt] at *
    split_ifs <;> first | rfl | omega
  · rw [if_neg h1]
    by_cases h2 : f.toNat = g.toNat
    · rw [if_pos h2, toNat_inj h2]
      simp [cmp]
    · rw [if_neg h2]
      simp only [cmp, toNat, ne_eq, ← UInt64.toNat_inj, gt_iff_lt, UInt64.lt_iff_toNat_lt] at *
      split_ifs <;> first | rfl | omega

theorem cmp_lt_zero {f g : FRRepr} : f.cmp g < 0 ↔ f.toNat < g.toNat := by
  rw [cmp_spec]; split_ifs <;> simp_all

theorem cmp_eq_zero {f g : FRRepr} : f.cmp g = 0 ↔ f = g := by
  rw [cmp_spec, ← toNat_inj_iff]
  split_ifs with h h' <;> simp_all
  omega

theorem cmp_pos {f g : FRRepr} : f.cmp g > 0 ↔ g.toNat < f.toNat := by
  rw [cmp_spec]; split_ifs <;> simp_all <;> omega

theorem cmp_nonneg {f g : FRRepr} : f.cmp g ≥ 0 ↔ g.toNat ≤ f.toNat := by
  rw [cmp_spec]; split_ifs <;> simp_all

theorem isEven_iff {f : FRRepr} : f.isEven = true ↔ f.toNat % 2 = 0 := by
  simp only [isEven, beq_iff_eq, ← UInt64.toNat_inj, FQRepr.and_one, UInt64.toNat_zero, toNat]
  omega

theorem isOdd_iff {f : FRRepr} : f.isOdd = true ↔ f.toNat % 2 = 1 := by
  simp only [isOdd, beq_iff_eq, ← UInt64.toNat_inj, FQRepr.and_one, UInt64.toNat_one, toNat]
  omega

theorem isZero_iff {f : FRRepr} : f.isZero = true ↔ f.toNat = 0 := by
  simp only [isZero, ne_eq, ← UInt64.toNat_inj, UInt64.toNat_zero, toNat]
  split_ifs <;> simp <;> omega

end FRRepr
end Bls
