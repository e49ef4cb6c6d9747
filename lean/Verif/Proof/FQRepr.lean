import Verif.Spec.Limbs
import Verif.Proof.Word
import Verif.Proof.Step
import Mathlib.Tactic.LinearCombination
import Mathlib.Tactic.Zify
/-
Arithmetic meaning of the 6-limb operations.
-/
namespace Bls

set_option exponentiation.threshold 1000

theorem mac_fact {a b c d lo cy : W} (h : macWithCarry a b c d = (lo, cy)) :
    (lo.toNat : ℤ) + 2 ^ 64 * cy.toNat = a.toNat + b.toNat * c.toNat + d.toNat := by
  have := macWithCarry_spec a b c d
  rw [h] at this
  exact_mod_cast this

theorem adc_fact {a b c lo cy : W} (h : addWithCarry a b c = (lo, cy)) :
    (lo.toNat : ℤ) + 2 ^ 64 * cy.toNat = a.toNat + b.toNat + c.toNat := by
  have := addWithCarry_spec a b c
  rw [h] at this
  exact_mod_cast this

theorem sbb_fact {a b c lo cy : W} (h : subWithBorrow a b c = (lo, cy)) (hc : c.toNat ≤ 1) :
    (lo.toNat : ℤ) + b.toNat + c.toNat = a.toNat + 2 ^ 64 * cy.toNat ∧ cy.toNat ≤ 1 := by
  have := subWithBorrow_spec a b c hc
  rw [h] at this
  exact ⟨by exact_mod_cast this.1, this.2⟩

/-- Name the two results of the next `MACWithCarry` of the goal and its equation. -/
macro "mac " x:ident y:ident e:ident : tactic =>
  `(tactic| (pair_step $x $y $e; replace $e := mac_fact $e))
/-- Name the two results of the next `AddWithCarry` of the goal and its equation. -/
macro "adc " x:ident y:ident e:ident : tactic =>
  `(tactic| (pair_step $x $y $e; replace $e := adc_fact $e))

namespace FQRepr

theorem toNat_lt (f : FQRepr) : f.toNat < 2 ^ 384 := by
  have := f.l0.lt; have := f.l1.lt; have := f.l2.lt
  have := f.l3.lt; have := f.l4.lt; have := f.l5.lt
  simp only [toNat]; omega

theorem toNat_inj {f g : FQRepr} (h : f.toNat = g.toNat) : f = g := by
  have := f.l0.lt; have := f.l1.lt; have := f.l2.lt
  have := f.l3.lt; have := f.l4.lt; have := f.l5.lt
  have := g.l0.lt; have := g.l1.lt; have := g.l2.lt
  have := g.l3.lt; have := g.l4.lt; have := g.l5.lt
  simp only [toNat] at h
  ext1 <;> apply UInt64.toNat_inj.mp <;> omega

theorem toNat_inj_iff {f g : FQRepr} : f.toNat = g.toNat ↔ f = g :=
  ⟨toNat_inj, fun h => h ▸ rfl⟩

theorem ofNat_toNat {n : ℕ} (h : n < 2 ^ 384) : (ofNat n).toNat = n := by
  simp only [toNat, ofNat, UInt64.toNat_ofNat']
  omega

theorem toNat_ofNat (f : FQRepr) : ofNat f.toNat = f := toNat_inj (ofNat_toNat f.toNat_lt)

theorem multiply_spec (a b : FQRepr) :
    (multiply a b).1.toNat * 2 ^ 384 + (multiply a b).2.toNat = a.toNat * b.toNat := by
  generalize hr : multiply a b = r
  revert hr
  unfold multiply
  mac lo0 c0 e1
  mac lo1 c1 e2
  mac lo2 c2 e3
  mac lo3 c3 e4
  mac lo4 c4 e5
  mac lo5 c5 e6
  mac lo1' d0 f1
  mac lo2' d1 f2
  mac lo3' d2 f3
  mac lo4' d3 f4
  mac lo5' d4 f5
  mac hi0 d5 f6
  mac lo2'' g0 g1
  mac lo3'' g2 g3
  mac lo4'' g4 g5
  mac lo5'' g6 g7
  mac hi0' g8 g9
  mac hi1 g10 g11
  mac lo3''' h0 h1
  mac lo4''' h2 h3
  mac lo5''' h4 h5
  mac hi0'' h6 h7
  mac hi1' h8 h9
  mac hi2 h10 h11
  mac z1 i0 i1
  mac z2 i2 i3
  mac z3 i4 i5
  mac z4 i6 i7
  mac z5 i8 i9
  mac z6 i10 i11
  mac z7 j0 j1
  mac z8 j2 j3
  mac z9 j4 j5
  mac z10 j6 j7
  mac z11 j8 j9
  mac z12 j10 j11
  rintro rfl
  simp only [toNat]
  zify
  simp only [UInt64.toNat_zero, Nat.cast_zero] at *
  linear_combination e1 + 2 ^ 64 * e2 + 2 ^ 128 * e3 + 2 ^ 192 * e4 + 2 ^ 256 * e5 + 2 ^ 320 * e6
    + 2 ^ 64 * (f1 + 2 ^ 64 * f2 + 2 ^ 128 * f3 + 2 ^ 192 * f4 + 2 ^ 256 * f5 + 2 ^ 320 * f6)
    + 2 ^ 128 * (g1 + 2 ^ 64 * g3 + 2 ^ 128 * g5 + 2 ^ 192 * g7 + 2 ^ 256 * g9 + 2 ^ 320 * g11)
    + 2 ^ 192 * (h1 + 2 ^ 64 * h3 + 2 ^ 128 * h5 + 2 ^ 192 * h7 + 2 ^ 256 * h9 + 2 ^ 320 * h11)
    + 2 ^ 256 * (i1 + 2 ^ 64 * i3 + 2 ^ 128 * i5 + 2 ^ 192 * i7 + 2 ^ 256 * i9 + 2 ^ 320 * i11)
    + 2 ^ 320 * (j1 + 2 ^ 64 * j3 + 2 ^ 128 * j5 + 2 ^ 192 * j7 + 2 ^ 256 * j9 + 2 ^ 320 * j11)

theorem addNoCarry_spec (a b : FQRepr) :
    (addNoCarry a b).toNat = (a.toNat + b.toNat) % 2 ^ 384 := by
  have key : ∃ k : ℕ, (addNoCarry a b).toNat + 2 ^ 384 * k = a.toNat + b.toNat := by
    generalize hr : addNoCarry a b = r
    revert hr
    unfold addNoCarry
    adc z13 c0 e0
    adc z14 c1 e1
    adc z15 c2 e2
    adc z16 c3 e3
    adc z17 c4 e4
    adc z18 c5 e5
    rintro rfl
    refine ⟨c5.toNat, ?_⟩
    simp only [toNat]
    zify
    simp only [UInt64.toNat_zero, Nat.cast_zero] at e0
    linear_combination e0 + 2 ^ 64 * e1 + 2 ^ 128 * e2 + 2 ^ 192 * e3 + 2 ^ 256 * e4 + 2 ^ 320 * e5
  obtain ⟨k, hk⟩ := key
  have := (addNoCarry a b).toNat_lt
  omega

theorem subNoBorrow_spec (a b : FQRepr) :
    (subNoBorrow a b).toNat = (a.toNat + (2 ^ 384 - b.toNat)) % 2 ^ 384 := by
  have key : ∃ k : ℕ, (subNoBorrow a b).toNat + b.toNat = a.toNat + 2 ^ 384 * k ∧ k ≤ 1 := by
    generalize hr : subNoBorrow a b = r
    revert hr
    unfold subNoBorrow
    pair_step oc0 c0 e0; obtain ⟨e0, h0⟩ := sbb_fact e0 (by simp)
    pair_step oc1 c1 e1; obtain ⟨e1, h1⟩ := sbb_fact e1 h0
    pair_step oc2 c2 e2; obtain ⟨e2, h2⟩ := sbb_fact e2 h1
    pair_step oc3 c3 e3; obtain ⟨e3, h3⟩ := sbb_fact e3 h2
    pair_step oc4 c4 e4; obtain ⟨e4, h4⟩ := sbb_fact e4 h3
    pair_step oc5 c5 e5; obtain ⟨e5, h5⟩ := sbb_fact e5 h4
    rintro rfl
    refine ⟨c5.toNat, ?_, h5⟩
    simp only [toNat]
    zify
    simp only [UInt64.toNat_zero, Nat.cast_zero] at e0
    linear_combination e0 + 2 ^ 64 * e1 + 2 ^ 128 * e2 + 2 ^ 192 * e3 + 2 ^ 256 * e4 + 2 ^ 320 * e5
  obtain ⟨k, hk, hk1⟩ := key
  have := (subNoBorrow a b).toNat_lt
  have := b.toNat_lt
  omega

theorem subNoBorrow_of_le {a b : FQRepr} (h : b.toNat ≤ a.toNat) :
    (subNoBorrow a b).toNat = a.toNat - b.toNat := by
  have := a.toNat_lt
  rw [subNoBorrow_spec]; omega

theorem mul2_spec (f : FQRepr) : f.mul2.toNat = 2 * f.toNat % 2 ^ 384 := by
  have := f.l0.lt; have := f.l1.lt; have := f.l2.lt
  have := f.l3.lt; have := f.l4.lt; have := f.l5.lt
  have h0 : (f.l0 <<< 1 ||| 0).toNat = 2 * f.l0.toNat % 2 ^ 64 := by
    have := shl1_or f.l0 0
    simpa using this
  simp only [mul2, toNat, shl1_or, h0]
  omega

/-- Halving with shifts: `(x >> 1) | (y << 63)`. -/
theorem shr1_or (x y : W) :
    ((x >>> 1) ||| (y <<< 63)).toNat = x.toNat / 2 + 2 ^ 63 * (y.toNat % 2) := by
  have hx := x.lt; have hy := y.lt
  have h1 : x.toNat / 2 < 2 ^ 63 := by omega
  have h2 : y.toNat <<< 63 % 2 ^ 64 = (y.toNat % 2) <<< 63 := by
    simp only [Nat.shiftLeft_eq]; omega
  rw [UInt64.toNat_or, UInt64.toNat_shiftLeft, UInt64.toNat_shiftRight]
  simp only [UInt64.toNat_ofNat, Nat.reduceMod, Nat.shiftRight_eq_div_pow, Nat.reducePow] at *
  rw [h2, Nat.or_comm, ← Nat.shiftLeft_add_eq_or_of_lt h1]
  simp only [Nat.shiftLeft_eq]; omega

theorem div2_spec (f : FQRepr) : f.div2.toNat = f.toNat / 2 := by
  have := f.l0.lt; have := f.l1.lt; have := f.l2.lt
  have := f.l3.lt; have := f.l4.lt; have := f.l5.lt
  have h0 : (f.l5 >>> 1 ||| 0).toNat = f.l5.toNat / 2 := by
    have := shr1_or f.l5 0
    simpa using this
  simp only [div2, toNat, shr1_or, h0]
  omega

theorem equals_iff {f g : FQRepr} : f.equals g = true ↔ f = g := by
  simp only [equals, Bool.and_eq_true, beq_iff_eq]
  constructor
  · rintro ⟨⟨⟨⟨⟨h0, h1⟩, h2⟩, h3⟩, h4⟩, h5⟩; ext1 <;> assumption
  · rintro rfl; simp

theorem cmp_spec (f g : FQRepr) : f.cmp g = if f.toNat < g.toNat then -1
    else if f.toNat = g.toNat then 0 else 1 := by
  have := f.l0.lt; have := f.l1.lt; have := f.l2.lt
  have := f.l3.lt; have := f.l4.lt; have := f.l5.lt
  have := g.l0.lt; have := g.l1.lt; have := g.l2.lt
  have := g.l3.lt; have := g.l4.lt; have := g.l5.lt
  by_cases h1 : f.toNat < g.toNat
  · rw [if_pos h1]
    simp only [cmp, toNat, ne_eq, ← UInt64.toNat_inj, gt_iff_lt, UInt64.lt_iff_toNat_lt] at *
    split_ifs <;> first | rfl | omega
  · rw [if_neg h1]
    by_cases h2 : f.toNat = g.toNat
    · rw [if_pos h2, toNat_inj h2]
      simp [cmp]
    · rw [if_neg h2]
      simp only [cmp, toNat, ne_eq, ← UInt64.toNat_inj, gt_iff_lt, UInt64.lt_iff_toNat_lt] at *
      split_ifs <;> first | rfl | omega

theorem cmp_lt_zero {f g : FQRepr} : f.cmp g < 0 ↔ f.toNat < g.toNat := by
  rw [cmp_spec]; split_ifs <;> simp_all

theorem cmp_eq_zero {f g : FQRepr} : f.cmp g = 0 ↔ f = g := by
  rw [cmp_spec, ← toNat_inj_iff]
  split_ifs with h h' <;> simp_all
  omega

theorem cmp_pos {f g : FQRepr} : f.cmp g > 0 ↔ g.toNat < f.toNat := by
  rw [cmp_spec]; split_ifs <;> simp_all <;> omega

theorem cmp_nonneg {f g : FQRepr} : f.cmp g ≥ 0 ↔ g.toNat ≤ f.toNat := by
  rw [cmp_spec]; split_ifs <;> simp_all

theorem and_one (x : W) : (x &&& 1).toNat = x.toNat % 2 := by
  simp [UInt64.toNat_and, Nat.and_one_is_mod]

theorem isEven_iff {f : FQRepr} : f.isEven = true ↔ f.toNat % 2 = 0 := by
  simp only [isEven, beq_iff_eq, ← UInt64.toNat_inj, and_one, UInt64.toNat_zero, toNat]
  omega

theorem isOdd_iff {f : FQRepr} : f.isOdd = true ↔ f.toNat % 2 = 1 := by
  simp only [isOdd, beq_iff_eq, ← UInt64.toNat_inj, and_one, UInt64.toNat_one, toNat]
  omega

theorem isZero_iff {f : FQRepr} : f.isZero = true ↔ f.toNat = 0 := by
  simp only [isZero, ne_eq, ← UInt64.toNat_inj, UInt64.toNat_zero, toNat]
  split_ifs <;> simp <;> omega

end FQRepr
end Bls
