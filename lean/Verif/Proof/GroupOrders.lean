import Mathlib.GroupTheory.OrderOfElement
import Mathlib.GroupTheory.QuotientGroup.Finite
import Mathlib.GroupTheory.Coset.Card
import Mathlib.FieldTheory.Finite.Basic
import Mathlib.Tactic.LinearCombination
import Mathlib.Tactic.Ring
/-
Finite abelian groups: torsion of rank two from an endomorphism with `φ² + φ + 1 = 0`.
-/
namespace Bls.Grp

variable {G : Type*} [AddCommGroup G]

theorem dvd_card [Finite G] {l : ℕ} (hl : l.Prime) {P : G} (h0 : P ≠ 0) (h : l • P = 0) :
    l ∣ Nat.card G := by
  have : Fact l.Prime := ⟨hl⟩
  rw [← addOrderOf_eq_prime h h0]
  exact addOrderOf_dvd_natCard P

theorem sq_dvd_card [Finite G] {l : ℕ} (hl : l.Prime) {P Q : G} (h0 : P ≠ 0) (h : l • P = 0)
    (hQ : l • Q = 0) (hne : Q ∉ AddSubgroup.zmultiples P) : l * l ∣ Nat.card G := by
  have : Fact l.Prime := ⟨hl⟩
  have hH : Nat.card (AddSubgroup.zmultiples P) = l := by
    rw [Nat.card_zmultiples, addOrderOf_eq_prime h h0]
  have h1 : l ∣ Nat.card (G ⧸ AddSubgroup.zmultiples P) := by
    refine dvd_card hl (P := (Q : G ⧸ AddSubgroup.zmultiples P)) ?_ ?_
    · rwa [Ne, QuotientAddGroup.eq_zero_iff]
    · rw [← QuotientAddGroup.mk_nsmul, hQ, QuotientAddGroup.mk_zero]
  rw [AddSubgroup.card_eq_card_quotient_mul_card_addSubgroup (AddSubgroup.zmultiples P), hH]
  exact Nat.mul_dvd_mul_right h1 l

/-- With two independent points of order `l`, the `l²`-part of the group is killed by `l`. -/
theorem smul_eq_zero [Finite G] {l m : ℕ} (hl : l.Prime) {P Q : G} (h0 : P ≠ 0) (h : l • P = 0)
    (hQ : l • Q = 0) (hne : Q ∉ AddSubgroup.zmultiples P) (hc : Nat.card G ∣ l * l * m) (X : G) :
    (l * m) • X = 0 := by
  let f : G →+ G := nsmulAddMonoidHom l
  have hf : ∀ Y, f Y = l • Y := fun _ => rfl
  have h1 : l * l ∣ Nat.card f.ker := by
    refine sq_dvd_card hl (P := (⟨P, ?_⟩ : f.ker)) (Q := ⟨Q, ?_⟩) ?_ ?_ ?_ ?_
    · rw [AddMonoidHom.mem_ker, hf, h]
    · rw [AddMonoidHom.mem_ker, hf, hQ]
    · intro e; exact h0 (congrArg Subtype.val e)
    · exact Subtype.ext h
    · exact Subtype.ext hQ
    · intro hm
      obtain ⟨k, hk⟩ := AddSubgroup.mem_zmultiples_iff.mp hm
      exact hne (AddSubgroup.mem_zmultiples_iff.mpr ⟨k, congrArg Subtype.val hk⟩)
  have h2 : Nat.card G = Nat.card f.range * Nat.card f.ker := by
    rw [AddSubgroup.card_eq_card_quotient_mul_card_addSubgroup f.ker,
      Nat.card_congr (QuotientAddGroup.quotientKerEquivRange f).toEquiv]
  have h3 : Nat.card f.range ∣ m := by
    have hlp : 0 < l * l := Nat.mul_pos hl.pos hl.pos
    obtain ⟨c, hc'⟩ := h1
    rw [h2, hc'] at hc
    refine Nat.dvd_of_mul_dvd_mul_left hlp (Dvd.dvd.trans ⟨c, ?_⟩ hc)
    ring
  have h4 : Nat.card f.range • (⟨f X, ⟨X, rfl⟩⟩ : f.range) = 0 := card_nsmul_eq_zero'
  obtain ⟨k, rfl⟩ := h3
  have h5 : Nat.card f.range • f X = 0 := congrArg Subtype.val h4
  rw [mul_comm l, mul_nsmul', ← hf, mul_nsmul, h5, nsmul_zero]

theorem root_dvd {l : ℕ} {φ : G →+ G} {P : G} (hl : l.Prime) (h0 : P ≠ 0) (h : l • P = 0)
    (hφ : P + φ P + φ (φ P) = 0) {k : ℕ} (hk : φ P = k • P) : l ∣ k * k + k + 1 := by
  have : Fact l.Prime := ⟨hl⟩
  rw [← addOrderOf_eq_prime h h0, addOrderOf_dvd_iff_nsmul_eq_zero]
  rw [hk, map_nsmul, hk, ← mul_nsmul] at hφ
  rw [add_nsmul, add_nsmul, one_nsmul, ← hφ]
  abel

/-- A multiple of `P` is a multiple by a natural number. -/
theorem mem_zmultiples_nat {l : ℕ} {P Q : G} (hl : 0 < l) (h : l • P = 0)
    (hm : Q ∈ AddSubgroup.zmultiples P) : ∃ k : ℕ, Q = k • P := by
  obtain ⟨k, rfl⟩ := AddSubgroup.mem_zmultiples_iff.mp hm
  refine ⟨(k % l).toNat, ?_⟩
  have hp : (0 : ℤ) ≤ k % l := Int.emod_nonneg _ (by omega)
  rw [← natCast_zsmul, Int.toNat_of_nonneg hp]
  conv_lhs => rw [← Int.mul_ediv_add_emod k l]
  rw [add_zsmul, mul_comm, mul_zsmul, natCast_zsmul, h, zsmul_zero, zero_add]

/-- Independence when `X² + X + 1` has no root modulo `l`. -/
theorem indep_inert {l : ℕ} {φ : G →+ G} {P : G} (hl : l.Prime) (h3 : l % 3 = 2) (h0 : P ≠ 0)
    (h : l • P = 0) (hφ : P + φ P + φ (φ P) = 0) : φ P ∉ AddSubgroup.zmultiples P := by
  intro hm
  obtain ⟨k, hk⟩ := mem_zmultiples_nat hl.pos h hm
  have hd := root_dvd hl h0 h hφ hk
  have : Fact l.Prime := ⟨hl⟩
  have hz : ((k : ZMod l) ^ 2 + k + 1) = 0 := by
    have := (ZMod.natCast_eq_zero_iff _ _).mpr hd
    push_cast at this
    rw [← this]; ring
  have hk3 : (k : ZMod l) ^ 3 = 1 := by linear_combination ((k : ZMod l) - 1) * hz
  have hk0 : (k : ZMod l) ≠ 0 := by
    intro h; rw [h] at hk3; simp at hk3
  have hc := ZMod.pow_card_sub_one_eq_one hk0
  have hk1 : (k : ZMod l) = 1 := by
    have e : l - 1 = 3 * (l / 3) + 1 := by omega
    rwa [e, pow_succ, pow_mul, hk3, one_pow, one_mul] at hc
  rw [hk1] at hz
  have : ((3 : ℕ) : ZMod l) = 0 := by push_cast; linear_combination hz
  rw [ZMod.natCast_eq_zero_iff, Nat.prime_dvd_prime_iff_eq hl Nat.prime_three] at this
  omega

/-- Independence when the two roots `k₁`, `k₂` of `X² + X + 1` modulo `l` are excluded. -/
theorem indep_split {l k₁ k₂ : ℕ} {φ : G →+ G} {P : G} (hl : l.Prime) (h0 : P ≠ 0)
    (h : l • P = 0) (hφ : P + φ P + φ (φ P) = 0) (hs : (k₁ + k₂ + 1) % l = 0) (hp : k₁ * k₂ % l = 1 % l)
    (h1 : φ P ≠ k₁ • P) (h2 : φ P ≠ k₂ • P) : φ P ∉ AddSubgroup.zmultiples P := by
  intro hm
  obtain ⟨k, hk⟩ := mem_zmultiples_nat hl.pos h hm
  have hd := root_dvd hl h0 h hφ hk
  have : Fact l.Prime := ⟨hl⟩
  have hz : ((k : ZMod l) * k + k + 1) = 0 := by
    have := (ZMod.natCast_eq_zero_iff _ _).mpr hd
    push_cast at this
    exact this
  have hs' : (k₁ : ZMod l) + k₂ + 1 = 0 := by
    have := (ZMod.natCast_eq_zero_iff _ _).mpr (Nat.dvd_of_mod_eq_zero hs)
    push_cast at this
    exact this
  have hp' : (k₁ : ZMod l) * k₂ = 1 := by
    have := (ZMod.natCast_eq_natCast_iff' _ _ _).mpr hp
    push_cast at this
    exact this
  have key : ((k : ZMod l) - k₁) * (k - k₂) = 0 := by
    linear_combination hz - (k : ZMod l) * hs' + hp'
  have tr : ∀ j : ℕ, (k : ZMod l) = j → k • P = j • P := by
    intro j e
    have e := (ZMod.natCast_eq_natCast_iff' _ _ _).mp e
    rw [← Nat.div_add_mod k l, ← Nat.div_add_mod j l, e, add_nsmul, add_nsmul, mul_nsmul, mul_nsmul, h,
      nsmul_zero, nsmul_zero]
  rcases mul_eq_zero.mp key with e | e
  · exact h1 (hk.trans (tr _ (sub_eq_zero.mp e)))
  · exact h2 (hk.trans (tr _ (sub_eq_zero.mp e)))

/-- In a finite abelian group with `r ∥ |G|`, the `r`-torsion is generated by any point of order `r`. -/
theorem torsion_cyclic [Finite G] {r m : ℕ} (hr : r.Prime) (hc : Nat.card G = m * r) (hm : ¬ r ∣ m)
    {P Q : G} (h0 : P ≠ 0) (h : r • P = 0) (hQ : r • Q = 0) : ∃ k : ℕ, Q = k • P := by
  by_cases hmem : Q ∈ AddSubgroup.zmultiples P
  · exact mem_zmultiples_nat hr.pos h hmem
  · have := sq_dvd_card hr h0 h hQ hmem
    rw [hc] at this
    exact absurd (Nat.dvd_of_mul_dvd_mul_right hr.pos this) hm

end Bls.Grp
