import Verif.Proof.Jacobian
import Verif.Proof.TowerVal
import Verif.Proof.Primes
import Verif.Model.G2
/-
Double-and-add computes multiples in any additive group.
-/
namespace Bls

theorem lt_natBitLen (n : ℕ) : n < 2 ^ natBitLen n := by
  unfold natBitLen
  split_ifs with h
  · subst h; norm_num
  · exact Nat.lt_log2_self

theorem scalarLoop_spec {α A : Type} [AddCommGroup A] (Rep : α → A → Prop) {dbl add : α → α} (P : A)
    (hdbl : ∀ {a Q}, Rep a Q → Rep (dbl a) (Q + Q)) (hadd : ∀ {a Q}, Rep a Q → Rep (add a) (Q + P))
    {zero : α} (hzero : Rep zero 0) (b : ℕ) {bit : ℕ → Option Bool} {n : ℕ} (hb : b < 2 ^ n)
    (hbit : ∀ i, i < n → bit i = some (b.testBit i)) :
    ∃ o, scalarLoop dbl add bit n n 0 zero = some o ∧ Rep o (b • P) := by
  have key : ∀ (k i : ℕ) (res : α), i + k = n → Rep res ((b / 2 ^ k) • P) →
      ∃ o, scalarLoop dbl add bit n k i res = some o ∧ Rep o (b • P) := by
    intro k
    induction k with
    | zero =>
      intro i res _ h
      rw [pow_zero, Nat.div_one] at h
      exact ⟨res, rfl, h⟩
    | succ k ih =>
      intro i res hi h
      have e : n - i - 1 = k := by omega
      have hd : b / 2 ^ k = 2 * (b / 2 ^ (k + 1)) + (b / 2 ^ k) % 2 := by
        rw [pow_succ, ← Nat.div_div_eq_div_mul]; omega
      have ht : b.testBit k = decide ((b / 2 ^ k) % 2 = 1) := by
        rw [Nat.testBit_eq_decide_div_mod_eq]
      rw [scalarLoop, e, hbit k (by omega), ht]
      dsimp only
      have h2 := hdbl h
      rw [← two_nsmul, ← mul_nsmul'] at h2
      by_cases ho : b / 2 ^ k % 2 = 1
      · rw [decide_eq_true ho, if_pos rfl]
        refine ih (i + 1) _ (by omega) ?_
        have h3 := hadd h2
        rw [← succ_nsmul] at h3
        rw [hd, ho]; exact h3
      · rw [decide_eq_false ho, if_neg Bool.false_ne_true]
        refine ih (i + 1) _ (by omega) ?_
        rw [hd, show b / 2 ^ k % 2 = 0 by omega, add_zero]; exact h2
  refine key n 0 zero (by omega) ?_
  rw [Nat.div_eq_of_lt hb, zero_nsmul]; exact hzero

theorem Fq.natCast_ne {n : ℕ} (h0 : 0 < n) (h1 : n < 5) : (n : Fq) ≠ 0 := by
  intro h
  rw [ZMod.natCast_eq_zero_iff] at h
  have := Nat.le_of_dvd h0 h
  have hq : 5 ≤ q := by rw [q_eq]; decide +kernel
  omega

instance goodCurve1 : GoodCurve (4 : Fq) where
  two_ne := by have := Fq.natCast_ne (n := 2) (by norm_num) (by norm_num); exact_mod_cast this
  three_ne := by have := Fq.natCast_ne (n := 3) (by norm_num) (by norm_num); exact_mod_cast this
  b_ne := by have := Fq.natCast_ne (n := 4) (by norm_num) (by norm_num); exact_mod_cast this

instance goodCurve2 : GoodCurve b2 where
  two_ne := by
    rw [← map_ofNat Fq2.of 2]
    exact (map_ne_zero Fq2.of).mpr (GoodCurve.two_ne (b := (4 : Fq)))
  three_ne := by
    rw [← map_ofNat Fq2.of 3]
    exact (map_ne_zero Fq2.of).mpr (GoodCurve.three_ne (b := (4 : Fq)))
  b_ne := fun h => GoodCurve.b_ne (b := (4 : Fq)) (congrArg Fq2.c0 h)

theorem FQ.Rep.fn {a : FQ} {x y : Fq} (h : a.Rep x) (h' : a.Rep y) : x = y := by
  rw [← (FQ.rep_iff_int.mp h).2, ← (FQ.rep_iff_int.mp h').2]

theorem FQ2.Rep.fn {a : FQ2} {x y : Fq2} (h : a.Rep x) (h' : a.Rep y) : x = y :=
  Fq2.ext (h.c0.fn h'.c0) (h.c1.fn h'.c1)

theorem bCoeff_rep : G1Affine.bCoeff.Rep 4 := by
  have := FQ.rep_raw (m := ⟨0xaa270000000cfff3, 0x53cc0032fc34000a, 0x478fe97a6b0a807f, 0xb1d37ebee6ba24d7, 0x8ec9733bbf78ab2f, 0x9d645513d83de7e⟩)
    (n := 4) (by rw [q]; decide +kernel)
  exact_mod_cast this

theorem bCoeffFQ2_rep : G2Affine.bCoeffFQ2.Rep b2 := ⟨bCoeff_rep, bCoeff_rep⟩

theorem Fq.Greater.asymm {x y : Fq} (h : Fq.Greater x y) : ¬ Fq.Greater y x := by
  unfold Fq.Greater at *; omega
theorem Fq.Greater.irrefl {x : Fq} : ¬ Fq.Greater x x := by unfold Fq.Greater; omega
theorem Fq.Greater.total {x y : Fq} (h : x ≠ y) : Fq.Greater x y ∨ Fq.Greater y x := by
  have h : x.val ≠ y.val := fun e => h (ZMod.val_injective q e)
  unfold Fq.Greater; omega

theorem Fq2.Greater.asymm {x y : Fq2} (h : Fq2.Greater x y) : ¬ Fq2.Greater y x := by
  unfold Fq2.Greater at *
  rintro (h' | ⟨h', h''⟩) <;> rcases h with h | ⟨h, h3⟩
  · omega
  · rw [h] at h'; omega
  · rw [h'] at h; omega
  · omega
theorem Fq2.Greater.irrefl {x : Fq2} : ¬ Fq2.Greater x x := fun h => h.asymm h
theorem Fq2.Greater.total {x y : Fq2} (h : x ≠ y) : Fq2.Greater x y ∨ Fq2.Greater y x := by
  unfold Fq2.Greater
  by_cases h1 : x.c1 = y.c1
  · have h0 : x.c0.val ≠ y.c0.val := fun e => h (Fq2.ext (ZMod.val_injective q e) h1)
    rcases Nat.lt_or_gt_of_ne h0 with h2 | h2
    · exact Or.inr (Or.inr ⟨h1, h2⟩)
    · exact Or.inl (Or.inr ⟨h1.symm, h2⟩)
  · have h0 : x.c1.val ≠ y.c1.val := fun e => h1 (ZMod.val_injective q e)
    rcases Nat.lt_or_gt_of_ne h0 with h2 | h2
    · exact Or.inr (Or.inl h2)
    · exact Or.inl (Or.inl h2)

theorem FQ.Rep.cmp_lt {a b : FQ} {x y : Fq} (ha : a.Rep x) (hb : b.Rep y) : a.cmp b < 0 ↔ Fq.Greater y x := by
  have h := ha.cmp hb
  unfold Fq.Greater
  rw [h]
  split_ifs <;> simp_all

theorem FQ.Rep.cmp_gt {a b : FQ} {x y : Fq} (ha : a.Rep x) (hb : b.Rep y) : a.cmp b > 0 ↔ Fq.Greater x y := by
  have h := ha.cmp hb
  unfold Fq.Greater
  rw [h]
  split_ifs <;> simp_all <;> omega

theorem FQ2.Rep.cmp_lt {a b : FQ2} {x y : Fq2} (ha : a.Rep x) (hb : b.Rep y) : a.cmp b < 0 ↔ Fq2.Greater y x := by
  have h := ha.cmp hb
  rw [h]
  unfold Fq2.Greater
  split_ifs with h1 h2
  · exact iff_of_true (by decide) h1
  · exact iff_of_false (by decide) h1
  · exact iff_of_false (by decide) h1

theorem FQ2.Rep.cmp_gt {a b : FQ2} {x y : Fq2} (ha : a.Rep x) (hb : b.Rep y) : a.cmp b > 0 ↔ Fq2.Greater x y := by
  have h := ha.cmp hb
  rw [h]
  split_ifs with h1 h2
  · exact iff_of_false (by decide) (Fq2.Greater.asymm h1)
  · subst h2; exact iff_of_false (by decide) Fq2.Greater.irrefl
  · refine iff_of_true (by decide) ?_
    rcases Fq2.Greater.total h2 with h | h
    · exact h
    · exact absurd h h1

end Bls
