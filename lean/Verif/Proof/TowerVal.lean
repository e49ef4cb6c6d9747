import Verif.Proof.FQ12
import Mathlib.Algebra.BigOperators.Intervals
/-
`Rep` of tower elements in terms of `fld` of Verif/Spec/Denote.lean.
-/
set_option exponentiation.threshold 1000
namespace Bls

theorem FQ.rep_iff_int {a : FQ} {x : Fq} : a.Rep x ↔ a.isValid = true ∧ (a.int : Fq) = x := by
  constructor
  · intro h
    exact ⟨h.isValid, by rw [h.int, ZMod.natCast_zmod_val]⟩
  · rintro ⟨h, rfl⟩; exact FQ.rep_int h

theorem FQ2.rep_iff {a : FQ2} {x : Fq2} : a.Rep x ↔ a.isValid = true ∧ a.fld = x := by
  rw [FQ2.isValid, Bool.and_eq_true, Fq2.ext_iff]
  constructor
  · intro h
    have h0 := FQ.rep_iff_int.mp h.c0
    have h1 := FQ.rep_iff_int.mp h.c1
    exact ⟨⟨h0.1, h1.1⟩, h0.2, h1.2⟩
  · rintro ⟨⟨h0, h1⟩, e0, e1⟩
    exact ⟨FQ.rep_iff_int.mpr ⟨h0, e0⟩, FQ.rep_iff_int.mpr ⟨h1, e1⟩⟩

theorem FQ6.rep_iff {a : FQ6} {x : Fq6} : a.Rep x ↔ a.isValid = true ∧ a.fld = x := by
  rw [FQ6.isValid, Bool.and_eq_true, Bool.and_eq_true, Fq6.ext_iff]
  constructor
  · intro h
    have h0 := FQ2.rep_iff.mp h.c0
    have h1 := FQ2.rep_iff.mp h.c1
    have h2 := FQ2.rep_iff.mp h.c2
    exact ⟨⟨⟨h0.1, h1.1⟩, h2.1⟩, h0.2, h1.2, h2.2⟩
  · rintro ⟨⟨⟨h0, h1⟩, h2⟩, e0, e1, e2⟩
    exact ⟨FQ2.rep_iff.mpr ⟨h0, e0⟩, FQ2.rep_iff.mpr ⟨h1, e1⟩, FQ2.rep_iff.mpr ⟨h2, e2⟩⟩

theorem FQ12.rep_iff {a : FQ12} {x : Fq12} : a.Rep x ↔ a.isValid = true ∧ a.fld = x := by
  rw [FQ12.isValid, Bool.and_eq_true, Fq12.ext_iff]
  constructor
  · intro h
    have h0 := FQ6.rep_iff.mp h.c0
    have h1 := FQ6.rep_iff.mp h.c1
    exact ⟨⟨h0.1, h1.1⟩, h0.2, h1.2⟩
  · rintro ⟨⟨h0, h1⟩, e0, e1⟩
    exact ⟨FQ6.rep_iff.mpr ⟨h0, e0⟩, FQ6.rep_iff.mpr ⟨h1, e1⟩⟩

theorem FQ2.rep {a : FQ2} (h : a.isValid = true) : a.Rep a.fld := FQ2.rep_iff.mpr ⟨h, rfl⟩
theorem FQ6.rep {a : FQ6} (h : a.isValid = true) : a.Rep a.fld := FQ6.rep_iff.mpr ⟨h, rfl⟩
theorem FQ12.rep {a : FQ12} (h : a.isValid = true) : a.Rep a.fld := FQ12.rep_iff.mpr ⟨h, rfl⟩

theorem FQ2.Rep.out {a : FQ2} {x : Fq2} (h : a.Rep x) : a.isValid = true ∧ a.fld = x := FQ2.rep_iff.mp h
theorem FQ6.Rep.out {a : FQ6} {x : Fq6} (h : a.Rep x) : a.isValid = true ∧ a.fld = x := FQ6.rep_iff.mp h
theorem FQ12.Rep.out {a : FQ12} {x : Fq12} (h : a.Rep x) : a.isValid = true ∧ a.fld = x := FQ12.rep_iff.mp h

/-- Every field element is denoted by exactly one canonical FQ. -/
theorem FQ.exists_rep (x : Fq) : ∃ a : FQ, a.Rep x := by
  have h : (FQRepr.ofNat x.val).toNat = x.val := FQRepr.ofNat_toNat (lt_trans (ZMod.val_lt x) (by have := q_lt; omega))
  refine ⟨FQ.ofRepr (.ofNat x.val), ?_⟩
  have := FQ.ofRepr_rep (o := .ofNat x.val) (by rw [h]; exact ZMod.val_lt x)
  rwa [h, ZMod.natCast_zmod_val] at this

theorem FQ2.exists_rep (x : Fq2) : ∃ a : FQ2, a.Rep x := by
  obtain ⟨a, ha⟩ := FQ.exists_rep x.c0
  obtain ⟨b, hb⟩ := FQ.exists_rep x.c1
  exact ⟨⟨a, b⟩, ha, hb⟩

theorem FQ6.exists_rep (x : Fq6) : ∃ a : FQ6, a.Rep x := by
  obtain ⟨a, ha⟩ := FQ2.exists_rep x.c0
  obtain ⟨b, hb⟩ := FQ2.exists_rep x.c1
  obtain ⟨c, hc⟩ := FQ2.exists_rep x.c2
  exact ⟨⟨a, b, c⟩, ha, hb, hc⟩

theorem FQ12.exists_rep (x : Fq12) : ∃ a : FQ12, a.Rep x := by
  obtain ⟨a, ha⟩ := FQ6.exists_rep x.c0
  obtain ⟨b, hb⟩ := FQ6.exists_rep x.c1
  exact ⟨⟨a, b⟩, ha, hb⟩

/-! ### FQ2.MulBits -/

theorem FQ2.mulBitsLoop_spec {f : FQ2} {x : Fq2} (hf : f.Rep x) (b bitLen : ℕ) : ∀ (k i : ℕ) (res : FQ2) (y : Fq2),
    i + k = bitLen → y = ((b / 2 ^ k : ℕ) : Fq2) * x → res.Rep y →
    (FQ2.mulBitsLoop f b bitLen k i res).Rep ((b : Fq2) * x) := by
  intro k
  induction k with
  | zero =>
    intro i res y _ hy hr
    unfold FQ2.mulBitsLoop
    rw [pow_zero, Nat.div_one] at hy
    rw [← hy]; exact hr
  | succ k ih =>
    intro i res y hik hy hr
    unfold FQ2.mulBitsLoop
    have hidx : bitLen - 1 - i = k := by omega
    have hd : b / 2 ^ k = 2 * (b / 2 ^ (k + 1)) + (b / 2 ^ k) % 2 := by
      rw [pow_succ, ← Nat.div_div_eq_div_mul]; omega
    have ht : b.testBit k = decide ((b / 2 ^ k) % 2 = 1) := by
      rw [Nat.testBit_eq_decide_div_mod_eq]
    simp only [hidx, ht]
    by_cases hb : b / 2 ^ k % 2 = 1
    · rw [decide_eq_true hb, if_pos rfl]
      refine ih (i + 1) _ (y + y + x) (by omega) ?_ (hr.double.add hf)
      rw [hd, hb, hy]; push_cast; ring
    · rw [decide_eq_false hb, if_neg Bool.false_ne_true]
      refine ih (i + 1) _ (y + y) (by omega) ?_ hr.double
      rw [hd, show b / 2 ^ k % 2 = 0 by omega, hy]; push_cast; ring

theorem FQ2.Rep.mulBits {f : FQ2} {x : Fq2} (hf : f.Rep x) (b : ℕ) : (f.mulBits b).Rep ((b : Fq2) * x) := by
  unfold FQ2.mulBits
  refine FQ2.mulBitsLoop_spec hf b _ _ 0 _ 0 (by omega) ?_ FQ2.zero_rep
  have : b / 2 ^ (if b = 0 then 0 else b.log2 + 1) = 0 := by
    split_ifs with h
    · rw [h, Nat.zero_div]
    · exact Nat.div_eq_of_lt Nat.lt_log2_self
  rw [this, Nat.cast_zero, zero_mul]

/-! ### FQ6.Exp -/

/-- What `f.MulAssign(f)` computes instead of the square. -/
noncomputable def Fq6.badSq (x : Fq6) : Fq6 :=
  ⟨(x * x).c0, (x * x).c1 + (x.c0 * x.c0 - x.c1 * x.c1), (x * x).c2 + (x.c0 * x.c0 - x.c2 * x.c2)⟩

theorem FQ6.expLoop_spec : ∀ (k fuel : ℕ) (n : FQRepr) (fi res : FQ6) (x y : Fq6), n.toNat < 2 ^ k → k < fuel →
    fi.Rep x → res.Rep y → ∃ out, FQ6.expLoop fuel n fi res = some out ∧
      out.Rep (y * ∏ i ∈ Finset.range k, if n.toNat.testBit i then Fq6.badSq^[i] x else 1) := by
  intro k
  induction k with
  | zero =>
    intro fuel n fi res x y hn hf hfi hN
    obtain ⟨fuel, rfl⟩ := Nat.exists_eq_add_of_lt hf
    have h0 : n.toNat = 0 := by simpa using hn
    refine ⟨res, ?_, by rw [Finset.prod_range_zero, mul_one]; exact hN⟩
    rw [FQ6.expLoop, if_neg (not_not.mpr (FQRepr.cmp_bigZero.mpr h0))]
  | succ k ih =>
    intro fuel n fi res x y hn hf hfi hN
    obtain ⟨fuel, rfl⟩ := Nat.exists_eq_add_of_lt (lt_of_le_of_lt (Nat.zero_le _) hf)
    rw [FQ6.expLoop]
    by_cases hc : n.cmp bigZero = 0
    · rw [if_neg (not_not.mpr hc)]
      have h0 := FQRepr.cmp_bigZero.mp hc
      refine ⟨res, rfl, ?_⟩
      rw [h0]
      simpa using hN
    · rw [if_pos hc]
      have hs := FQRepr.rsh_spec n 1
      rw [pow_one] at hs
      have hb : ∀ i, (n.rsh 1).toNat.testBit i = n.toNat.testBit (i + 1) := by
        intro i; rw [hs, Nat.testBit_succ]
      have hit : ∀ i, Fq6.badSq^[i] (Fq6.badSq x) = Fq6.badSq^[i + 1] x := fun i => rfl
      by_cases ho : n.isEven = true
      · obtain ⟨out, h1, h2⟩ := ih (0 + fuel) (n.rsh 1) fi.mulSelf res (Fq6.badSq x) y
          (by rw [hs]; rw [pow_succ] at hn; omega) (by omega) hfi.mulSelf hN
        refine ⟨out, ?_, ?_⟩
        · simp only [ho, Bool.not_true, Bool.false_eq_true, if_false]; exact h1
        · rw [FQRepr.isEven_iff] at ho
          have hz : n.toNat.testBit 0 = false := by rw [Nat.testBit_zero]; simp [ho]
          rw [Finset.prod_range_succ', hz, if_neg Bool.false_ne_true, mul_one]
          simp only [hb, hit] at h2
          exact h2
      · obtain ⟨out, h1, h2⟩ := ih (0 + fuel) (n.rsh 1) fi.mulSelf (res.mul fi) (Fq6.badSq x) (y * x)
          (by rw [hs]; rw [pow_succ] at hn; omega) (by omega) hfi.mulSelf (hN.mul hfi)
        refine ⟨out, ?_, ?_⟩
        · simp only [Bool.not_eq_true] at ho
          simp only [ho, Bool.not_false, if_true]; exact h1
        · rw [FQRepr.isEven_iff] at ho
          have hz : n.toNat.testBit 0 = true := by rw [Nat.testBit_zero]; simp; omega
          rw [Finset.prod_range_succ', hz, if_pos rfl]
          simp only [hb, hit] at h2
          rw [mul_comm (Finset.prod _ _), ← mul_assoc]
          exact h2

theorem FQ6.Rep.exp? {f : FQ6} {x : Fq6} (hf : f.Rep x) (n : FQRepr) :
    ∃ out, f.exp? n = some out ∧
      out.Rep (∏ i ∈ Finset.range 384, if n.toNat.testBit i then Fq6.badSq^[i] x else 1) := by
  have := FQ6.expLoop_spec 384 385 n f FQ6.one x 1 n.toNat_lt (by norm_num) hf FQ6.one_rep
  rwa [one_mul] at this

theorem prod_bits_two (F : ℕ → Fq6) (k : ℕ) :
    (∏ i ∈ Finset.range (k + 2), if (2 : ℕ).testBit i then F i else 1) = F 1 := by
  have hb : ∀ i ∈ Finset.range k, (if (2 : ℕ).testBit (i + 1 + 1) then F (i + 1 + 1) else 1) = 1 := by
    intro i _
    rw [show (2 : ℕ).testBit (i + 1 + 1) = false by rw [Nat.testBit_succ, Nat.testBit_succ]; simp]
    rfl
  rw [Finset.prod_range_succ', Finset.prod_range_succ', Finset.prod_congr rfl hb, Finset.prod_const_one,
    if_pos (by decide), if_neg (by decide), one_mul, mul_one]

theorem FQ2.exp?_eq (f : FQ2) (n : FQRepr) : f.exp? n = some (f.exp n) := by
  unfold FQ2.exp
  rw [FQ2.exp?_eq_some, Option.getD_some]

end Bls
