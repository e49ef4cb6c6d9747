import Verif.Spec.Bits
import Verif.Proof.FRExp
import Verif.Proof.FQExp
import Verif.Proof.FQInverse
/-
`Parity`, `MulBits`, `MulBytes` and random elements.
-/
set_option exponentiation.threshold 1000
namespace Bls

/-- The number whose binary digits are those of `n`, lowest `k`, in reverse order. -/
def revBits (n : ℕ) : ℕ → ℕ → ℕ
  | 0, _ => 0
  | k + 1, i => (n.testBit i).toNat * 2 ^ k + revBits n k (i + 1)

theorem revBits_eq (n k : ℕ) : ∀ i,
    revBits n k i = Nat.ofDigits 2 ((List.range k).map fun j => n / 2 ^ (i + j) % 2).reverse := by
  induction k with
  | zero => intro i; rfl
  | succ k ih =>
    intro i
    rw [revBits, ih, List.range_succ_eq_map, List.map_cons, List.reverse_cons, Nat.ofDigits_append,
      List.map_map, List.length_reverse, List.length_map, List.length_range, Nat.ofDigits_singleton,
      Nat.toNat_testBit, add_zero, add_comm, mul_comm]
    congr 4
    funext j
    simp only [Function.comp, Nat.succ_eq_add_one]
    rw [show i + 1 + j = i + (j + 1) by omega]

theorem revBits_zero (n k : ℕ) : revBits n k 0 = bitReversed k n := by
  rw [revBits_eq, bitReversed, binary]
  congr 3
  funext j
  rw [zero_add]

/-- A byte's digits in reverse order. -/
def revByte (w : UInt8) : ℕ := revBits w.toNat 8 0

theorem u8_bit (w : UInt8) {i : ℕ} (hi : i < 8) : (w &&& (1 <<< UInt8.ofNat i) != 0) = w.toNat.testBit i := by
  have h1 : ((1 : UInt8) <<< UInt8.ofNat i).toNat = 2 ^ i := by
    have : i = 0 ∨ i = 1 ∨ i = 2 ∨ i = 3 ∨ i = 4 ∨ i = 5 ∨ i = 6 ∨ i = 7 := by omega
    rcases this with h | h | h | h | h | h | h | h <;> subst h <;> rfl
  have h2 : (w &&& (1 <<< UInt8.ofNat i)).toNat = 2 ^ i * (w.toNat.testBit i).toNat := by
    rw [UInt8.toNat_and, h1, Nat.and_two_pow, mul_comm]
  cases hb : w.toNat.testBit i
  · rw [hb] at h2
    have : w &&& (1 <<< UInt8.ofNat i) = 0 := UInt8.toNat_inj.mp (by rw [h2]; rfl)
    rw [this]; rfl
  · rw [hb] at h2
    have : w &&& (1 <<< UInt8.ofNat i) ≠ 0 := fun h => by
      rw [h] at h2; simp at h2; exact absurd h2 (Nat.two_pow_pos i).ne
    simp [this]


theorem ofDigits_lt_testBit (d : ℕ) (t : ℕ) (i : ℕ) (hd : d < 256) :
    (d + 256 * t).testBit i = if i < 8 then d.testBit i else t.testBit (i - 8) := by
  rw [add_comm, show (256 : ℕ) = 2 ^ 8 by norm_num, Nat.testBit_two_pow_mul_add _ hd]

theorem bytes_testBit : ∀ (b : List UInt8) (i : ℕ) (h : i / 8 < b.length),
    (Nat.ofDigits 256 (b.map UInt8.toNat)).testBit i = (b[i / 8]).toNat.testBit (i % 8)
  | [], i, h => by simp at h
  | x :: t, i, h => by
    rw [List.map_cons, Nat.ofDigits_cons, ofDigits_lt_testBit _ _ _ x.toNat_lt]
    split_ifs with h8
    · have : i / 8 = 0 := by omega
      simp only [this, List.getElem_cons_zero]
      rw [Nat.mod_eq_of_lt h8]
    · obtain ⟨j, rfl⟩ := Nat.exists_eq_add_of_le (not_lt.mp h8)
      have hj : (8 + j) / 8 = j / 8 + 1 := by omega
      simp only [hj, List.getElem_cons_succ]
      rw [Nat.add_sub_cancel_left, bytes_testBit t j (by rw [List.length_cons] at h; omega)]
      congr 1; omega

theorem FQ.mulBitsLoop_spec {f : FQ} {x : Fq} (hf : f.Rep x) (b : FQRepr) : ∀ (k i : ℕ) (res : FQ) (y : Fq),
    i + k ≤ 384 → res.Rep y →
    ∃ o, FQ.mulBitsLoop f b k i res = some o ∧ o.Rep (2 ^ k * y + (revBits b.toNat k i : ℕ) * x) := by
  intro k
  induction k with
  | zero => intro i res y _ hr; exact ⟨res, rfl, by simpa [revBits] using hr⟩
  | succ k ih =>
    intro i res y hi hr
    rw [FQ.mulBitsLoop, FQRepr.bit_spec, if_pos (by omega)]
    cases hb : b.toNat.testBit i
    · obtain ⟨o, h1, h2⟩ := ih (i + 1) _ _ (by omega) hr.double
      refine ⟨o, h1, ?_⟩
      convert h2 using 1
      simp only [revBits, hb, Bool.toNat_false, zero_mul, zero_add, pow_succ]; ring
    · obtain ⟨o, h1, h2⟩ := ih (i + 1) _ _ (by omega) (hr.double.add hf)
      refine ⟨o, h1, ?_⟩
      convert h2 using 1
      simp only [revBits, hb, Bool.toNat_true, one_mul, pow_succ]; push_cast; ring

theorem FQ.Rep.mulBits {f : FQ} {x : Fq} (hf : f.Rep x) (b : FQRepr) :
    ∃ o, f.mulBits b = some o ∧ o.Rep ((revBits b.toNat (natBitLen b.toNat) 0 : ℕ) * x) := by
  unfold FQ.mulBits
  rw [FQRepr.bitLen_spec]
  have h : natBitLen b.toNat ≤ 384 := natBitLen_le.mpr b.toNat_lt
  obtain ⟨o, h1, h2⟩ := FQ.mulBitsLoop_spec hf b (natBitLen b.toNat) 0 FQ.zero 0 (by omega) FQ.zero_rep
  exact ⟨o, h1, by rwa [mul_zero, zero_add] at h2⟩

theorem FQ.mulBytesLoop_spec {f : FQ} {x : Fq} (hf : f.Rep x) (b : List UInt8) :
    ∀ (k i : ℕ) (res : FQ) (y : Fq),
    i + k ≤ b.length * 8 → res.Rep y →
    ∃ o, FQ.mulBytesLoop f b k i res = some o ∧ o.Rep (2 ^ k * y +
      (revBits (Nat.ofDigits 256 (b.map UInt8.toNat)) k i : ℕ) * x) := by
  intro k
  induction k with
  | zero => intro i res y _ hr; exact ⟨res, rfl, by simpa [revBits] using hr⟩
  | succ k ih =>
    intro i res y hi hr
    have hlt : i / 8 < b.length := by omega
    rw [FQ.mulBytesLoop, List.getElem?_eq_getElem hlt]
    simp only []
    rw [u8_bit _ (Nat.mod_lt i (by norm_num : 0 < 8)), ← bytes_testBit b i hlt]
    cases hb : (Nat.ofDigits 256 (b.map UInt8.toNat)).testBit i
    · obtain ⟨o, h1, h2⟩ := ih (i + 1) _ _ (by omega) hr.double
      refine ⟨o, h1, ?_⟩
      convert h2 using 1
      simp only [revBits, hb, Bool.toNat_false, zero_mul, zero_add, pow_succ]; ring
    · obtain ⟨o, h1, h2⟩ := ih (i + 1) _ _ (by omega) (hr.double.add hf)
      refine ⟨o, h1, ?_⟩
      convert h2 using 1
      simp only [revBits, hb, Bool.toNat_true, one_mul, pow_succ]; push_cast; ring

theorem FQ.Rep.mulBytes {f : FQ} {x : Fq} (hf : f.Rep x) (b : List UInt8) :
    ∃ o, f.mulBytes b = some o ∧
      o.Rep ((revBits (Nat.ofDigits 256 (b.map UInt8.toNat)) (8 * b.length) 0 : ℕ) * x) := by
  unfold FQ.mulBytes
  obtain ⟨o, h1, h2⟩ := FQ.mulBytesLoop_spec hf b (b.length * 8) 0 FQ.zero 0 (by omega) FQ.zero_rep
  exact ⟨o, h1, by rwa [mul_zero, zero_add, mul_comm b.length] at h2⟩

theorem FQ.Rep.parity {f : FQ} {x : Fq} (hf : f.Rep x) : f.parity = true ↔ (-x).val < x.val := by
  have h := hf.cmp hf.neg
  have e : f.parity = decide (f.cmp f.neg > 0) := rfl
  rw [e, decide_eq_true_iff, h]
  split_ifs <;> simp <;> omega

theorem FR.mulBitsLoop_spec {f : FR} {x : Fr} (hf : f.Rep x) (b : FRRepr) : ∀ (k i : ℕ) (res : FR) (y : Fr),
    i + k ≤ 256 → res.Rep y →
    ∃ o, FR.mulBitsLoop f b k i res = some o ∧ o.Rep (2 ^ k * y + (revBits b.toNat k i : ℕ) * x) := by
  intro k
  induction k with
  | zero => intro i res y _ hr; exact ⟨res, rfl, by simpa [revBits] using hr⟩
  | succ k ih =>
    intro i res y hi hr
    rw [FR.mulBitsLoop, FRRepr.bit_spec, if_pos (by omega)]
    cases hb : b.toNat.testBit i
    · obtain ⟨o, h1, h2⟩ := ih (i + 1) _ _ (by omega) hr.double
      refine ⟨o, h1, ?_⟩
      convert h2 using 1
      simp only [revBits, hb, Bool.toNat_false, zero_mul, zero_add, pow_succ]; ring
    · obtain ⟨o, h1, h2⟩ := ih (i + 1) _ _ (by omega) (hr.double.add hf)
      refine ⟨o, h1, ?_⟩
      convert h2 using 1
      simp only [revBits, hb, Bool.toNat_true, one_mul, pow_succ]; push_cast; ring

theorem FR.Rep.mulBits {f : FR} {x : Fr} (hf : f.Rep x) (b : FRRepr) :
    ∃ o, f.mulBits b = some o ∧ o.Rep ((revBits b.toNat (natBitLen b.toNat) 0 : ℕ) * x) := by
  unfold FR.mulBits
  rw [FRRepr.bitLen_spec]
  have h : natBitLen b.toNat ≤ 256 := natBitLen_le.mpr b.toNat_lt
  obtain ⟨o, h1, h2⟩ := FR.mulBitsLoop_spec hf b (natBitLen b.toNat) 0 FR.zero 0 (by omega) FR.zero_rep
  exact ⟨o, h1, by rwa [mul_zero, zero_add] at h2⟩

theorem FR.mulBytesLoop_spec {f : FR} {x : Fr} (hf : f.Rep x) (b : List UInt8) :
    ∀ (k i : ℕ) (res : FR) (y : Fr),
    i + k ≤ b.length * 8 → res.Rep y →
    ∃ o, FR.mulBytesLoop f b k i res = some o ∧ o.Rep (2 ^ k * y +
      (revBits (Nat.ofDigits 256 (b.map UInt8.toNat)) k i : ℕ) * x) := by
  intro k
  induction k with
  | zero => intro i res y _ hr; exact ⟨res, rfl, by simpa [revBits] using hr⟩
  | succ k ih =>
    intro i res y hi hr
    have hlt : i / 8 < b.length := by omega
    rw [FR.mulBytesLoop, List.getElem?_eq_getElem hlt]
    simp only []
    rw [u8_bit _ (Nat.mod_lt i (by norm_num : 0 < 8)), ← bytes_testBit b i hlt]
    cases hb : (Nat.ofDigits 256 (b.map UInt8.toNat)).testBit i
    · obtain ⟨o, h1, h2⟩ := ih (i + 1) _ _ (by omega) hr.double
      refine ⟨o, h1, ?_⟩
      convert h2 using 1
      simp only [revBits, hb, Bool.toNat_false, zero_mul, zero_add, pow_succ]; ring
    · obtain ⟨o, h1, h2⟩ := ih (i + 1) _ _ (by omega) (hr.double.add hf)
      refine ⟨o, h1, ?_⟩
      convert h2 using 1
      simp only [revBits, hb, Bool.toNat_true, one_mul, pow_succ]; push_cast; ring

theorem FR.Rep.mulBytes {f : FR} {x : Fr} (hf : f.Rep x) (b : List UInt8) :
    ∃ o, f.mulBytes b = some o ∧
      o.Rep ((revBits (Nat.ofDigits 256 (b.map UInt8.toNat)) (8 * b.length) 0 : ℕ) * x) := by
  unfold FR.mulBytes
  obtain ⟨o, h1, h2⟩ := FR.mulBytesLoop_spec hf b (b.length * 8) 0 FR.zero 0 (by omega) FR.zero_rep
  exact ⟨o, h1, by rwa [mul_zero, zero_add, mul_comm b.length] at h2⟩

theorem FR.Rep.parity {f : FR} {x : Fr} (hf : f.Rep x) : f.parity = true ↔ (-x).val < x.val := by
  have h := hf.cmp hf.neg
  have e : f.parity = decide (f.cmp f.neg > 0) := rfl
  rw [e, decide_eq_true_iff, h]
  split_ifs <;> simp <;> omega

end Bls
