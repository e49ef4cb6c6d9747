import Mathlib.Data.Nat.ModEq
import Verif.Proof.FRRepr
import Verif.Proof.BitIterator
/-
Shifts, bit access, byte and big-integer encodings of the 6- and 4-limb integers.
-/
set_option exponentiation.threshold 1000
namespace Bls

theorem ofNat_lt64 {n : ℕ} (h : n < 64) : (UInt64.ofNat n).toNat % 64 = n := by
  rw [UInt64.toNat_ofNat', Nat.mod_eq_of_lt (lt_trans h (by norm_num)), Nat.mod_eq_of_lt h]

theorem shr_or (x y : W) {n : ℕ} (h0 : 0 < n) (h1 : n < 64) :
    ((x >>> UInt64.ofNat n) ||| (y <<< UInt64.ofNat (64 - n))).toNat
      = x.toNat / 2 ^ n + (y.toNat % 2 ^ n) * 2 ^ (64 - n) := by
  have hx := x.lt
  have e : 2 ^ 64 = 2 ^ n * 2 ^ (64 - n) := by rw [← pow_add]; congr 1; omega
  rw [UInt64.toNat_or, UInt64.toNat_shiftLeft, UInt64.toNat_shiftRight, ofNat_lt64 h1,
    ofNat_lt64 (by omega), Nat.shiftRight_eq_div_pow]
  have h2 : y.toNat <<< (64 - n) % 2 ^ 64 = (y.toNat % 2 ^ n) <<< (64 - n) := by
    simp only [Nat.shiftLeft_eq]
    rw [e, Nat.mul_mod_mul_right]
  have h3 : x.toNat / 2 ^ n < 2 ^ (64 - n) := by
    rw [Nat.div_lt_iff_lt_mul (by positivity), mul_comm, ← e]; exact hx
  rw [h2, Nat.or_comm, ← Nat.shiftLeft_add_eq_or_of_lt h3, Nat.shiftLeft_eq, add_comm]

theorem shl_or (x y : W) {n : ℕ} (h0 : 0 < n) (h1 : n < 64) :
    ((x <<< UInt64.ofNat n) ||| (y >>> UInt64.ofNat (64 - n))).toNat
      = (x.toNat % 2 ^ (64 - n)) * 2 ^ n + y.toNat / 2 ^ (64 - n) := by
  have hy := y.lt
  have e : 2 ^ 64 = 2 ^ (64 - n) * 2 ^ n := by rw [← pow_add]; congr 1; omega
  rw [UInt64.toNat_or, UInt64.toNat_shiftLeft, UInt64.toNat_shiftRight, ofNat_lt64 h1,
    ofNat_lt64 (by omega), Nat.shiftRight_eq_div_pow]
  have h2 : x.toNat <<< n % 2 ^ 64 = (x.toNat % 2 ^ (64 - n)) <<< n := by
    simp only [Nat.shiftLeft_eq]
    rw [e, Nat.mul_mod_mul_right]
  have h3 : y.toNat / 2 ^ (64 - n) < 2 ^ n := by
    rw [Nat.div_lt_iff_lt_mul (by positivity), mul_comm, ← e]; exact hy
  rw [h2, ← Nat.shiftLeft_add_eq_or_of_lt h3, Nat.shiftLeft_eq]

theorem shr_or_zero (x : W) {n : ℕ} (h1 : n < 64) :
    ((x >>> UInt64.ofNat n) ||| 0).toNat = x.toNat / 2 ^ n := by
  rw [UInt64.or_zero, UInt64.toNat_shiftRight, ofNat_lt64 h1, Nat.shiftRight_eq_div_pow]

theorem shl_or_zero (x : W) {n : ℕ} (h1 : n < 64) :
    ((x <<< UInt64.ofNat n) ||| 0).toNat = (x.toNat % 2 ^ (64 - n)) * 2 ^ n := by
  have e : 2 ^ 64 = 2 ^ (64 - n) * 2 ^ n := by rw [← pow_add]; congr 1; omega
  rw [UInt64.or_zero, UInt64.toNat_shiftLeft, ofNat_lt64 h1, Nat.shiftLeft_eq, e,
    Nat.mul_mod_mul_right]

theorem leadingZeros64_spec (w : W) : leadingZeros64 w = if w.toNat = 0 then 64 else 63 - Nat.log2 w.toNat := by
  unfold leadingZeros64
  by_cases h : w = 0
  · subst h; simp
  · have h2 : w.toNat ≠ 0 := fun h' => h (UInt64.toNat_inj.mp h')
    rw [if_neg h, if_neg h2]

/-- The bit length of a natural number. -/
def natBitLen (n : ℕ) : ℕ := if n = 0 then 0 else Nat.log2 n + 1

theorem natBitLen_le {n k : ℕ} : natBitLen n ≤ k ↔ n < 2 ^ k := by
  unfold natBitLen
  split
  · rename_i h; subst h; simp
  · rename_i h; rw [Nat.succ_le_iff, Nat.log2_lt h]

theorem natBitLen_word {w : W} : 64 - leadingZeros64 w = natBitLen w.toNat := by
  rw [leadingZeros64_spec, natBitLen]
  split
  · rfl
  · rename_i h
    have := (Nat.log2_lt h).mpr w.lt
    omega

theorem leading_ne (w : W) : leadingZeros64 w ≠ 64 ↔ w.toNat ≠ 0 := by
  rw [leadingZeros64_spec]
  split
  · rename_i h; simp [h]
  · rename_i h; constructor
    · intro _; exact h
    · intro _; omega

theorem leading_le (w : W) : leadingZeros64 w ≤ 64 := by
  rw [leadingZeros64_spec]; split <;> omega

theorem natBitLen_shift {a b k : ℕ} (ha : a ≠ 0) (hb : b < 2 ^ k) :
    natBitLen (b + 2 ^ k * a) = k + natBitLen a := by
  apply le_antisymm
  · rw [natBitLen_le, pow_add]
    have h1 : a < 2 ^ natBitLen a := natBitLen_le.mp (le_refl _)
    calc b + 2 ^ k * a < 2 ^ k + 2 ^ k * a := by omega
      _ = 2 ^ k * (a + 1) := by ring
      _ ≤ 2 ^ k * 2 ^ natBitLen a := Nat.mul_le_mul_left _ h1
  · by_contra h
    have h2 : natBitLen (b + 2 ^ k * a) ≤ k + natBitLen a - 1 := by omega
    have h3 : 1 ≤ natBitLen a := by unfold natBitLen; rw [if_neg ha]; omega
    rw [natBitLen_le, show k + natBitLen a - 1 = k + (natBitLen a - 1) by omega, pow_add] at h2
    have h4 : a < 2 ^ (natBitLen a - 1) := by
      by_contra h5
      have := Nat.mul_le_mul_left (2 ^ k) (not_lt.mp h5)
      omega
    have := natBitLen_le.mpr h4
    omega

namespace FQRepr

theorem rshWord_spec (f : FQRepr) : f.rshWord.toNat = f.toNat / 2 ^ 64 := by
  have h0 := f.l0.lt; have h1 := f.l1.lt; have h2 := f.l2.lt; have h3 := f.l3.lt; have h4 := f.l4.lt; have h5 := f.l5.lt
  simp only [rshWord, toNat, UInt64.toNat_zero]
  omega

theorem lshWord_spec (f : FQRepr) : f.lshWord.toNat = f.toNat * 2 ^ 64 % 2 ^ 384 := by
  have h0 := f.l0.lt; have h1 := f.l1.lt; have h2 := f.l2.lt; have h3 := f.l3.lt; have h4 := f.l4.lt; have h5 := f.l5.lt
  simp only [lshWord, toNat, UInt64.toNat_zero]
  omega

theorem rshBits_spec (f : FQRepr) {n : ℕ} (hn0 : 0 < n) (hn : n < 64) :
    (f.rshBits n).toNat = f.toNat / 2 ^ n := by
  have e : 2 ^ n * 2 ^ (64 - n) = 2 ^ 64 := by rw [← pow_add]; congr 1; omega
  have hpos : 0 < 2 ^ n := by positivity
  have hm := Nat.mod_lt f.l0.toNat hpos
  have d0 := Nat.div_add_mod f.l0.toNat (2 ^ n)
  have d1 := Nat.div_add_mod f.l1.toNat (2 ^ n)
  have d2 := Nat.div_add_mod f.l2.toNat (2 ^ n)
  have d3 := Nat.div_add_mod f.l3.toNat (2 ^ n)
  have d4 := Nat.div_add_mod f.l4.toNat (2 ^ n)
  have d5 := Nat.div_add_mod f.l5.toNat (2 ^ n)
  symm
  rw [Nat.div_eq_iff hpos]
  simp only [rshBits, toNat, shr_or _ _ hn0 hn, shr_or_zero _ hn]
  generalize f.l0.toNat / 2 ^ n = a0 at *
  generalize f.l0.toNat % 2 ^ n = b0 at *
  generalize f.l0.toNat = x0 at *
  generalize f.l1.toNat / 2 ^ n = a1 at *
  generalize f.l1.toNat % 2 ^ n = b1 at *
  generalize f.l1.toNat = x1 at *
  generalize f.l2.toNat / 2 ^ n = a2 at *
  generalize f.l2.toNat % 2 ^ n = b2 at *
  generalize f.l2.toNat = x2 at *
  generalize f.l3.toNat / 2 ^ n = a3 at *
  generalize f.l3.toNat % 2 ^ n = b3 at *
  generalize f.l3.toNat = x3 at *
  generalize f.l4.toNat / 2 ^ n = a4 at *
  generalize f.l4.toNat % 2 ^ n = b4 at *
  generalize f.l4.toNat = x4 at *
  generalize f.l5.toNat / 2 ^ n = a5 at *
  generalize f.l5.toNat % 2 ^ n = b5 at *
  generalize f.l5.toNat = x5 at *
  generalize 2 ^ n = P at *
  generalize 2 ^ (64 - n) = Q at *
  have key : x0 + 2 ^ 64 * x1 + 2 ^ 128 * x2 + 2 ^ 192 * x3 + 2 ^ 256 * x4 + 2 ^ 320 * x5 = ((a0 + b1 * Q) + 2 ^ 64 * (a1 + b2 * Q) + 2 ^ 128 * (a2 + b3 * Q) + 2 ^ 192 * (a3 + b4 * Q) + 2 ^ 256 * (a4 + b5 * Q) + 2 ^ 320 * a5) * P + b0 := by
    zify at *
    linear_combination - d0 - 2 ^ 64 * d1 - 2 ^ 128 * d2 - 2 ^ 192 * d3 - 2 ^ 256 * d4 - 2 ^ 320 * d5 - 2 ^ 0 * b1 * e - 2 ^ 64 * b2 * e - 2 ^ 128 * b3 * e - 2 ^ 192 * b4 * e - 2 ^ 256 * b5 * e
  omega

theorem lshBits_spec (f : FQRepr) {n : ℕ} (hn0 : 0 < n) (hn : n < 64) :
    (f.lshBits n).toNat = f.toNat * 2 ^ n % 2 ^ 384 := by
  have hlt := (f.lshBits n).toNat_lt
  have e : 2 ^ n * 2 ^ (64 - n) = 2 ^ 64 := by rw [← pow_add]; congr 1; omega
  have d0 := Nat.div_add_mod f.l0.toNat (2 ^ (64 - n))
  have d1 := Nat.div_add_mod f.l1.toNat (2 ^ (64 - n))
  have d2 := Nat.div_add_mod f.l2.toNat (2 ^ (64 - n))
  have d3 := Nat.div_add_mod f.l3.toNat (2 ^ (64 - n))
  have d4 := Nat.div_add_mod f.l4.toNat (2 ^ (64 - n))
  have d5 := Nat.div_add_mod f.l5.toNat (2 ^ (64 - n))
  symm
  rw [← Nat.mod_eq_of_lt hlt]
  refine Nat.ModEq.symm ((Nat.modEq_iff_dvd).mpr ?_)
  simp only [lshBits, toNat, shl_or _ _ hn0 hn, shl_or_zero _ hn]
  generalize f.l0.toNat / 2 ^ (64 - n) = a0 at *
  generalize f.l0.toNat % 2 ^ (64 - n) = b0 at *
  generalize f.l0.toNat = x0 at *
  generalize f.l1.toNat / 2 ^ (64 - n) = a1 at *
  generalize f.l1.toNat % 2 ^ (64 - n) = b1 at *
  generalize f.l1.toNat = x1 at *
  generalize f.l2.toNat / 2 ^ (64 - n) = a2 at *
  generalize f.l2.toNat % 2 ^ (64 - n) = b2 at *
  generalize f.l2.toNat = x2 at *
  generalize f.l3.toNat / 2 ^ (64 - n) = a3 at *
  generalize f.l3.toNat % 2 ^ (64 - n) = b3 at *
  generalize f.l3.toNat = x3 at *
  generalize f.l4.toNat / 2 ^ (64 - n) = a4 at *
  generalize f.l4.toNat % 2 ^ (64 - n) = b4 at *
  generalize f.l4.toNat = x4 at *
  generalize f.l5.toNat / 2 ^ (64 - n) = a5 at *
  generalize f.l5.toNat % 2 ^ (64 - n) = b5 at *
  generalize f.l5.toNat = x5 at *
  generalize 2 ^ n = P at *
  generalize 2 ^ (64 - n) = Q at *
  push_cast
  refine ⟨a5, ?_⟩
  zify at *
  linear_combination - P * d0 - 2 ^ 64 * P * d1 - 2 ^ 128 * P * d2 - 2 ^ 192 * P * d3 - 2 ^ 256 * P * d4 - 2 ^ 320 * P * d5 + a0 * e + 2 ^ 64 * a1 * e + 2 ^ 128 * a2 * e + 2 ^ 192 * a3 * e + 2 ^ 256 * a4 * e + 2 ^ 320 * a5 * e

theorem rsh_loop_spec (n : ℕ) : ∀ f : FQRepr, (rsh.loop f n).toNat = f.toNat / 2 ^ n := by
  induction n using Nat.strong_induction_on with
  | _ n ih =>
    intro f
    rw [rsh.loop]
    split
    · rename_i h
      rw [ih (n - 64) (by omega), rshWord_spec, Nat.div_div_eq_div_mul, ← pow_add]
      congr 2; omega
    · split
      · rw [rshBits_spec f (by omega) (by omega)]
      · have : n = 0 := by omega
        subst this; simp

theorem lsh_loop_spec (n : ℕ) : ∀ f : FQRepr, (lsh.loop f n).toNat = f.toNat * 2 ^ n % 2 ^ 384 := by
  induction n using Nat.strong_induction_on with
  | _ n ih =>
    intro f
    rw [lsh.loop]
    split
    · rename_i h
      rw [ih (n - 64) (by omega), lshWord_spec, Nat.mod_mul_mod, mul_assoc, ← pow_add]
      congr 3; omega
    · split
      · rw [lshBits_spec f (by omega) (by omega)]
      · have : n = 0 := by omega
        subst this
        rw [pow_zero, mul_one]; exact (Nat.mod_eq_of_lt f.toNat_lt).symm

theorem rsh_spec (f : FQRepr) (n : ℕ) : (f.rsh n).toNat = f.toNat / 2 ^ n := by
  unfold rsh
  split
  · rename_i h
    have h1 : 2 ^ 384 ≤ 2 ^ n := Nat.pow_le_pow_right (by norm_num) h
    rw [Nat.div_eq_of_lt (lt_of_lt_of_le f.toNat_lt h1)]; rfl
  · exact rsh_loop_spec n f

theorem lsh_spec (f : FQRepr) (n : ℕ) : (f.lsh n).toNat = f.toNat * 2 ^ n % 2 ^ 384 := by
  unfold lsh
  split
  · rename_i h
    obtain ⟨k, rfl⟩ := Nat.exists_eq_add_of_le h
    rw [pow_add, show 64 * 6 = 384 by norm_num, mul_comm (2 ^ 384), ← mul_assoc, Nat.mul_mod_left]; rfl
  · exact lsh_loop_spec n f

theorem words_toNat (f : FQRepr) : wordsToNat f.words = f.toNat := by
  simp only [words, wordsToNat, toNat]
  ring

theorem bit_spec (f : FQRepr) (n : ℕ) :
    f.bit n = if n < 384 then some (f.toNat.testBit n) else none := by
  unfold bit
  split_ifs with h
  · obtain ⟨w, h1, h2⟩ := wordsToNat_testBit f.words n (by simpa [words] using h)
    rw [words_toNat] at h2
    rw [h1]
    simp only [word_bit_ne w (Nat.mod_lt n (by norm_num : 0 < 64)), h2]
  · have : f.words[n / 64]? = none := by
      rw [List.getElem?_eq_none]; simp [words]; omega
    rw [this]

theorem bitLen_spec (f : FQRepr) : f.bitLen = natBitLen f.toNat := by
  have h0 := f.l0.lt; have h1 := f.l1.lt; have h2 := f.l2.lt; have h3 := f.l3.lt; have h4 := f.l4.lt; have h5 := f.l5.lt
  have k0 := leading_ne f.l0; have m0 := leading_le f.l0; have b0 := natBitLen_word (w := f.l0)
  have k1 := leading_ne f.l1; have m1 := leading_le f.l1; have b1 := natBitLen_word (w := f.l1)
  have k2 := leading_ne f.l2; have m2 := leading_le f.l2; have b2 := natBitLen_word (w := f.l2)
  have k3 := leading_ne f.l3; have m3 := leading_le f.l3; have b3 := natBitLen_word (w := f.l3)
  have k4 := leading_ne f.l4; have m4 := leading_le f.l4; have b4 := natBitLen_word (w := f.l4)
  have k5 := leading_ne f.l5; have m5 := leading_le f.l5; have b5 := natBitLen_word (w := f.l5)
  simp only [bitLen]
  by_cases c5 : leadingZeros64 f.l5 ≠ 64
  · rw [if_pos c5]
    have hne := k5.mp c5
    have hs := natBitLen_shift (k := 320) (b := f.l0.toNat + 2 ^ 64 * f.l1.toNat + 2 ^ 128 * f.l2.toNat + 2 ^ 192 * f.l3.toNat + 2 ^ 256 * f.l4.toNat) hne (by omega)
    have he : f.toNat = f.l0.toNat + 2 ^ 64 * f.l1.toNat + 2 ^ 128 * f.l2.toNat + 2 ^ 192 * f.l3.toNat + 2 ^ 256 * f.l4.toNat + 2 ^ 320 * f.l5.toNat := by
      unfold toNat; ring
    rw [he, hs]; omega
  rw [if_neg c5]
  have z5 : f.l5.toNat = 0 := by by_contra h; exact c5 (k5.mpr h)
  rw [not_ne_iff] at c5
  by_cases c4 : leadingZeros64 f.l4 ≠ 64
  · rw [if_pos c4]
    have hne := k4.mp c4
    have hs := natBitLen_shift (k := 256) (b := f.l0.toNat + 2 ^ 64 * f.l1.toNat + 2 ^ 128 * f.l2.toNat + 2 ^ 192 * f.l3.toNat) hne (by omega)
    have he : f.toNat = f.l0.toNat + 2 ^ 64 * f.l1.toNat + 2 ^ 128 * f.l2.toNat + 2 ^ 192 * f.l3.toNat + 2 ^ 256 * f.l4.toNat := by
      unfold toNat; omega
    rw [he, hs]; omega
  rw [if_neg c4]
  have z4 : f.l4.toNat = 0 := by by_contra h; exact c4 (k4.mpr h)
  rw [not_ne_iff] at c4
  by_cases c3 : leadingZeros64 f.l3 ≠ 64
  · rw [if_pos c3]
    have hne := k3.mp c3
    have hs := natBitLen_shift (k := 192) (b := f.l0.toNat + 2 ^ 64 * f.l1.toNat + 2 ^ 128 * f.l2.toNat) hne (by omega)
    have he : f.toNat = f.l0.toNat + 2 ^ 64 * f.l1.toNat + 2 ^ 128 * f.l2.toNat + 2 ^ 192 * f.l3.toNat := by
      unfold toNat; omega
    rw [he, hs]; omega
  rw [if_neg c3]
  have z3 : f.l3.toNat = 0 := by by_contra h; exact c3 (k3.mpr h)
  rw [not_ne_iff] at c3
  by_cases c2 : leadingZeros64 f.l2 ≠ 64
  · rw [if_pos c2]
    have hne := k2.mp c2
    have hs := natBitLen_shift (k := 128) (b := f.l0.toNat + 2 ^ 64 * f.l1.toNat) hne (by omega)
    have he : f.toNat = f.l0.toNat + 2 ^ 64 * f.l1.toNat + 2 ^ 128 * f.l2.toNat := by
      unfold toNat; omega
    rw [he, hs]; omega
  rw [if_neg c2]
  have z2 : f.l2.toNat = 0 := by by_contra h; exact c2 (k2.mpr h)
  rw [not_ne_iff] at c2
  by_cases c1 : leadingZeros64 f.l1 ≠ 64
  · rw [if_pos c1]
    have hne := k1.mp c1
    have hs := natBitLen_shift (k := 64) (b := f.l0.toNat) hne (by omega)
    have he : f.toNat = f.l0.toNat + 2 ^ 64 * f.l1.toNat := by
      unfold toNat; omega
    rw [he, hs]; omega
  rw [if_neg c1]
  have z1 : f.l1.toNat = 0 := by by_contra h; exact c1 (k1.mpr h)
  rw [not_ne_iff] at c1
  by_cases c0 : leadingZeros64 f.l0 ≠ 64
  · rw [if_pos c0]
    have hne := k0.mp c0
    have he : f.toNat = f.l0.toNat := by unfold toNat; omega
    rw [he]; omega
  rw [if_neg c0]
  have z0 : f.l0.toNat = 0 := by by_contra h; exact c0 (k0.mpr h)
  rw [not_ne_iff] at c0
  have he : f.toNat = 0 := by unfold toNat; omega
  rw [he]
  simp only [id, natBitLen, if_true]; omega

theorem toBig_spec (f : FQRepr) : f.toBig = f.toNat := by
  simp only [toBig, toNat]; push_cast; ring

end FQRepr

namespace FRRepr

theorem rshWord_spec (f : FRRepr) : f.rshWord.toNat = f.toNat / 2 ^ 64 := by
  have h0 := f.l0.lt; have h1 := f.l1.lt; have h2 := f.l2.lt; have h3 := f.l3.lt
  simp only [rshWord, toNat, UInt64.toNat_zero]
  omega

theorem lshWord_spec (f : FRRepr) : f.lshWord.toNat = f.toNat * 2 ^ 64 % 2 ^ 256 := by
  have h0 := f.l0.lt; have h1 := f.l1.lt; have h2 := f.l2.lt; have h3 := f.l3.lt
  simp only [lshWord, toNat, UInt64.toNat_zero]
  omega

theorem rshBits_spec (f : FRRepr) {n : ℕ} (hn0 : 0 < n) (hn : n < 64) :
    (f.rshBits n).toNat = f.toNat / 2 ^ n := by
  have e : 2 ^ n * 2 ^ (64 - n) = 2 ^ 64 := by rw [← pow_add]; congr 1; omega
  have hpos : 0 < 2 ^ n := by positivity
  have hm := Nat.mod_lt f.l0.toNat hpos
  have d0 := Nat.div_add_mod f.l0.toNat (2 ^ n)
  have d1 := Nat.div_add_mod f.l1.toNat (2 ^ n)
  have d2 := Nat.div_add_mod f.l2.toNat (2 ^ n)
  have d3 := Nat.div_add_mod f.l3.toNat (2 ^ n)
  symm
  rw [Nat.div_eq_iff hpos]
  simp only [rshBits, toNat, shr_or _ _ hn0 hn, shr_or_zero _ hn]
  generalize f.l0.toNat / 2 ^ n = a0 at *
  generalize f.l0.toNat % 2 ^ n = b0 at *
  generalize f.l0.toNat = x0 at *
  generalize f.l1.toNat / 2 ^ n = a1 at *
  generalize f.l1.toNat % 2 ^ n = b1 at *
  generalize f.l1.toNat = x1 at *
  generalize f.l2.toNat / 2 ^ n = a2 at *
  generalize f.l2.toNat % 2 ^ n = b2 at *
  generalize f.l2.toNat = x2 at *
  generalize f.l3.toNat / 2 ^ n = a3 at *
  generalize f.l3.toNat % 2 ^ n = b3 at *
  generalize f.l3.toNat = x3 at *
  generalize 2 ^ n = P at *
  generalize 2 ^ (64 - n) = Q at *
  have key : x0 + 2 ^ 64 * x1 + 2 ^ 128 * x2 + 2 ^ 192 * x3 = ((a0 + b1 * Q) + 2 ^ 64 * (a1 + b2 * Q) + 2 ^ 128 * (a2 + b3 * Q) + 2 ^ 192 * a3) * P + b0 := by
    zify at *
    linear_combination - d0 - 2 ^ 64 * d1 - 2 ^ 128 * d2 - 2 ^ 192 * d3 - 2 ^ 0 * b1 * e - 2 ^ 64 * b2 * e - 2 ^ 128 * b3 * e
  omega

theorem lshBits_spec (f : FRRepr) {n : ℕ} (hn0 : 0 < n) (hn : n < 64) :
    (f.lshBits n).toNat = f.toNat * 2 ^ n % 2 ^ 256 := by
  have hlt := (f.lshBits n).toNat_lt
  have e : 2 ^ n * 2 ^ (64 - n) = 2 ^ 64 := by rw [← pow_add]; congr 1; omega
  have d0 := Nat.div_add_mod f.l0.toNat (2 ^ (64 - n))
  have d1 := Nat.div_add_mod f.l1.toNat (2 ^ (64 - n))
  have d2 := Nat.div_add_mod f.l2.toNat (2 ^ (64 - n))
  have d3 := Nat.div_add_mod f.l3.toNat (2 ^ (64 - n))
  symm
  rw [← Nat.mod_eq_of_lt hlt]
  refine Nat.ModEq.symm ((Nat.modEq_iff_dvd).mpr ?_)
  simp only [lshBits, toNat, shl_or _ _ hn0 hn, shl_or_zero _ hn]
  generalize f.l0.toNat / 2 ^ (64 - n) = a0 at *
  generalize f.l0.toNat % 2 ^ (64 - n) = b0 at *
  generalize f.l0.toNat = x0 at *
  generalize f.l1.toNat / 2 ^ (64 - n) = a1 at *
  generalize f.l1.toNat % 2 ^ (64 - n) = b1 at *
  generalize f.l1.toNat = x1 at *
  generalize f.l2.toNat / 2 ^ (64 - n) = a2 at *
  generalize f.l2.toNat % 2 ^ (64 - n) = b2 at *
  generalize f.l2.toNat = x2 at *
  generalize f.l3.toNat / 2 ^ (64 - n) = a3 at *
  generalize f.l3.toNat % 2 ^ (64 - n) = b3 at *
  generalize f.l3.toNat = x3 at *
  generalize 2 ^ n = P at *
  generalize 2 ^ (64 - n) = Q at *
  push_cast
  refine ⟨a3, ?_⟩
  zify at *
  linear_combination - P * d0 - 2 ^ 64 * P * d1 - 2 ^ 128 * P * d2 - 2 ^ 192 * P * d3 + a0 * e + 2 ^ 64 * a1 * e + 2 ^ 128 * a2 * e + 2 ^ 192 * a3 * e

theorem rsh_loop_spec (n : ℕ) : ∀ f : FRRepr, (rsh.loop f n).toNat = f.toNat / 2 ^ n := by
  induction n using Nat.strong_induction_on with
  | _ n ih =>
    intro f
    rw [rsh.loop]
    split
    · rename_i h
      rw [ih (n - 64) (by omega), rshWord_spec, Nat.div_div_eq_div_mul, ← pow_add]
      congr 2; omega
    · split
      · rw [rshBits_spec f (by omega) (by omega)]
      · have : n = 0 := by omega
        subst this; simp

theorem lsh_loop_spec (n : ℕ) : ∀ f : FRRepr, (lsh.loop f n).toNat = f.toNat * 2 ^ n % 2 ^ 256 := by
  induction n using Nat.strong_induction_on with
  | _ n ih =>
    intro f
    rw [lsh.loop]
    split
    · rename_i h
      rw [ih (n - 64) (by omega), lshWord_spec, Nat.mod_mul_mod, mul_assoc, ← pow_add]
      congr 3; omega
    · split
      · rw [lshBits_spec f (by omega) (by omega)]
      · have : n = 0 := by omega
        subst this
        rw [pow_zero, mul_one]; exact (Nat.mod_eq_of_lt f.toNat_lt).symm

theorem rsh_spec (f : FRRepr) (n : ℕ) : (f.rsh n).toNat = f.toNat / 2 ^ n := by
  unfold rsh
  split
  · rename_i h
    have h1 : 2 ^ 256 ≤ 2 ^ n := Nat.pow_le_pow_right (by norm_num) h
    rw [Nat.div_eq_of_lt (lt_of_lt_of_le f.toNat_lt h1)]; rfl
  · exact rsh_loop_spec n f

theorem lsh_spec (f : FRRepr) (n : ℕ) : (f.lsh n).toNat = f.toNat * 2 ^ n % 2 ^ 256 := by
  unfold lsh
  split
  · rename_i h
    obtain ⟨k, rfl⟩ := Nat.exists_eq_add_of_le h
    rw [pow_add, show 64 * 4 = 256 by norm_num, mul_comm (2 ^ 256), ← mul_assoc, Nat.mul_mod_left]; rfl
  · exact lsh_loop_spec n f

theorem words_toNat (f : FRRepr) : wordsToNat f.words = f.toNat := by
  simp only [words, wordsToNat, toNat]
  ring

theorem bit_spec (f : FRRepr) (n : ℕ) :
    f.bit n = if n < 256 then some (f.toNat.testBit n) else none := by
  unfold bit
  split_ifs with h
  · obtain ⟨w, h1, h2⟩ := wordsToNat_testBit f.words n (by simpa [words] using h)
    rw [words_toNat] at h2
    rw [h1]
    simp only [word_bit_ne w (Nat.mod_lt n (by norm_num : 0 < 64)), h2]
  · have : f.words[n / 64]? = none := by
      rw [List.getElem?_eq_none]; simp [words]; omega
    rw [this]

theorem bitLen_spec (f : FRRepr) : f.bitLen = natBitLen f.toNat := by
  have h0 := f.l0.lt; have h1 := f.l1.lt; have h2 := f.l2.lt; have h3 := f.l3.lt
  have k0 := leading_ne f.l0; have m0 := leading_le f.l0; have b0 := natBitLen_word (w := f.l0)
  have k1 := leading_ne f.l1; have m1 := leading_le f.l1; have b1 := natBitLen_word (w := f.l1)
  have k2 := leading_ne f.l2; have m2 := leading_le f.l2; have b2 := natBitLen_word (w := f.l2)
  have k3 := leading_ne f.l3; have m3 := leading_le f.l3; have b3 := natBitLen_word (w := f.l3)
  simp only [bitLen]
  by_cases c3 : leadingZeros64 f.l3 ≠ 64
  · rw [if_pos c3]
    have hne := k3.mp c3
    have hs := natBitLen_shift (k := 192) (b := f.l0.toNat + 2 ^ 64 * f.l1.toNat + 2 ^ 128 * f.l2.toNat) hne (by omega)
    have he : f.toNat = f.l0.toNat + 2 ^ 64 * f.l1.toNat + 2 ^ 128 * f.l2.toNat + 2 ^ 192 * f.l3.toNat := by
      unfold toNat; ring
    rw [he, hs]; omega
  rw [if_neg c3]
  have z3 : f.l3.toNat = 0 := by by_contra h; exact c3 (k3.mpr h)
  rw [not_ne_iff] at c3
  by_cases c2 : leadingZeros64 f.l2 ≠ 64
  · rw [if_pos c2]
    have hne := k2.mp c2
    have hs := natBitLen_shift (k := 128) (b := f.l0.toNat + 2 ^ 64 * f.l1.toNat) hne (by omega)
    have he : f.toNat = f.l0.toNat + 2 ^ 64 * f.l1.toNat + 2 ^ 128 * f.l2.toNat := by
      unfold toNat; omega
    rw [he, hs]; omega
  rw [if_neg c2]
  have z2 : f.l2.toNat = 0 := by by_contra h; exact c2 (k2.mpr h)
  rw [not_ne_iff] at c2
  by_cases c1 : leadingZeros64 f.l1 ≠ 64
  · rw [if_pos c1]
    have hne := k1.mp c1
    have hs := natBitLen_shift (k := 64) (b := f.l0.toNat) hne (by omega)
    have he : f.toNat = f.l0.toNat + 2 ^ 64 * f.l1.toNat := by
      unfold toNat; omega
    rw [he, hs]; omega
  rw [if_neg c1]
  have z1 : f.l1.toNat = 0 := by by_contra h; exact c1 (k1.mpr h)
  rw [not_ne_iff] at c1
  by_cases c0 : leadingZeros64 f.l0 ≠ 64
  · rw [if_pos c0]
    have hne := k0.mp c0
    have he : f.toNat = f.l0.toNat := by unfold toNat; omega
    rw [he]; omega
  rw [if_neg c0]
  have z0 : f.l0.toNat = 0 := by by_contra h; exact c0 (k0.mpr h)
  rw [not_ne_iff] at c0
  have he : f.toNat = 0 := by unfold toNat; omega
  rw [he]
  simp only [id, natBitLen, if_true]; omega

theorem toBig_spec (f : FRRepr) : f.toBig = f.toNat := by
  simp only [toBig, toNat]; push_cast; ring

end FRRepr

end Bls
