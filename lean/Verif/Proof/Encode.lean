import Verif.Spec.Bytes
import Verif.Proof.Shift
/-
Byte and big-integer encodings of the 6- and 4-limb integers.
-/
set_option exponentiation.threshold 1000
namespace Bls

theorem or_byte {acc : W} {x : UInt8} {k : ℕ} {kw : W} (hk : kw.toNat = k) (h : acc.toNat < 2 ^ k) (hk8 : k ≤ 56) :
    (acc ||| (x.toUInt64 <<< kw)).toNat = acc.toNat + x.toNat * 2 ^ k ∧
    (acc ||| (x.toUInt64 <<< kw)).toNat < 2 ^ (k + 8) := by
  have hx : x.toNat < 2 ^ 8 := x.toNat_lt
  have e : x.toNat * 2 ^ k < 2 ^ 64 := by
    calc x.toNat * 2 ^ k ≤ (2 ^ 8 - 1) * 2 ^ 56 := Nat.mul_le_mul (by omega) (Nat.pow_le_pow_right (by norm_num) hk8)
      _ < 2 ^ 64 := by norm_num
  have h1 : (acc ||| (x.toUInt64 <<< kw)).toNat = acc.toNat + x.toNat * 2 ^ k := by
    rw [UInt64.toNat_or, UInt64.toNat_shiftLeft, hk, Nat.mod_eq_of_lt (by omega : k < 64), UInt8.toNat_toUInt64,
      Nat.shiftLeft_eq, Nat.mod_eq_of_lt e, Nat.or_comm, ← Nat.shiftLeft_eq, ← Nat.shiftLeft_add_eq_or_of_lt h,
      Nat.shiftLeft_eq, add_comm]
  refine ⟨h1, ?_⟩
  rw [h1, pow_add]
  have : x.toNat * 2 ^ k ≤ (2 ^ 8 - 1) * 2 ^ k := Nat.mul_le_mul_right _ (by omega)
  omega

theorem beNat_foldl (b : List UInt8) : ∀ a, b.foldl (fun acc x => acc * 256 + x.toNat) a
    = a * 256 ^ b.length + beNat b := by
  induction b with
  | nil => intro a; simp [beNat]
  | cons x t ih =>
    intro a
    have h0 : beNat (x :: t) = List.foldl (fun acc x => acc * 256 + x.toNat) (0 * 256 + x.toNat) t := rfl
    rw [List.foldl_cons, ih, h0, ih, List.length_cons, pow_succ]; ring

theorem beNat_append (a b : List UInt8) : beNat (a ++ b) = beNat a * 256 ^ b.length + beNat b := by
  have h0 : beNat (a ++ b) = List.foldl (fun acc x => acc * 256 + x.toNat) 0 (a ++ b) := rfl
  rw [h0, List.foldl_append, beNat_foldl]; rfl

theorem beNat_cons (x : UInt8) (b : List UInt8) : beNat (x :: b) = x.toNat * 256 ^ b.length + beNat b := by
  rw [beNat, List.foldl_cons, beNat_foldl]; simp

theorem beNat_nil : beNat [] = 0 := rfl

theorem beNat_lt (b : List UInt8) : beNat b < 256 ^ b.length := by
  induction b with
  | nil => simp [beNat]
  | cons x t ih =>
    rw [beNat_cons, List.length_cons, pow_succ]
    have hx : x.toNat < 256 := x.toNat_lt
    have : x.toNat * 256 ^ t.length ≤ 255 * 256 ^ t.length := Nat.mul_le_mul_right _ (by omega)
    omega

theorem beNat_inj : ∀ {a b : List UInt8}, a.length = b.length → beNat a = beNat b → a = b
  | [], [], _, _ => rfl
  | x :: s, y :: t, hl, h => by
    have hl' : s.length = t.length := by simpa using hl
    rw [beNat_cons, beNat_cons, hl'] at h
    have h1 := beNat_lt s
    have h2 := beNat_lt t
    rw [hl'] at h1
    have hxy : x.toNat = y.toNat := by
      have := congrArg (· / 256 ^ t.length) h
      rw [Nat.add_comm, Nat.add_mul_div_right _ _ (by positivity), Nat.div_eq_of_lt h1, Nat.add_comm (_ * _),
        Nat.add_mul_div_right _ _ (by positivity), Nat.div_eq_of_lt h2] at this
      omega
    rw [hxy] at h
    rw [UInt8.toNat_inj.mp hxy, beNat_inj hl' (by omega)]

theorem uint64BE_spec {b : List UInt8} (h : b.length = 8) : (uint64BE b).toNat = beNat b := by
  match b, h with
  | [b0, b1, b2, b3, b4, b5, b6, b7], _ =>
    simp only [uint64BE, List.getD_cons_zero, List.getD_cons_succ]
    have h0 : b7.toUInt64.toNat < 2 ^ 8 := by rw [UInt8.toNat_toUInt64]; exact b7.toNat_lt
    obtain ⟨e1, h1⟩ := or_byte (x := b6) (k := 8) (kw := 8) rfl h0 (by norm_num)
    obtain ⟨e2, h2⟩ := or_byte (x := b5) (k := 16) (kw := 16) rfl h1 (by norm_num)
    obtain ⟨e3, h3⟩ := or_byte (x := b4) (k := 24) (kw := 24) rfl h2 (by norm_num)
    obtain ⟨e4, h4⟩ := or_byte (x := b3) (k := 32) (kw := 32) rfl h3 (by norm_num)
    obtain ⟨e5, h5⟩ := or_byte (x := b2) (k := 40) (kw := 40) rfl h4 (by norm_num)
    obtain ⟨e6, h6⟩ := or_byte (x := b1) (k := 48) (kw := 48) rfl h5 (by norm_num)
    obtain ⟨e7, h7⟩ := or_byte (x := b0) (k := 56) (kw := 56) rfl h6 (by norm_num)
    rw [e7, e6, e5, e4, e3, e2, e1, UInt8.toNat_toUInt64]
    simp only [beNat_cons, beNat_nil, List.length_cons, List.length_nil]
    ring

theorem byte_of_shift (w : W) {k : ℕ} {kw : W} (hk : kw.toNat = k) (hk8 : k < 64) :
    (w >>> kw).toUInt8.toNat = w.toNat / 2 ^ k % 256 := by
  rw [UInt64.toNat_toUInt8, UInt64.toNat_shiftRight, hk, Nat.mod_eq_of_lt hk8, Nat.shiftRight_eq_div_pow]

theorem putUint64BE_length (w : W) : (putUint64BE w).length = 8 := rfl

theorem beNat_putUint64BE (w : W) : beNat (putUint64BE w) = w.toNat := by
  have hw := w.lt
  simp only [putUint64BE, beNat_cons, beNat_nil, List.length_cons, List.length_nil]
  rw [byte_of_shift w (k := 56) (kw := 56) rfl (by norm_num), byte_of_shift w (k := 48) (kw := 48) rfl (by norm_num),
    byte_of_shift w (k := 40) (kw := 40) rfl (by norm_num), byte_of_shift w (k := 32) (kw := 32) rfl (by norm_num),
    byte_of_shift w (k := 24) (kw := 24) rfl (by norm_num), byte_of_shift w (k := 16) (kw := 16) rfl (by norm_num),
    byte_of_shift w (k := 8) (kw := 8) rfl (by norm_num), UInt64.toNat_toUInt8]
  omega

theorem slice_length {b : List UInt8} {i j : ℕ} (hj : j ≤ b.length) : (slice b i j).length = j - i := by
  simp only [slice, List.length_take, List.length_drop]; omega

theorem slice_append (b : List UInt8) {i j k : ℕ} (h1 : i ≤ j) (h2 : j ≤ k) :
    slice b i j ++ slice b j k = slice b i k := by
  simp only [slice]
  rw [show k - i = (j - i) + (k - j) by omega, List.take_add, List.drop_drop]
  congr 3; omega

theorem slice_all {b : List UInt8} {n : ℕ} (h : b.length = n) : slice b 0 n = b := by
  simp [slice, ← h]

theorem beNat_slice_step {b : List UInt8} {i j : ℕ} (hij : i ≤ j) (hj : j ≤ b.length) :
    beNat (slice b 0 j) = beNat (slice b 0 i) * 256 ^ (j - i) + beNat (slice b i j) := by
  rw [← slice_append b (Nat.zero_le i) hij, beNat_append, slice_length hj]

theorem bitLen_int {n : ℤ} : (if n = 0 then 0 else Nat.log2 n.natAbs + 1) = natBitLen n.natAbs := by
  unfold natBitLen
  by_cases h : n = 0
  · simp [h]
  · rw [if_neg h, if_neg (by omega)]

theorem wordsToNat_append (a b : List W) :
    wordsToNat (a ++ b) = wordsToNat a + 2 ^ (64 * a.length) * wordsToNat b := by
  induction a with
  | nil => simp [wordsToNat]
  | cons x t ih =>
    rw [List.cons_append, wordsToNat, ih, wordsToNat, List.length_cons, mul_add 64, pow_add]; ring

namespace FQRepr

theorem bytes_length (f : FQRepr) : f.bytes.length = 48 := rfl

theorem beNat_bytes (f : FQRepr) : beNat f.bytes = f.toNat := by
  simp only [bytes, beNat_append, beNat_putUint64BE, putUint64BE_length, toNat]
  ring

theorem fromBytes_toNat {b : List UInt8} (h : b.length = 48) : (fromBytes b).toNat = beNat b := by
  conv_rhs => rw [← slice_all h]
  rw [beNat_slice_step (i := 40) (j := 48) (by norm_num) (by omega)]
  rw [beNat_slice_step (i := 32) (j := 40) (by norm_num) (by omega)]
  rw [beNat_slice_step (i := 24) (j := 32) (by norm_num) (by omega)]
  rw [beNat_slice_step (i := 16) (j := 24) (by norm_num) (by omega)]
  rw [beNat_slice_step (i := 8) (j := 16) (by norm_num) (by omega)]
  simp only [fromBytes, toNat]
  rw [uint64BE_spec (b := slice b 0 8) (by rw [slice_length (by omega)])]
  rw [uint64BE_spec (b := slice b 8 16) (by rw [slice_length (by omega)])]
  rw [uint64BE_spec (b := slice b 16 24) (by rw [slice_length (by omega)])]
  rw [uint64BE_spec (b := slice b 24 32) (by rw [slice_length (by omega)])]
  rw [uint64BE_spec (b := slice b 32 40) (by rw [slice_length (by omega)])]
  rw [uint64BE_spec (b := slice b 40 48) (by rw [slice_length (by omega)])]
  norm_num
  ring

theorem fromBytes_bytes (f : FQRepr) : fromBytes f.bytes = f :=
  toNat_inj (by rw [fromBytes_toNat f.bytes_length, beNat_bytes])

theorem bytes_fromBytes {b : List UInt8} (h : b.length = 48) : (fromBytes b).bytes = b :=
  beNat_inj (by rw [bytes_length, h]) (by rw [beNat_bytes, fromBytes_toNat h])

theorem ofNatLoop_spec : ∀ (n : ℕ) (acc : List W), n < 2 ^ (64 * (6 - acc.length)) → acc.length ≤ 6 →
    ∃ l, ofNatLoop n acc = some l ∧ l.length ≤ 6 ∧ wordsToNat l = wordsToNat acc + 2 ^ (64 * acc.length) * n := by
  intro n
  induction n using Nat.strong_induction_on with
  | _ n ih =>
    intro acc hn hl
    match n with
    | 0 => exact ⟨acc, by rw [ofNatLoop], hl, by simp⟩
    | m + 1 =>
      have h6 : acc.length < 6 := by
        by_contra h
        have : acc.length = 6 := by omega
        rw [this] at hn; simp at hn
      rw [ofNatLoop, if_pos h6]
      have hb : (m + 1) / 2 ^ 64 < 2 ^ (64 * (6 - (acc ++ [UInt64.ofNat ((m + 1) % 2 ^ 64)]).length)) := by
        rw [List.length_append, List.length_singleton, Nat.div_lt_iff_lt_mul (by norm_num), ← pow_add]
        refine lt_of_lt_of_eq hn ?_
        congr 1; omega
      obtain ⟨l, h1, h2, h3⟩ := ih ((m + 1) / 2 ^ 64) (by omega) _ hb (by rw [List.length_append, List.length_singleton]; omega)
      refine ⟨l, h1, h2, ?_⟩
      rw [h3, wordsToNat_append, List.length_append, List.length_singleton]
      have hm : (UInt64.ofNat ((m + 1) % 2 ^ 64)).toNat = (m + 1) % 2 ^ 64 := by
        rw [UInt64.toNat_ofNat', Nat.mod_mod]
      simp only [wordsToNat, hm, mul_add, pow_add, mul_one, mul_zero, add_zero]
      have := Nat.div_add_mod (m + 1) (2 ^ 64)
      generalize 2 ^ (64 * acc.length) = P
      calc _ = wordsToNat acc + P * (2 ^ 64 * ((m + 1) / 2 ^ 64) + (m + 1) % 2 ^ 64) := by ring
        _ = _ := by rw [this]; ring

theorem ofWords_toNat : ∀ {l : List W}, l.length ≤ 6 → (ofWords l).toNat = wordsToNat l
  | [], _ => by simp [ofWords, toNat, wordsToNat]
  | [a], _ => by simp [ofWords, toNat, wordsToNat]
  | [a, b], _ => by simp [ofWords, toNat, wordsToNat]
  | [a, b, c], _ => by simp [ofWords, toNat, wordsToNat]; ring
  | [a, b, c, d], _ => by simp [ofWords, toNat, wordsToNat]; ring
  | [a, b, c, d, e], _ => by simp [ofWords, toNat, wordsToNat]; ring
  | [a, b, c, d, e, f], _ => by simp [ofWords, toNat, wordsToNat]; ring
  | _ :: _ :: _ :: _ :: _ :: _ :: _ :: _, h => by simp at h

theorem fromBigInt_spec (n : ℤ) : fromBigInt n =
    if 0 ≤ n ∧ n < 2 ^ 384 then some (some (ofNat n.toNat)) else some none := by
  unfold fromBigInt
  rw [bitLen_int]
  split_ifs with h1 h2 h2
  · exfalso
    rcases h1 with h1 | h1
    · have : ¬ natBitLen n.natAbs ≤ 384 := not_le.mpr h1
      rw [natBitLen_le] at this; omega
    · have := Int.sign_eq_neg_one_iff_neg.mp h1; omega
  · rfl
  · have h3 : n.toNat < 2 ^ (64 * (6 - ([] : List W).length)) := by
      simp only [List.length_nil]; omega
    obtain ⟨l, e1, e2, e3⟩ := ofNatLoop_spec n.toNat [] h3 (by simp)
    rw [e1, Option.map_some]
    congr 2
    apply toNat_inj
    rw [ofWords_toNat e2, e3, ofNat_toNat (by omega)]
    simp [wordsToNat]
  · exfalso
    rw [not_or] at h1
    apply h2
    have h4 : 0 ≤ n := by
      by_contra h; exact h1.2 (Int.sign_eq_neg_one_iff_neg.mpr (by omega))
    have := natBitLen_le.mp (not_lt.mp h1.1)
    omega

theorem ofNat_eq_fromBigInt {n : ℕ} (h : n < 2 ^ 384) : fromBigInt n = some (some (ofNat n)) := by
  rw [fromBigInt_spec, if_pos ⟨by omega, by exact_mod_cast h⟩]; simp

end FQRepr

namespace FRRepr

theorem bytes_length (f : FRRepr) : f.bytes.length = 32 := rfl

theorem beNat_bytes (f : FRRepr) : beNat f.bytes = f.toNat := by
  simp only [bytes, beNat_append, beNat_putUint64BE, putUint64BE_length, toNat]
  ring

theorem fromBytes_toNat {b : List UInt8} (h : b.length = 32) : (fromBytes b).toNat = beNat b := by
  conv_rhs => rw [← slice_all h]
  rw [beNat_slice_step (i := 24) (j := 32) (by norm_num) (by omega)]
  rw [beNat_slice_step (i := 16) (j := 24) (by norm_num) (by omega)]
  rw [beNat_slice_step (i := 8) (j := 16) (by norm_num) (by omega)]
  simp only [fromBytes, toNat]
  rw [uint64BE_spec (b := slice b 0 8) (by rw [slice_length (by omega)])]
  rw [uint64BE_spec (b := slice b 8 16) (by rw [slice_length (by omega)])]
  rw [uint64BE_spec (b := slice b 16 24) (by rw [slice_length (by omega)])]
  rw [uint64BE_spec (b := slice b 24 32) (by rw [slice_length (by omega)])]
  norm_num
  ring

theorem fromBytes_bytes (f : FRRepr) : fromBytes f.bytes = f :=
  toNat_inj (by rw [fromBytes_toNat f.bytes_length, beNat_bytes])

theorem bytes_fromBytes {b : List UInt8} (h : b.length = 32) : (fromBytes b).bytes = b :=
  beNat_inj (by rw [bytes_length, h]) (by rw [beNat_bytes, fromBytes_toNat h])

theorem ofNatLoop_spec : ∀ (n : ℕ) (acc : List W), n < 2 ^ (64 * (4 - acc.length)) → acc.length ≤ 4 →
    ∃ l, ofNatLoop n acc = some l ∧ l.length ≤ 4 ∧ wordsToNat l = wordsToNat acc + 2 ^ (64 * acc.length) * n := by
  intro n
  induction n using Nat.strong_induction_on with
  | _ n ih =>
    intro acc hn hl
    match n with
    | 0 => exact ⟨acc, by rw [ofNatLoop], hl, by simp⟩
    | m + 1 =>
      have h6 : acc.length < 4 := by
        by_contra h
        have : acc.length = 4 := by omega
        rw [this] at hn; simp at hn
      rw [ofNatLoop, if_pos h6]
      have hb : (m + 1) / 2 ^ 64 < 2 ^ (64 * (4 - (acc ++ [UInt64.ofNat ((m + 1) % 2 ^ 64)]).length)) := by
        rw [List.length_append, List.length_singleton, Nat.div_lt_iff_lt_mul (by norm_num), ← pow_add]
        refine lt_of_lt_of_eq hn ?_
        congr 1; omega
      obtain ⟨l, h1, h2, h3⟩ := ih ((m + 1) / 2 ^ 64) (by omega) _ hb (by rw [List.length_append, List.length_singleton]; omega)
      refine ⟨l, h1, h2, ?_⟩
      rw [h3, wordsToNat_append, List.length_append, List.length_singleton]
      have hm : (UInt64.ofNat ((m + 1) % 2 ^ 64)).toNat = (m + 1) % 2 ^ 64 := by
        rw [UInt64.toNat_ofNat', Nat.mod_mod]
      simp only [wordsToNat, hm, mul_add, pow_add, mul_one, mul_zero, add_zero]
      have := Nat.div_add_mod (m + 1) (2 ^ 64)
      generalize 2 ^ (64 * acc.length) = P
      calc _ = wordsToNat acc + P * (2 ^ 64 * ((m + 1) / 2 ^ 64) + (m + 1) % 2 ^ 64) := by ring
        _ = _ := by rw [this]; ring

theorem ofWords_toNat : ∀ {l : List W}, l.length ≤ 4 → (ofWords l).toNat = wordsToNat l
  | [], _ => by simp [ofWords, toNat, wordsToNat]
  | [a], _ => by simp [ofWords, toNat, wordsToNat]
  | [a, b], _ => by simp [ofWords, toNat, wordsToNat]
  | [a, b, c], _ => by simp [ofWords, toNat, wordsToNat]; ring
  | [a, b, c, d], _ => by simp [ofWords, toNat, wordsToNat]; ring
  | _ :: _ :: _ :: _ :: _ :: _, h => by simp at h

theorem fromBigInt_spec (n : ℤ) : fromBigInt n =
    if 0 ≤ n ∧ n < 2 ^ 256 then some (some (ofNat n.toNat)) else some none := by
  unfold fromBigInt
  rw [bitLen_int]
  split_ifs with h1 h2 h2
  · exfalso
    rcases h1 with h1 | h1
    · have : ¬ natBitLen n.natAbs ≤ 256 := not_le.mpr h1
      rw [natBitLen_le] at this; omega
    · have := Int.sign_eq_neg_one_iff_neg.mp h1; omega
  · rfl
  · have h3 : n.toNat < 2 ^ (64 * (4 - ([] : List W).length)) := by
      simp only [List.length_nil]; omega
    obtain ⟨l, e1, e2, e3⟩ := ofNatLoop_spec n.toNat [] h3 (by simp)
    rw [e1, Option.map_some]
    congr 2
    apply toNat_inj
    rw [ofWords_toNat e2, e3, ofNat_toNat (by omega)]
    simp [wordsToNat]
  · exfalso
    rw [not_or] at h1
    apply h2
    have h4 : 0 ≤ n := by
      by_contra h; exact h1.2 (Int.sign_eq_neg_one_iff_neg.mpr (by omega))
    have := natBitLen_le.mp (not_lt.mp h1.1)
    omega

theorem ofNat_eq_fromBigInt {n : ℕ} (h : n < 2 ^ 256) : fromBigInt n = some (some (ofNat n)) := by
  rw [fromBigInt_spec, if_pos ⟨by omega, by exact_mod_cast h⟩]; simp

end FRRepr

end Bls
