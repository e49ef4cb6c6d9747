import Verif.Proof.MulBits
/-
C07–C09 and C44 (FQ, FR): fixed-width integers, their encodings, the bit iterator, and
multiplication by bits/bytes. `toNat` reads a limb array as a little-endian number; `beNat` reads a
byte string as a big-endian number; `natBitLen` is the number of binary digits.
-/
set_option exponentiation.threshold 1000
namespace Bls.Props

/-! ## C07 -/

theorem C07_fq_add_sub (a b : FQRepr) :
    (a.addNoCarry b).toNat = (a.toNat + b.toNat) % 2 ^ 384 ∧
    ((a.subNoBorrow b).toNat : ℤ) = ((a.toNat : ℤ) - b.toNat) % 2 ^ 384 := by
  refine ⟨FQRepr.addNoCarry_spec a b, ?_⟩
  have h := FQRepr.subNoBorrow_spec a b
  have h1 := a.toNat_lt
  have h2 := b.toNat_lt
  omega

theorem C07_fq_shift (a : FQRepr) (n : ℕ) :
    (a.lsh n).toNat = a.toNat * 2 ^ n % 2 ^ 384 ∧ (a.rsh n).toNat = a.toNat / 2 ^ n ∧
    a.mul2.toNat = 2 * a.toNat % 2 ^ 384 ∧ a.div2.toNat = a.toNat / 2 :=
  ⟨a.lsh_spec n, a.rsh_spec n, a.mul2_spec, a.div2_spec⟩

theorem C07_fq_compare (a b : FQRepr) :
    (a.cmp b = if a.toNat < b.toNat then -1 else if a.toNat = b.toNat then 0 else 1) ∧
    (a.equals b = true ↔ a.toNat = b.toNat) ∧ (a.isZero = true ↔ a.toNat = 0) ∧
    (a.isEven = true ↔ a.toNat % 2 = 0) ∧ (a.isOdd = true ↔ a.toNat % 2 = 1) :=
  ⟨FQRepr.cmp_spec a b, by rw [FQRepr.equals_iff, FQRepr.toNat_inj_iff], FQRepr.isZero_iff, FQRepr.isEven_iff, FQRepr.isOdd_iff⟩

/-- `BitLen` is the number of binary digits; `Bit(n)` is digit `n` for `n < 384` (and panics above). -/
theorem C07_fq_bits (a : FQRepr) (n : ℕ) :
    (a.bitLen ≤ n ↔ a.toNat < 2 ^ n) ∧ a.bit n = if n < 384 then some (a.toNat.testBit n) else none :=
  ⟨by rw [FQRepr.bitLen_spec, natBitLen_le], a.bit_spec n⟩

example : ((FQRepr.new 5).lsh 130).toNat = 5 * 2 ^ 130 ∧ ((FQRepr.new 5).subNoBorrow (FQRepr.new 7)).toNat = 2 ^ 384 - 2 := by
  decide +kernel

/-- `FRRepr.ToFQ` keeps the number. -/
theorem C07_fr_toFQ (a : FRRepr) : a.toFQ.toNat = a.toNat := by
  unfold FRRepr.toFQ FRRepr.toNat FQRepr.toNat
  have h : (0 : W).toNat = 0 := rfl
  simp only [h, Nat.mul_zero, Nat.add_zero]

theorem C07_fr_add_sub (a b : FRRepr) :
    (a.addNoCarry b).toNat = (a.toNat + b.toNat) % 2 ^ 256 ∧
    ((a.subNoBorrow b).toNat : ℤ) = ((a.toNat : ℤ) - b.toNat) % 2 ^ 256 := by
  refine ⟨FRRepr.addNoCarry_spec a b, ?_⟩
  have h := FRRepr.subNoBorrow_spec a b
  have h1 := a.toNat_lt
  have h2 := b.toNat_lt
  omega

theorem C07_fr_shift (a : FRRepr) (n : ℕ) :
    (a.lsh n).toNat = a.toNat * 2 ^ n % 2 ^ 256 ∧ (a.rsh n).toNat = a.toNat / 2 ^ n ∧
    a.mul2.toNat = 2 * a.toNat % 2 ^ 256 ∧ a.div2.toNat = a.toNat / 2 :=
  ⟨a.lsh_spec n, a.rsh_spec n, a.mul2_spec, a.div2_spec⟩

theorem C07_fr_compare (a b : FRRepr) :
    (a.cmp b = if a.toNat < b.toNat then -1 else if a.toNat = b.toNat then 0 else 1) ∧
    (a.equals b = true ↔ a.toNat = b.toNat) ∧ (a.isZero = true ↔ a.toNat = 0) ∧
    (a.isEven = true ↔ a.toNat % 2 = 0) ∧ (a.isOdd = true ↔ a.toNat % 2 = 1) :=
  ⟨FRRepr.cmp_spec a b, by rw [FRRepr.equals_iff, FRRepr.toNat_inj_iff], FRRepr.isZero_iff, FRRepr.isEven_iff, FRRepr.isOdd_iff⟩

/-- `BitLen` is the number of binary digits; `Bit(n)` is digit `n` for `n < 256` (and panics above). -/
theorem C07_fr_bits (a : FRRepr) (n : ℕ) :
    (a.bitLen ≤ n ↔ a.toNat < 2 ^ n) ∧ a.bit n = if n < 256 then some (a.toNat.testBit n) else none :=
  ⟨by rw [FRRepr.bitLen_spec, natBitLen_le], a.bit_spec n⟩

example : ((FRRepr.new 5).lsh 130).toNat = 5 * 2 ^ 130 ∧ ((FRRepr.new 5).subNoBorrow (FRRepr.new 7)).toNat = 2 ^ 256 - 2 := by
  decide +kernel

/-! ## C08 -/

/-- `Bytes` has 48 bytes and reads back as the number; `FQReprFromBytes` inverts it and conversely. -/
theorem C08_fq_bytes (a : FQRepr) (b : List UInt8) (hb : b.length = 48) :
    a.bytes.length = 48 ∧ beNat a.bytes = a.toNat ∧ FQRepr.fromBytes a.bytes = a ∧
    (FQRepr.fromBytes b).toNat = beNat b ∧ (FQRepr.fromBytes b).bytes = b :=
  ⟨a.bytes_length, a.beNat_bytes, a.fromBytes_bytes, FQRepr.fromBytes_toNat hb, FQRepr.bytes_fromBytes hb⟩

/-- `ToBig` is the number; `FQReprFromBigInt` inverts it, never panics, and fails exactly outside
`[0, 2^384)`. -/
theorem C08_fq_big (a : FQRepr) (n : ℤ) :
    a.toBig = a.toNat ∧ FQRepr.fromBigInt a.toBig = some (some a) ∧
    (0 ≤ n ∧ n < 2 ^ 384 → ∃ b, FQRepr.fromBigInt n = some (some b) ∧ b.toBig = n) ∧
    (¬ (0 ≤ n ∧ n < 2 ^ 384) → FQRepr.fromBigInt n = some none) := by
  have ha := a.toNat_lt
  refine ⟨a.toBig_spec, ?_, fun h => ?_, fun h => ?_⟩
  · rw [a.toBig_spec, FQRepr.ofNat_eq_fromBigInt ha, FQRepr.toNat_ofNat]
  · refine ⟨FQRepr.ofNat n.toNat, by rw [FQRepr.fromBigInt_spec, if_pos h], ?_⟩
    rw [FQRepr.toBig_spec, FQRepr.ofNat_toNat (by omega)]; omega
  · rw [FQRepr.fromBigInt_spec, if_neg h]

example : (FQRepr.new 258).bytes.length = 48 := rfl

/-- `Bytes` has 32 bytes and reads back as the number; `FRReprFromBytes` inverts it and conversely. -/
theorem C08_fr_bytes (a : FRRepr) (b : List UInt8) (hb : b.length = 32) :
    a.bytes.length = 32 ∧ beNat a.bytes = a.toNat ∧ FRRepr.fromBytes a.bytes = a ∧
    (FRRepr.fromBytes b).toNat = beNat b ∧ (FRRepr.fromBytes b).bytes = b :=
  ⟨a.bytes_length, a.beNat_bytes, a.fromBytes_bytes, FRRepr.fromBytes_toNat hb, FRRepr.bytes_fromBytes hb⟩

/-- `ToBig` is the number; `FRReprFromBigInt` inverts it, never panics, and fails exactly outside
`[0, 2^256)`. -/
theorem C08_fr_big (a : FRRepr) (n : ℤ) :
    a.toBig = a.toNat ∧ FRRepr.fromBigInt a.toBig = some (some a) ∧
    (0 ≤ n ∧ n < 2 ^ 256 → ∃ b, FRRepr.fromBigInt n = some (some b) ∧ b.toBig = n) ∧
    (¬ (0 ≤ n ∧ n < 2 ^ 256) → FRRepr.fromBigInt n = some none) := by
  have ha := a.toNat_lt
  refine ⟨a.toBig_spec, ?_, fun h => ?_, fun h => ?_⟩
  · rw [a.toBig_spec, FRRepr.ofNat_eq_fromBigInt ha, FRRepr.toNat_ofNat]
  · refine ⟨FRRepr.ofNat n.toNat, by rw [FRRepr.fromBigInt_spec, if_pos h], ?_⟩
    rw [FRRepr.toBig_spec, FRRepr.ofNat_toNat (by omega)]; omega
  · rw [FRRepr.fromBigInt_spec, if_neg h]

example : (FRRepr.new 258).bytes.length = 32 := rfl

/-! ## C09 -/

/-- The results of `m` successive calls of `Next`; `none` would be a panic. -/
def calls : ℕ → BitIterator → Option (List (Bool × Bool))
  | 0, _ => some []
  | m + 1, it =>
    match it.next with
    | none => none
    | some (o, it') => (calls m it').map (o :: ·)

/-- The value of a word array, least significant word first. -/
def arrVal (l : List W) : ℕ := Nat.ofDigits (2 ^ 64) (l.map UInt64.toNat)

theorem arrVal_eq (l : List W) : wordsToNat l = arrVal l := by
  induction l with
  | nil => rfl
  | cons x t ih => rw [wordsToNat, ih]; simp only [arrVal, List.map_cons, Nat.ofDigits_cons]

theorem calls_spec (l : List W) : ∀ (m n : ℕ), n ≤ l.length * 64 →
    ∃ outs, calls m ⟨l, n⟩ = some outs ∧ outs.length = m ∧
      ∀ k < m, outs[k]? = some (if k < n then ((wordsToNat l).testBit (n - 1 - k), false) else (false, true)) := by
  intro m
  induction m with
  | zero => intro n _; exact ⟨[], rfl, rfl, by intro k hk; omega⟩
  | succ m ih =>
    intro n hn
    match n with
    | 0 =>
      obtain ⟨outs, h1, h2, h3⟩ := ih 0 (by omega)
      refine ⟨(false, true) :: outs, ?_, by simp [h2], ?_⟩
      · rw [calls, BitIterator.next_zero]; simp only [h1, Option.map_some]
      · intro k hk
        match k with
        | 0 => simp
        | k + 1 => simpa using h3 k (by omega)
    | n + 1 =>
      obtain ⟨outs, h1, h2, h3⟩ := ih n (by omega)
      refine ⟨((wordsToNat l).testBit n, false) :: outs, ?_, by simp [h2], ?_⟩
      · rw [calls, BitIterator.next_succ l n (by omega)]; simp only [h1, Option.map_some]
      · intro k hk
        match k with
        | 0 => simp
        | k + 1 =>
          have := h3 k (by omega)
          simp only [List.getElem?_cons_succ, this]
          have e : n + 1 - 1 - (k + 1) = n - 1 - k := by omega
          rw [e]
          by_cases hkn : k < n
          · rw [if_pos hkn, if_pos (by omega)]
          · rw [if_neg hkn, if_neg (by omega)]

/-- For every array and every number of calls: no call panics, the first `64·len` calls deliver the
binary digits of the array's value, most significant first, and every later call reports done. -/
theorem C09_iterator (l : List W) (m : ℕ) :
    ∃ outs, calls m (newBitIterator l) = some outs ∧ outs.length = m ∧
      ∀ k < m, outs[k]? = some (if k < 64 * l.length then
        ((arrVal l).testBit (64 * l.length - 1 - k), false) else (false, true)) := by
  obtain ⟨outs, h1, h2, h3⟩ := calls_spec l m (l.length * 64) (le_refl _)
  refine ⟨outs, h1, h2, fun k hk => ?_⟩
  rw [h3 k hk, arrVal_eq, mul_comm]

example : calls 3 ⟨[5], 2⟩ = some [(false, false), (true, false), (false, true)] := by decide +kernel

end Bls.Props
