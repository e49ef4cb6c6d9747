import Verif.Proof.Reader
import Verif.Proof.Strings
import Verif.Props.Rand
import Verif.Spec.Keys
/-
C89: keys and field elements as functions of the bytes of the reader: each attempt takes 32 bytes, of which 255 bits count, and
the keys are evenly and independently distributed if the bytes are. `Blocks n k` are n blocks of k bytes.
-/
set_option exponentiation.threshold 1000
namespace Bls.Props
open Reader

theorem rNat : rFieldModulus.toBig.toNat = r := by rw [rBig, Int.toNat_natCast]
theorem qNat : qFieldModulus.toBig.toNat = q := by rw [qBig, Int.toNat_natCast]

/-! ## g1pubs -/

private theorem key_some_g1pubs {l : List UInt8} {v : ℕ} {rest : List UInt8} (h : randInt r l = (some v, rest)) :
    ∃ sk, G1Pubs.randKeyFrom l = (some (some sk), rest) ∧ sk.Holds v := by
  obtain ⟨sk, e, hk⟩ := (C47_randKey v (shapeR.lt h)).1
  refine ⟨sk, ?_, hk⟩
  simp only [G1Pubs.randKeyFrom, rNat, h, Option.map_some]
  exact Prod.ext e rfl

private theorem key_none_g1pubs {l : List UInt8} {rest : List UInt8} (h : randInt r l = (none, rest)) :
    G1Pubs.randKeyFrom l = (some none, rest) := by
  simp only [G1Pubs.randKeyFrom, rNat, h, Option.map_none]
  rfl

private theorem holds_inj_g1pubs {sk : G1Pubs.SecretKey} {k k' : ℕ} (h : sk.Holds k) (h' : sk.Holds k') : k = k' := by
  obtain ⟨f, e, _, rfl⟩ := h
  obtain ⟨f', e', _, rfl⟩ := h'
  rw [e] at e'
  cases e'
  rfl

private theorem draw_iff_g1pubs (ks : List ℕ) : ∀ l : List UInt8,
    (∃ sks, G1Pubs.drawKeys ks.length l = some sks ∧ List.Forall₂ (fun sk k => sk.Holds k) sks ks) ↔
      ints r ks.length l = some ks := by
  induction ks with
  | nil => exact fun l => ⟨fun _ => rfl, fun _ => ⟨[], rfl, .nil⟩⟩
  | cons k ks ih =>
    intro l
    rw [List.length_cons, G1Pubs.drawKeys, ints]
    rcases hd : randInt r l with ⟨o, rest⟩
    cases o with
    | none =>
      rw [key_none_g1pubs hd]
      simp
    | some v =>
      obtain ⟨sk, e, hk⟩ := key_some_g1pubs hd
      rw [e]
      simp only [Option.map_eq_some_iff, List.cons.injEq]
      constructor
      · rintro ⟨sks, ⟨sks', h1, rfl⟩, h2⟩
        cases h2 with
        | cons h3 h4 => exact ⟨ks, (ih rest).mp ⟨sks', h1, h4⟩, holds_inj_g1pubs hk h3, rfl⟩
      · rintro ⟨ks', h1, rfl, rfl⟩
        obtain ⟨sks', h2, h3⟩ := (ih rest).mpr h1
        exact ⟨_, ⟨sks', h2, rfl⟩, .cons hk h3⟩

/-- `RandKey` reads blocks of 32 bytes. The first whose lower 255 bits are a number below r is the key; then nothing more is
read, and what follows has no influence. Without such a block `RandKey` returns the error of the reader. -/
theorem C89_reads_g1pubs (l : List UInt8) : ∃ bs : List (List UInt8), (∀ x ∈ bs, x.length = 32 ∧ r ≤ beNat x % 2 ^ 255) ∧
    ((∃ b rest sk, b.length = 32 ∧ beNat b % 2 ^ 255 < r ∧ l = bs.flatten ++ b ++ rest ∧ sk.Holds (beNat b % 2 ^ 255) ∧
      ∀ rest', G1Pubs.randKeyFrom (bs.flatten ++ b ++ rest') = (some (some sk), rest')) ∨
    ∃ t, t.length < 32 ∧ l = bs.flatten ++ t ∧ G1Pubs.randKeyFrom l = (some none, [])) := by
  obtain ⟨bs, h1, ⟨t, h2, h3⟩ | ⟨b, rest, h2, h3, h4⟩⟩ := shapeR.split l
  · exact ⟨bs, h1, Or.inr ⟨t, h2, h3, key_none_g1pubs (h3 ▸ shapeR.none bs t h1 h2)⟩⟩
  · have key (rest') := key_some_g1pubs (shapeR.some_iff (rest := rest').mpr ⟨bs, b, h1, h2, rfl, h3, rfl⟩)
    obtain ⟨sk, e, hk⟩ := key rest
    refine ⟨bs, h1, Or.inl ⟨b, rest, sk, h2, h3, h4, hk, fun rest' => ?_⟩⟩
    obtain ⟨sk', e', hk'⟩ := key rest'
    rw [e']
    obtain ⟨f, ef, hv, hi⟩ := hk
    obtain ⟨f', ef', hv', hi'⟩ := hk'
    have : f = f' := FR.int_inj hv hv' (hi.trans hi'.symm)
    obtain ⟨x⟩ := sk
    obtain ⟨x'⟩ := sk'
    simp only at ef ef'
    rw [ef, ef', this]

/-- Keys drawn one after the other: every sequence of keys is given by the same number of streams of n blocks. So, if the
bytes are uniformly distributed, the keys are, and they are independent of each other. -/
theorem C89_keys_g1pubs (n : ℕ) (ks ks' : List ℕ) (hl : ks.length = ks'.length) (h : ∀ k ∈ ks, k < r) (h' : ∀ k ∈ ks', k < r) :
    Nat.card {b : Blocks n 32 // ∃ sks, G1Pubs.drawKeys ks.length b.bytes = some sks ∧
      List.Forall₂ (fun sk k => sk.Holds k) sks ks} =
    Nat.card {b : Blocks n 32 // ∃ sks, G1Pubs.drawKeys ks'.length b.bytes = some sks ∧
      List.Forall₂ (fun sk k => sk.Holds k) sks ks'} := by
  rw [Nat.card_congr (Equiv.subtypeEquivRight fun b => draw_iff_g1pubs ks _),
    Nat.card_congr (Equiv.subtypeEquivRight fun b => draw_iff_g1pubs ks' _)]
  exact number_eq shapeR n hl h h'

/-- One key: the number of streams of n blocks that give `k`, times the number of keys, is the number of all streams but those
that give none. -/
theorem C89_key_g1pubs (n k : ℕ) (h : k < r) :
    Nat.card {b : Blocks n 32 // ∃ sk rest, G1Pubs.randKeyFrom b.bytes = (some (some sk), rest) ∧ sk.Holds k} * r +
      (2 ^ 256 - 2 * r) ^ n = 2 ^ (256 * n) := by
  have e : 2 ^ 256 - 2 * r = 2 * (2 ^ 255 - r) := by rw [r_eq]; decide +kernel
  have e' : (2 : ℕ) ^ (256 * n) = 256 ^ (32 * n) := by
    rw [show (256 : ℕ) = 2 ^ 8 from rfl, ← pow_mul]
    congr 1
    omega
  rw [e, e', ← number_one shapeR n k h, number]
  congr 2
  refine Nat.card_congr (Equiv.subtypeEquivRight fun b => ?_)
  rw [← draw_iff_g1pubs [k]]
  simp only [List.length_cons, List.length_nil, G1Pubs.drawKeys]
  constructor
  · rintro ⟨sk, rest, e, hk⟩
    exact ⟨[sk], by rw [e]; rfl, .cons hk .nil⟩
  · rintro ⟨sks, e, hk⟩
    split at e
    · next sk rest e1 =>
      obtain rfl := Option.some.inj e
      cases hk with
      | cons hk _ => exact ⟨sk, rest, e1, hk⟩
    · cases e

/-- Of the streams of n blocks this many give no key: less than 1/10 with one block. -/
theorem C89_error_g1pubs (n : ℕ) :
    Nat.card {b : Blocks n 32 // (G1Pubs.randKeyFrom b.bytes).1 = some none} = (2 ^ 256 - 2 * r) ^ n := by
  have e : 2 ^ 256 - 2 * r = 2 * (2 ^ 255 - r) := by rw [r_eq]; decide +kernel
  rw [e, ← card_fail shapeR n]
  refine Nat.card_congr (Equiv.subtypeEquivRight fun b => ?_)
  rcases hd : randInt r b.bytes with ⟨o, rest⟩
  cases o with
  | none =>
    rw [key_none_g1pubs hd]
    exact ⟨fun _ => rfl, fun _ => rfl⟩
  | some v =>
    obtain ⟨sk, e, _⟩ := key_some_g1pubs hd
    rw [e]
    simp

/-! ## g2pubs -/

private theorem key_some_g2pubs {l : List UInt8} {v : ℕ} {rest : List UInt8} (h : randInt r l = (some v, rest)) :
    ∃ sk, G2Pubs.randKeyFrom l = (some (some sk), rest) ∧ sk.Holds v := by
  obtain ⟨sk, e, hk⟩ := (C47_randKey v (shapeR.lt h)).2.2.1
  refine ⟨sk, ?_, hk⟩
  simp only [G2Pubs.randKeyFrom, rNat, h, Option.map_some]
  exact Prod.ext e rfl

private theorem key_none_g2pubs {l : List UInt8} {rest : List UInt8} (h : randInt r l = (none, rest)) :
    G2Pubs.randKeyFrom l = (some none, rest) := by
  simp only [G2Pubs.randKeyFrom, rNat, h, Option.map_none]
  rfl

private theorem holds_inj_g2pubs {sk : G2Pubs.SecretKey} {k k' : ℕ} (h : sk.Holds k) (h' : sk.Holds k') : k = k' := by
  obtain ⟨f, e, _, rfl⟩ := h
  obtain ⟨f', e', _, rfl⟩ := h'
  rw [e] at e'
  cases e'
  rfl

private theorem draw_iff_g2pubs (ks : List ℕ) : ∀ l : List UInt8,
    (∃ sks, G2Pubs.drawKeys ks.length l = some sks ∧ List.Forall₂ (fun sk k => sk.Holds k) sks ks) ↔
      ints r ks.length l = some ks := by
  induction ks with
  | nil => exact fun l => ⟨fun _ => rfl, fun _ => ⟨[], rfl, .nil⟩⟩
  | cons k ks ih =>
    intro l
    rw [List.length_cons, G2Pubs.drawKeys, ints]
    rcases hd : randInt r l with ⟨o, rest⟩
    cases o with
    | none =>
      rw [key_none_g2pubs hd]
      simp
    | some v =>
      obtain ⟨sk, e, hk⟩ := key_some_g2pubs hd
      rw [e]
      simp only [Option.map_eq_some_iff, List.cons.injEq]
      constructor
      · rintro ⟨sks, ⟨sks', h1, rfl⟩, h2⟩
        cases h2 with
        | cons h3 h4 => exact ⟨ks, (ih rest).mp ⟨sks', h1, h4⟩, holds_inj_g2pubs hk h3, rfl⟩
      · rintro ⟨ks', h1, rfl, rfl⟩
        obtain ⟨sks', h2, h3⟩ := (ih rest).mpr h1
        exact ⟨_, ⟨sks', h2, rfl⟩, .cons hk h3⟩

/-- `RandKey` reads blocks of 32 bytes. The first whose lower 255 bits are a number below r is the key; then nothing more is
read, and what follows has no influence. Without such a block `RandKey` returns the error of the reader. -/
theorem C89_reads_g2pubs (l : List UInt8) : ∃ bs : List (List UInt8), (∀ x ∈ bs, x.length = 32 ∧ r ≤ beNat x % 2 ^ 255) ∧
    ((∃ b rest sk, b.length = 32 ∧ beNat b % 2 ^ 255 < r ∧ l = bs.flatten ++ b ++ rest ∧ sk.Holds (beNat b % 2 ^ 255) ∧
      ∀ rest', G2Pubs.randKeyFrom (bs.flatten ++ b ++ rest') = (some (some sk), rest')) ∨
    ∃ t, t.length < 32 ∧ l = bs.flatten ++ t ∧ G2Pubs.randKeyFrom l = (some none, [])) := by
  obtain ⟨bs, h1, ⟨t, h2, h3⟩ | ⟨b, rest, h2, h3, h4⟩⟩ := shapeR.split l
  · exact ⟨bs, h1, Or.inr ⟨t, h2, h3, key_none_g2pubs (h3 ▸ shapeR.none bs t h1 h2)⟩⟩
  · have key (rest') := key_some_g2pubs (shapeR.some_iff (rest := rest').mpr ⟨bs, b, h1, h2, rfl, h3, rfl⟩)
    obtain ⟨sk, e, hk⟩ := key rest
    refine ⟨bs, h1, Or.inl ⟨b, rest, sk, h2, h3, h4, hk, fun rest' => ?_⟩⟩
    obtain ⟨sk', e', hk'⟩ := key rest'
    rw [e']
    obtain ⟨f, ef, hv, hi⟩ := hk
    obtain ⟨f', ef', hv', hi'⟩ := hk'
    have : f = f' := FR.int_inj hv hv' (hi.trans hi'.symm)
    obtain ⟨x⟩ := sk
    obtain ⟨x'⟩ := sk'
    simp only at ef ef'
    rw [ef, ef', this]

/-- Keys drawn one after the other: every sequence of keys is given by the same number of streams of n blocks. So, if the
bytes are uniformly distributed, the keys are, and they are independent of each other. -/
theorem C89_keys_g2pubs (n : ℕ) (ks ks' : List ℕ) (hl : ks.length = ks'.length) (h : ∀ k ∈ ks, k < r) (h' : ∀ k ∈ ks', k < r) :
    Nat.card {b : Blocks n 32 // ∃ sks, G2Pubs.drawKeys ks.length b.bytes = some sks ∧
      List.Forall₂ (fun sk k => sk.Holds k) sks ks} =
    Nat.card {b : Blocks n 32 // ∃ sks, G2Pubs.drawKeys ks'.length b.bytes = some sks ∧
      List.Forall₂ (fun sk k => sk.Holds k) sks ks'} := by
  rw [Nat.card_congr (Equiv.subtypeEquivRight fun b => draw_iff_g2pubs ks _),
    Nat.card_congr (Equiv.subtypeEquivRight fun b => draw_iff_g2pubs ks' _)]
  exact number_eq shapeR n hl h h'

/-- One key: the number of streams of n blocks that give `k`, times the number of keys, is the number of all streams but those
that give none. -/
theorem C89_key_g2pubs (n k : ℕ) (h : k < r) :
    Nat.card {b : Blocks n 32 // ∃ sk rest, G2Pubs.randKeyFrom b.bytes = (some (some sk), rest) ∧ sk.Holds k} * r +
      (2 ^ 256 - 2 * r) ^ n = 2 ^ (256 * n) := by
  have e : 2 ^ 256 - 2 * r = 2 * (2 ^ 255 - r) := by rw [r_eq]; decide +kernel
  have e' : (2 : ℕ) ^ (256 * n) = 256 ^ (32 * n) := by
    rw [show (256 : ℕ) = 2 ^ 8 from rfl, ← pow_mul]
    congr 1
    omega
  rw [e, e', ← number_one shapeR n k h, number]
  congr 2
  refine Nat.card_congr (Equiv.subtypeEquivRight fun b => ?_)
  rw [← draw_iff_g2pubs [k]]
  simp only [List.length_cons, List.length_nil, G2Pubs.drawKeys]
  constructor
  · rintro ⟨sk, rest, e, hk⟩
    exact ⟨[sk], by rw [e]; rfl, .cons hk .nil⟩
  · rintro ⟨sks, e, hk⟩
    split at e
    · next sk rest e1 =>
      obtain rfl := Option.some.inj e
      cases hk with
      | cons hk _ => exact ⟨sk, rest, e1, hk⟩
    · cases e

/-- Of the streams of n blocks this many give no key: less than 1/10 with one block. -/
theorem C89_error_g2pubs (n : ℕ) :
    Nat.card {b : Blocks n 32 // (G2Pubs.randKeyFrom b.bytes).1 = some none} = (2 ^ 256 - 2 * r) ^ n := by
  have e : 2 ^ 256 - 2 * r = 2 * (2 ^ 255 - r) := by rw [r_eq]; decide +kernel
  rw [e, ← card_fail shapeR n]
  refine Nat.card_congr (Equiv.subtypeEquivRight fun b => ?_)
  rcases hd : randInt r b.bytes with ⟨o, rest⟩
  cases o with
  | none =>
    rw [key_none_g2pubs hd]
    exact ⟨fun _ => rfl, fun _ => rfl⟩
  | some v =>
    obtain ⟨sk, e, _⟩ := key_some_g2pubs hd
    rw [e]
    simp

/-! ## Field elements -/

/-- `RandFR`: the same number of streams for every scalar. -/
theorem C89_randFR (n k : ℕ) (h : k < r) :
    Nat.card {b : Blocks n 32 // ∃ f rest, FR.randFrom b.bytes = (some (some (some f)), rest) ∧ f.isValid = true ∧ f.int = k} * r +
      (2 ^ 256 - 2 * r) ^ n = 2 ^ (256 * n) := by
  rw [← C89_key_g1pubs n k h]
  congr 2
  refine Nat.card_congr (Equiv.subtypeEquivRight fun b => ?_)
  rcases hd : randInt r b.bytes with ⟨o, rest⟩
  cases o with
  | none =>
    rw [key_none_g1pubs hd]
    simp only [FR.randFrom, rNat, hd, Option.map_none]
    simp [FR.rand]
  | some v =>
    obtain ⟨f, e, hv, hi⟩ := (C47_randFR v (by omega) (by exact_mod_cast shapeR.lt hd)).1
    have e' : FR.randFrom b.bytes = (some (some (some f)), rest) := by
      simp only [FR.randFrom, rNat, hd, Option.map_some]
      exact Prod.ext e rfl
    have e2 : G1Pubs.randKeyFrom b.bytes = (some (some ⟨some f⟩), rest) := by
      simp only [G1Pubs.randKeyFrom, rNat, hd, Option.map_some, G1Pubs.randKey]
      rw [show FR.rand (some (Int.ofNat v)) = _ from e]; rfl
    rw [e', e2]
    constructor
    · rintro ⟨g, _, h1, h2, h3⟩
      cases h1
      exact ⟨_, _, rfl, f, rfl, h2, h3⟩
    · rintro ⟨sk, _, h1, g, h2, h3, h4⟩
      cases h1
      cases h2
      exact ⟨f, _, rfl, h3, h4⟩

/-- `RandFQ`: attempts take 48 bytes, of which 381 bits count; the same number of streams for every element. -/
theorem C89_randFQ (n k : ℕ) (h : k < q) :
    Nat.card {b : Blocks n 48 // ∃ f rest, FQ.randFrom b.bytes = (some (some f), rest) ∧ f.isValid = true ∧ f.int = k} * q +
      (2 ^ 384 - 8 * q) ^ n = 2 ^ (384 * n) := by
  have e : 2 ^ 384 - 8 * q = 8 * (2 ^ 381 - q) := by rw [q_eq]; decide +kernel
  have e' : (2 : ℕ) ^ (384 * n) = 256 ^ (48 * n) := by
    rw [show (256 : ℕ) = 2 ^ 8 from rfl, ← pow_mul]
    congr 1
    omega
  rw [e, e', ← number_one shapeQ n k h, number]
  congr 2
  refine Nat.card_congr (Equiv.subtypeEquivRight fun b => ?_)
  simp only [List.length_cons, List.length_nil, ints]
  rcases hd : randInt q b.bytes with ⟨o, rest⟩
  cases o with
  | none =>
    simp only [FQ.randFrom, qNat, hd, Option.map_none]
    simp [FQ.rand]
  | some v =>
    obtain ⟨f, e, hv, hi⟩ := (C47_randFQ v (by omega) (by exact_mod_cast shapeQ.lt hd)).1
    have e' : FQ.randFrom b.bytes = (some (some f), rest) := by
      simp only [FQ.randFrom, qNat, hd, Option.map_some]
      exact Prod.ext e rfl
    rw [e']
    constructor
    · rintro ⟨g, _, h1, h2, h3⟩
      cases h1
      change some [v] = some [k]
      congr 2
      omega
    · intro h
      have h : some [v] = some [k] := h
      have := (List.cons.inj (Option.some.inj h)).1
      exact ⟨f, _, rfl, hv, by omega⟩

/-- Non-vacuity: two blocks, one rejected and one for the key 5, and two sequences of keys. -/
example : (∃ x : List UInt8, x.length = 32 ∧ r ≤ beNat x % 2 ^ 255) ∧
    (∃ b : List UInt8, b.length = 32 ∧ beNat b % 2 ^ 255 = 5 ∧ 5 < r) ∧ (∀ k ∈ [0, 5], k < r) ∧ (∀ k ∈ [7, 7], k < r) := by
  have h : 10 < r ∧ r ≤ beNat (List.replicate 32 255) % 2 ^ 255 := by rw [r_eq]; decide +kernel
  refine ⟨⟨List.replicate 32 255, rfl, h.2⟩, ⟨List.replicate 31 0 ++ [5], rfl, by decide +kernel, by omega⟩, ?_, ?_⟩ <;>
    simp only [List.mem_cons, List.not_mem_nil, or_false] <;> omega

end Bls.Props
