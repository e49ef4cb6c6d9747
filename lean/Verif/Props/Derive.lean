import Verif.Props.Spread
import Verif.Props.SigG1
import Verif.Props.SigG2
import Mathlib.Data.Int.CardIntervalMod
/-
C77: the keys that `DeriveSecretKey` gives are evenly distributed.
-/
set_option exponentiation.threshold 1000
namespace Bls.Props

private theorem card_residue (N : ℕ) {k : ℕ} (hk : k < r) :
    {v : Fin N | (v : ℕ) % r = k}.ncard = N / r + if k < N % r then 1 else 0 := by
  have e : {v : Fin N | (v : ℕ) % r = k}.ncard = (Finset.filter (· ≡ k [MOD r]) (Finset.range N)).card := by
    rw [← Set.ncard_coe_finset, ← Set.InjOn.ncard_image (Fin.val_injective.injOn (s := {v : Fin N | (v : ℕ) % r = k}))]
    congr 1
    ext n
    rw [Finset.coe_filter]
    constructor
    · rintro ⟨v, hv, rfl⟩
      exact ⟨Finset.mem_range.mpr v.2, (Eq.trans hv (Nat.mod_eq_of_lt hk).symm : _ % r = k % r)⟩
    · rintro ⟨h1, h2⟩
      exact ⟨⟨n, Finset.mem_range.mp h1⟩, (Eq.trans h2 (Nat.mod_eq_of_lt hk) : n % r = k), rfl⟩
  rw [e, ← Nat.count_eq_card_filter_range, Nat.count_modEq_card N r_prime.pos, Nat.mod_eq_of_lt hk]

private theorem card_residues (N : ℕ) {K : Finset ℕ} (hK : ∀ k ∈ K, k < r) :
    {v : Fin N | (v : ℕ) % r ∈ K}.ncard * r ≤ K.card * (N + r) ∧ K.card * N ≤ {v : Fin N | (v : ℕ) % r ∈ K}.ncard * r + K.card * r := by
  induction K using Finset.induction_on with
  | empty => simp
  | @insert k K hk ih =>
    obtain ⟨h1, h2⟩ := ih fun c m => hK c (Finset.mem_insert_of_mem m)
    have hc := card_residue N (hK k (Finset.mem_insert_self _ _))
    have e : {v : Fin N | (v : ℕ) % r ∈ insert k K} = {v : Fin N | (v : ℕ) % r = k} ∪ {v : Fin N | (v : ℕ) % r ∈ K} := by
      ext v
      exact Finset.mem_insert
    rw [e, Set.ncard_union_eq (Set.disjoint_left.mpr fun v h h' => hk (by
      rw [Set.mem_ofPred_eq] at h h'
      rwa [h] at h')) (Set.toFinite _) (Set.toFinite _), hc, Finset.card_insert_of_notMem hk]
    have hd := Nat.div_add_mod N r
    have hm := Nat.mod_lt N r_prime.pos
    clear hc e ih
    generalize {v : Fin N | (v : ℕ) % r ∈ K}.ncard = x at *
    generalize N / r = a at *
    generalize N % r = b at *
    constructor
    · split <;> nlinarith
    · split <;> nlinarith

/-! ## g1pubs -/

private theorem derive1 {seed : List UInt8} (hs : seed.length = 32) {p : G1Pubs.SecretKey → Prop} {p' : ℕ → Prop}
    (h : ∀ sk n, sk.Holds (n % r) → (p sk ↔ p' (n % r))) :
    Nat.card {v : Fin (2 ^ 512) // ∃ sha sk, (∀ b, (sha b).length = 32) ∧ hashToField sha seed 0 1 = v ∧
      G1Pubs.deriveSecretKey sha seed = some sk ∧ p sk} = {v : Fin (2 ^ 512) | p' ((v : ℕ) % r)}.ncard := by
  rw [← Nat.card_coe_set_eq]
  refine Nat.card_congr (Equiv.subtypeEquivRight fun v => ⟨?_, fun hv => ?_⟩)
  · rintro ⟨sha, sk, h1, h2, h3, h4⟩
    obtain ⟨sk', g1, g2⟩ := C50_deriveSecretKey_g1pubs sha seed
    rw [h3, Option.some_inj] at g1
    rw [h2, ← g1] at g2
    exact (h sk _ g2).mp h4
  · obtain ⟨sha, h1, h2⟩ := sha_exists (fun _ _ => v) seed (by rw [hs]; decide)
    obtain ⟨sk, g1, g2⟩ := C50_deriveSecretKey_g1pubs sha seed
    rw [h2] at g2
    exact ⟨sha, sk, h1, h2 0 1, g1, (h sk _ g2).mpr hv⟩

private theorem holds1 {sk : G1Pubs.SecretKey} {k k' : ℕ} (h : sk.Holds k) (h' : sk.Holds k') : k = k' := by
  obtain ⟨f, h1, _, h2⟩ := h
  obtain ⟨f', h1', _, h2'⟩ := h'
  rw [h1, Option.some_inj] at h1'
  rw [← h2, ← h2', h1']

/-- `DeriveSecretKey` depends on the hash function and the seed only through one number. -/
theorem C77_only (sha sha' : List UInt8 → List UInt8) (seed seed' : List UInt8)
    (h : hashToField sha seed 0 1 = hashToField sha' seed' 0 1) :
    G1Pubs.deriveSecretKey sha seed = G1Pubs.deriveSecretKey sha' seed' ∧
      G2Pubs.deriveSecretKey sha seed = G2Pubs.deriveSecretKey sha' seed' := by
  have e : hashSecretKey sha seed = hashSecretKey sha' seed' := by
    unfold hashSecretKey
    simp only [hashToField, ← bytesNat_eq] at h
    simp only [hashBlocks, List.append_assoc, List.cons_append, List.nil_append, h]
  rw [G1Pubs.deriveSecretKey, G1Pubs.deriveSecretKey, G2Pubs.deriveSecretKey, G2Pubs.deriveSecretKey, e]
  exact ⟨rfl, rfl⟩

/-- For every seed, the number of pairs of hash values of 32 bytes for which `DeriveSecretKey` gives the key `k` is 2⁵¹²/r,
rounded down or up. This includes the key 0. -/
theorem C77_key_g1pubs (seed : List UInt8) (hs : seed.length = 32) (k : ℕ) (hk : k < r) :
    Nat.card {v : Fin (2 ^ 512) // ∃ sha sk, (∀ b, (sha b).length = 32) ∧ hashToField sha seed 0 1 = v ∧
      G1Pubs.deriveSecretKey sha seed = some sk ∧ sk.Holds k} = 2 ^ 512 / r + if k < 2 ^ 512 % r then 1 else 0 := by
  rw [← card_residue _ hk]
  exact derive1 hs (p' := fun n => n = k) fun sk n h => ⟨fun h' => holds1 h h', fun e => e ▸ h⟩

/-- For every set of keys, the probability that `DeriveSecretKey` gives one of them differs from that of a uniformly
distributed key by at most |K|/2⁵¹², so by less than 2⁻²⁵⁷. -/
theorem C77_keys_g1pubs (seed : List UInt8) (hs : seed.length = 32) (K : Finset ℕ) (hK : ∀ k ∈ K, k < r) :
    |(Nat.card {v : Fin (2 ^ 512) // ∃ sha sk, (∀ b, (sha b).length = 32) ∧ hashToField sha seed 0 1 = v ∧
      G1Pubs.deriveSecretKey sha seed = some sk ∧ ∃ k ∈ K, sk.Holds k} : ℚ) / 2 ^ 512 - K.card / r| ≤ (K.card : ℚ) / 2 ^ 512 := by
  have e := derive1 hs (p := fun sk => ∃ k ∈ K, sk.Holds k) (p' := fun n => n ∈ K) fun sk n h =>
    ⟨fun ⟨k, hk, h'⟩ => holds1 h h' ▸ hk, fun m => ⟨_, m, h⟩⟩
  rw [e]
  obtain ⟨h1, h2⟩ := card_residues (2 ^ 512) hK
  generalize {v : Fin (2 ^ 512) | (v : ℕ) % r ∈ K}.ncard = x at *
  have h1 : (x : ℚ) * r ≤ K.card * (2 ^ 512 + r) := by exact_mod_cast h1
  have h2 : (K.card : ℚ) * 2 ^ 512 ≤ x * r + K.card * r := by exact_mod_cast h2
  have hr : (0 : ℚ) < r := by exact_mod_cast r_prime.pos
  have hM : (0 : ℚ) < 2 ^ 512 := by positivity
  generalize (2 : ℚ) ^ 512 = M at *
  have e : (x : ℚ) / M - K.card / r = (x * r - K.card * M) / (M * r) := by field_simp
  have e' : (K.card : ℚ) / M = K.card * r / (M * r) := by field_simp
  rw [e, e', abs_div, abs_of_pos (mul_pos hM hr)]
  refine div_le_div_of_nonneg_right ?_ (mul_pos hM hr).le
  rw [abs_le]
  constructor <;> nlinarith

/-- `PrivToPub` of the derived key gives every point of the subgroup for 2⁵¹²/r pairs of hash values, rounded down or up;
infinity too. -/
theorem C77_publicKey_g1pubs (seed : List UInt8) (hs : seed.length = 32) (P : E1) (hP : r • P = 0) :
    ∃ c ≤ 1, Nat.card {v : Fin (2 ^ 512) // ∃ sha sk, (∀ b, (sha b).length = 32) ∧ hashToField sha seed 0 1 = v ∧
      G1Pubs.deriveSecretKey sha seed = some sk ∧ ∃ pub, G1Pubs.privToPub sk = some pub ∧ pub.p.Denotes P} =
      2 ^ 512 / r + c := by
  obtain ⟨k, rfl⟩ := E1.torsion hP
  have hk : k % r < r := Nat.mod_lt _ r_prime.pos
  refine ⟨if k % r < 2 ^ 512 % r then 1 else 0, by split <;> decide, ?_⟩
  rw [← card_residue _ hk]
  refine derive1 hs (p' := fun n => n = k % r) fun sk n h => ?_
  obtain ⟨pub, h1, h2⟩ := h.toPub
  constructor
  · rintro ⟨pub', g1, g2⟩
    rw [h1, Option.some_inj] at g1
    have e := h2.fn (G1Projective.denotes_iff.mp (g1 ▸ g2))
    rw [nsmul_mod_r r_smul_g1Gen (k := k)] at e
    exact nsmul_injOn_Iio_addOrderOf (by rw [addOrderOf_g1Gen]; exact Nat.mod_lt _ r_prime.pos)
      (by rw [addOrderOf_g1Gen]; exact hk) e
  · intro e
    refine ⟨pub, h1, G1Projective.denotes_iff.mpr ?_⟩
    rw [nsmul_mod_r r_smul_g1Gen (k := k), ← e]
    exact h2

/-! ## g2pubs -/

private theorem derive2 {seed : List UInt8} (hs : seed.length = 32) {p : G2Pubs.SecretKey → Prop} {p' : ℕ → Prop}
    (h : ∀ sk n, sk.Holds (n % r) → (p sk ↔ p' (n % r))) :
    Nat.card {v : Fin (2 ^ 512) // ∃ sha sk, (∀ b, (sha b).length = 32) ∧ hashToField sha seed 0 1 = v ∧
      G2Pubs.deriveSecretKey sha seed = some sk ∧ p sk} = {v : Fin (2 ^ 512) | p' ((v : ℕ) % r)}.ncard := by
  rw [← Nat.card_coe_set_eq]
  refine Nat.card_congr (Equiv.subtypeEquivRight fun v => ⟨?_, fun hv => ?_⟩)
  · rintro ⟨sha, sk, h1, h2, h3, h4⟩
    obtain ⟨sk', g1, g2⟩ := C50_deriveSecretKey_g2pubs sha seed
    rw [h3, Option.some_inj] at g1
    rw [h2, ← g1] at g2
    exact (h sk _ g2).mp h4
  · obtain ⟨sha, h1, h2⟩ := sha_exists (fun _ _ => v) seed (by rw [hs]; decide)
    obtain ⟨sk, g1, g2⟩ := C50_deriveSecretKey_g2pubs sha seed
    rw [h2] at g2
    exact ⟨sha, sk, h1, h2 0 1, g1, (h sk _ g2).mpr hv⟩

private theorem holds2 {sk : G2Pubs.SecretKey} {k k' : ℕ} (h : sk.Holds k) (h' : sk.Holds k') : k = k' := by
  obtain ⟨f, h1, _, h2⟩ := h
  obtain ⟨f', h1', _, h2'⟩ := h'
  rw [h1, Option.some_inj] at h1'
  rw [← h2, ← h2', h1']

/-- For every seed, the number of pairs of hash values of 32 bytes for which `DeriveSecretKey` gives the key `k` is 2⁵¹²/r,
rounded down or up. This includes the key 0. -/
theorem C77_key_g2pubs (seed : List UInt8) (hs : seed.length = 32) (k : ℕ) (hk : k < r) :
    Nat.card {v : Fin (2 ^ 512) // ∃ sha sk, (∀ b, (sha b).length = 32) ∧ hashToField sha seed 0 1 = v ∧
      G2Pubs.deriveSecretKey sha seed = some sk ∧ sk.Holds k} = 2 ^ 512 / r + if k < 2 ^ 512 % r then 1 else 0 := by
  rw [← card_residue _ hk]
  exact derive2 hs (p' := fun n => n = k) fun sk n h => ⟨fun h' => holds2 h h', fun e => e ▸ h⟩

/-- For every set of keys, the probability that `DeriveSecretKey` gives one of them differs from that of a uniformly
distributed key by at most |K|/2⁵¹², so by less than 2⁻²⁵⁷. -/
theorem C77_keys_g2pubs (seed : List UInt8) (hs : seed.length = 32) (K : Finset ℕ) (hK : ∀ k ∈ K, k < r) :
    |(Nat.card {v : Fin (2 ^ 512) // ∃ sha sk, (∀ b, (sha b).length = 32) ∧ hashToField sha seed 0 1 = v ∧
      G2Pubs.deriveSecretKey sha seed = some sk ∧ ∃ k ∈ K, sk.Holds k} : ℚ) / 2 ^ 512 - K.card / r| ≤ (K.card : ℚ) / 2 ^ 512 := by
  have e := derive2 hs (p := fun sk => ∃ k ∈ K, sk.Holds k) (p' := fun n => n ∈ K) fun sk n h =>
    ⟨fun ⟨k, hk, h'⟩ => holds2 h h' ▸ hk, fun m => ⟨_, m, h⟩⟩
  rw [e]
  obtain ⟨h1, h2⟩ := card_residues (2 ^ 512) hK
  generalize {v : Fin (2 ^ 512) | (v : ℕ) % r ∈ K}.ncard = x at *
  have h1 : (x : ℚ) * r ≤ K.card * (2 ^ 512 + r) := by exact_mod_cast h1
  have h2 : (K.card : ℚ) * 2 ^ 512 ≤ x * r + K.card * r := by exact_mod_cast h2
  have hr : (0 : ℚ) < r := by exact_mod_cast r_prime.pos
  have hM : (0 : ℚ) < 2 ^ 512 := by positivity
  generalize (2 : ℚ) ^ 512 = M at *
  have e : (x : ℚ) / M - K.card / r = (x * r - K.card * M) / (M * r) := by field_simp
  have e' : (K.card : ℚ) / M = K.card * r / (M * r) := by field_simp
  rw [e, e', abs_div, abs_of_pos (mul_pos hM hr)]
  refine div_le_div_of_nonneg_right ?_ (mul_pos hM hr).le
  rw [abs_le]
  constructor <;> nlinarith

/-- `PrivToPub` of the derived key gives every point of the subgroup for 2⁵¹²/r pairs of hash values, rounded down or up;
infinity too. -/
theorem C77_publicKey_g2pubs (seed : List UInt8) (hs : seed.length = 32) (P : E2) (hP : r • P = 0) :
    ∃ c ≤ 1, Nat.card {v : Fin (2 ^ 512) // ∃ sha sk, (∀ b, (sha b).length = 32) ∧ hashToField sha seed 0 1 = v ∧
      G2Pubs.deriveSecretKey sha seed = some sk ∧ ∃ pub, G2Pubs.privToPub sk = some pub ∧ pub.p.Denotes P} =
      2 ^ 512 / r + c := by
  obtain ⟨k, rfl⟩ := E2.torsion hP
  have hk : k % r < r := Nat.mod_lt _ r_prime.pos
  refine ⟨if k % r < 2 ^ 512 % r then 1 else 0, by split <;> decide, ?_⟩
  rw [← card_residue _ hk]
  refine derive2 hs (p' := fun n => n = k % r) fun sk n h => ?_
  obtain ⟨pub, h1, h2⟩ := h.toPub
  constructor
  · rintro ⟨pub', g1, g2⟩
    rw [h1, Option.some_inj] at g1
    have e := h2.fn (G2Projective.denotes_iff.mp (g1 ▸ g2))
    rw [nsmul_mod_r r_smul_g2Gen (k := k)] at e
    exact nsmul_injOn_Iio_addOrderOf (by rw [addOrderOf_g2Gen]; exact Nat.mod_lt _ r_prime.pos)
      (by rw [addOrderOf_g2Gen]; exact hk) e
  · intro e
    refine ⟨pub, h1, G2Projective.denotes_iff.mpr ?_⟩
    rw [nsmul_mod_r r_smul_g2Gen (k := k), ← e]
    exact h2

/-- The cases are not empty: a seed, and 2⁵¹²/r is about 2²⁵⁷, so every key occurs, also 0. -/
example : (List.replicate 32 (7 : UInt8)).length = 32 ∧ 2 ^ 257 < 2 ^ 512 / r ∧ 2 ^ 512 / r < 2 ^ 258 ∧
    (∀ k ∈ ({0, 1, 5} : Finset ℕ), k < r) ∧ r • (0 : E1) = 0 ∧ r • g2Gen = 0 := by
  refine ⟨rfl, ?_, ?_, ?_, nsmul_zero _, r_smul_g2Gen⟩
  all_goals rw [r_eq]; decide +kernel

end Bls.Props
