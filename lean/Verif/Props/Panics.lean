import Verif.Proof.G1Pubs
import Verif.Proof.G2Pubs
import Verif.Proof.HashCases
import Verif.Proof.HashTop
import Verif.Proof.MillerCurve
/-
C64: exactly when the pairing and the verifiers panic (C34 has that they can). The model's functions return `none` when
the Go function panics. The points are arbitrary points of the two curves, in the subgroups of order r or not; only the
hashes in G2 are in the subgroup (C42).
-/
namespace Bls.Props

/-! ## C64: the pairing -/

/-- `Pairing` panics exactly if an argument is infinity, and returns nil exactly if neither is and the argument in G2
has order 13. -/
theorem C64_pairing (p : G1Projective) (g : G2Projective) (P : E1) (Q : E2) (hp : p.Denotes P) (hg : g.Denotes Q) :
    (pairing p g = none ↔ P = 0 ∨ Q = 0) ∧ (pairing p g = some none ↔ P ≠ 0 ∧ Q ≠ 0 ∧ 13 • Q = 0) := by
  rw [G1Projective.denotes_iff] at hp
  rw [G2Projective.denotes_iff] at hg
  by_cases h : P = 0 ∨ Q = 0
  · rw [pairing_none hp hg h]
    exact ⟨⟨fun _ => h, fun _ => rfl⟩, nofun, fun k => absurd h (not_or.mpr ⟨k.1, k.2.1⟩)⟩
  · have h' := not_or.mp h
    by_cases k : 13 • Q = 0
    · rw [pairing_thirteen hp hg h'.1 h'.2 k]
      exact ⟨⟨nofun, fun x => absurd x h⟩, fun _ => ⟨h'.1, h'.2, k⟩, fun _ => rfl⟩
    · obtain ⟨e, h1, _⟩ := pairing_reg hp hg h'.1 (reg_of_thirteen k)
      rw [h1]
      exact ⟨⟨nofun, fun x => absurd x h⟩, nofun, fun x => absurd x.2.2 k⟩

/-- In the subgroup of order r, where no point has order 13, it never returns nil. -/
theorem C64_pairing_subgroup (p : G1Projective) (g : G2Projective) (P : E1) (Q : E2) (hp : p.Denotes P)
    (hg : g.Denotes Q) (hQ : r • Q = 0) : (pairing p g = none ↔ P = 0 ∨ Q = 0) ∧ pairing p g ≠ some none :=
  have h := C64_pairing p g P Q hp hg
  ⟨h.1, fun k => (h.2.mp k).2.1 ((thirteen_of_r hQ).mp (h.2.mp k).2.2)⟩

/-- `CompareTwoPairings` panics exactly if an argument is infinity, or one in G2 has order 13. -/
theorem C64_compare (p₁ p₂ : G1Projective) (g₁ g₂ : G2Projective) (P₁ P₂ : E1) (Q₁ Q₂ : E2) (hp₁ : p₁.Denotes P₁)
    (hg₁ : g₁.Denotes Q₁) (hp₂ : p₂.Denotes P₂) (hg₂ : g₂.Denotes Q₂) :
    compareTwoPairings p₁ g₁ p₂ g₂ = none ↔ P₁ = 0 ∨ P₂ = 0 ∨ 13 • Q₁ = 0 ∨ 13 • Q₂ = 0 := by
  rw [G1Projective.denotes_iff] at hp₁ hp₂
  rw [G2Projective.denotes_iff] at hg₁ hg₂
  have z : ∀ Q : E2, Q = 0 → 13 • Q = 0 := fun Q e => by rw [e, nsmul_zero]
  by_cases h : P₁ = 0 ∨ P₂ = 0 ∨ Q₁ = 0 ∨ Q₂ = 0
  · exact ⟨fun _ => h.imp_right (Or.imp_right (Or.imp (z _) (z _))), fun _ => compareTwoPairings_none hp₁ hg₁ hp₂ hg₂ h⟩
  · rw [not_or, not_or, not_or] at h
    rw [or_iff_right h.1, or_iff_right h.2.1]
    by_cases k : 13 • Q₁ = 0 ∨ 13 • Q₂ = 0
    · exact ⟨fun _ => k, fun _ => compareTwoPairings_thirteen hp₁ hg₁ hp₂ hg₂ h.1 h.2.1 h.2.2.1 h.2.2.2 k⟩
    · have k' := not_or.mp k
      obtain ⟨c, h1, _⟩ := compareTwoPairings_reg hp₁ hg₁ hp₂ hg₂ h.1 h.2.1 (reg_of_thirteen k'.1) (reg_of_thirteen k'.2)
      rw [h1]
      exact ⟨nofun, fun x => absurd x k⟩

/-- All cases occur: infinity, order 13, the generators. -/
example : (∃ (p : G1Projective) (g : G2Projective) (P : E1) (Q : E2), p.Denotes P ∧ g.Denotes Q ∧ P = 0) ∧
    (∃ (p : G1Projective) (g : G2Projective) (P : E1) (Q : E2), p.Denotes P ∧ g.Denotes Q ∧ P ≠ 0 ∧ Q ≠ 0 ∧ 13 • Q = 0) ∧
    ∃ (p : G1Projective) (g : G2Projective) (P : E1) (Q : E2), p.Denotes P ∧ g.Denotes Q ∧ r • Q = 0 ∧ P ≠ 0 ∧ 13 • Q ≠ 0 :=
  ⟨⟨_, _, _, _, G1Projective.denotes_iff.mpr .zero, G2Projective.denotes_iff.mpr .zero, rfl⟩,
    (let ⟨Q, h0, h⟩ := thirteen_exists
     let ⟨_, ha⟩ := G2Affine.exists_rep Q
     ⟨_, _, _, Q, G1Projective.denotes_iff.mpr G1Affine.one_rep.toProjective, G2Projective.denotes_iff.mpr ha.toProjective,
       g1Gen_ne_zero, h0, h⟩),
    _, _, _, _, G1Projective.denotes_iff.mpr G1Affine.one_rep.toProjective,
    G2Projective.denotes_iff.mpr G2Affine.one_rep.toProjective, r_smul_g2Gen, g1Gen_ne_zero,
    fun h => g2Gen_ne_zero ((thirteen_of_r r_smul_g2Gen).mp h)⟩

theorem one_g1 : G1Projective.one.Denotes g1Gen := G1Projective.denotes_iff.mpr G1Affine.one_rep.toProjective
theorem one_g2 : G2Projective.one.Denotes g2Gen := G2Projective.denotes_iff.mpr G2Affine.one_rep.toProjective

/-! ## C64: g1pubs -/

/-- `Verify` panics exactly if the key or the hash of the message is infinity, or the signature is
infinity or a point of order 13. -/
theorem C64_verify_g1pubs (sha : List UInt8 → List UInt8) (m : List UInt8) (h : G2Affine) (H : E2)
    (hh : hashG2 sha m = some h) (hd : h.Denotes H) (hH : r • H = 0) (pub : G1Pubs.PublicKey) (P : E1)
    (hp : pub.p.Denotes P) (sig : G1Pubs.Signature) (S : E2) (hs : sig.s.Denotes S) :
    G1Pubs.verify sha m pub sig = none ↔ P = 0 ∨ 13 • S = 0 ∨ H = 0 := by
  rw [G1Pubs.verify, hh, Option.bind_some, C64_compare _ _ _ _ _ _ _ _ one_g1 hs hp
    (G2Projective.denotes_iff.mpr (G2Affine.denotes_iff.mp hd).toProjective), or_iff_right g1Gen_ne_zero, thirteen_of_r hH]

/-- `VerifyAggregateCommon` panics exactly if the hash of the message or the sum of the keys is infinity, or the
signature is infinity or a point of order 13. -/
theorem C64_common_g1pubs (sha : List UInt8 → List UInt8) (m : List UInt8) (h : G2Affine) (H : E2)
    (hh : hashG2 sha m = some h) (hd : h.Denotes H) (hH : r • H = 0) (pubs : List G1Pubs.PublicKey) (Ps : List E1)
    (hp : List.Forall₂ (fun p P => p.p.Denotes P) pubs Ps) (sig : G1Pubs.Signature) (S : E2) (hs : sig.s.Denotes S)
    : sig.verifyAggregateCommon sha pubs m = none ↔ Ps.sum = 0 ∨ 13 • S = 0 ∨ H = 0 :=
  C64_verify_g1pubs sha m h H hh hd hH _ _
    (G1Projective.denotes_iff.mpr (G1Pubs.aggregatePublicKeys_spec (hp.imp fun _ _ => G1Projective.denotes_iff.mp)))
    sig S hs

/-- `VerifyWithDomain` panics exactly if the key or the hash of the message is infinity, or the signature is
infinity or a point of order 13. -/
theorem C64_verifyWithDomain_g1pubs (sha : List UInt8 → List UInt8) (m d : List UInt8) (h : G2Projective) (H : E2)
    (hh : hashG2WithDomain sha m d = some h) (hd : h.Denotes H) (hH : r • H = 0) (pub : G1Pubs.PublicKey) (P : E1)
    (hp : pub.p.Denotes P) (sig : G1Pubs.Signature) (S : E2) (hs : sig.s.Denotes S) :
    G1Pubs.verifyWithDomain sha m pub sig d = none ↔ P = 0 ∨ 13 • S = 0 ∨ H = 0 := by
  rw [G1Pubs.verifyWithDomain, hh, Option.bind_some, C64_compare _ _ _ _ _ _ _ _ one_g1 hs hp
    (G2Projective.denotes_iff.mpr (G2Projective.denotes_iff.mp hd).toAffine.toProjective),
    or_iff_right g1Gen_ne_zero, thirteen_of_r hH]

/-- `VerifyAggregateCommonWithDomain` likewise. -/
theorem C64_commonDomain_g1pubs (sha : List UInt8 → List UInt8) (m d : List UInt8) (h : G2Projective) (H : E2)
    (hh : hashG2WithDomain sha m d = some h) (hd : h.Denotes H) (hH : r • H = 0) (pubs : List G1Pubs.PublicKey)
    (Ps : List E1) (hp : List.Forall₂ (fun p P => p.p.Denotes P) pubs Ps) (sig : G1Pubs.Signature) (S : E2)
    (hs : sig.s.Denotes S) :
    sig.verifyAggregateCommonWithDomain sha pubs m d = none ↔ Ps.sum = 0 ∨ 13 • S = 0 ∨ H = 0 :=
  C64_verifyWithDomain_g1pubs sha m d h H hh hd hH _ _
    (G1Projective.denotes_iff.mpr (G1Pubs.aggregatePublicKeys_spec (hp.imp fun _ _ => G1Projective.denotes_iff.mp)))
    sig S hs

theorem pairing_bad {g : G2Projective} {S : E2} (hs : g.Denotes S)
    (k : pairing G1Projective.one g = none ∨ pairing G1Projective.one g = some none) : 13 • S = 0 := by
  obtain ⟨k1, k2⟩ := C64_pairing _ _ _ _ one_g1 hs
  rcases k with k | k
  · rw [(k1.mp k).resolve_left g1Gen_ne_zero, nsmul_zero]
  · exact (k2.mp k).2.2

theorem pairing_good {g : G2Projective} {S : E2} (hs : g.Denotes S) {v : FQ12}
    (k : pairing G1Projective.one g = some (some v)) : ¬ 13 • S = 0 := by
  obtain ⟨k1, k2⟩ := C64_pairing _ _ _ _ one_g1 hs
  rw [k] at k1 k2
  intro h
  by_cases h0 : S = 0
  · exact nomatch k1.mpr (.inr h0)
  · exact nomatch k2.mpr ⟨g1Gen_ne_zero, h0, h⟩

theorem product_none_g1pubs (sha : List UInt8 → List UInt8) (batch : List (G1Pubs.PublicKey × List UInt8 × E1 × E2))
    (h : ∀ b ∈ batch, b.1.p.Denotes b.2.2.1 ∧ (∃ g, hashG2 sha b.2.1 = some g ∧ g.Denotes b.2.2.2) ∧ r • b.2.2.2 = 0)
    (e : FQ12) : G1Pubs.pairingProduct sha (batch.map fun b => b.1) (batch.map fun b => b.2.1) e = none ↔
      ∃ b ∈ batch, b.2.2.1 = 0 ∨ b.2.2.2 = 0 := by
  induction batch generalizing e with
  | nil => exact ⟨nofun, nofun⟩
  | cons b l ih =>
    obtain ⟨h1, ⟨g, h2, h3⟩, h4⟩ := h b List.mem_cons_self
    have ih := ih fun x hx => h x (List.mem_cons_of_mem _ hx)
    obtain ⟨k1, k2⟩ := C64_pairing_subgroup b.1.p g.toProjective b.2.2.1 b.2.2.2 h1
      (G2Projective.denotes_iff.mpr (G2Affine.denotes_iff.mp h3).toProjective) h4
    rw [List.map_cons, List.map_cons, G1Pubs.pairingProduct, h2, Option.bind_some, List.exists_mem_cons_iff]
    rcases k : pairing b.1.p g.toProjective with _ | _ | v
    · exact ⟨fun _ => .inl (k1.mp k), fun _ => rfl⟩
    · exact absurd k k2
    · rw [k] at k1
      rw [or_iff_right (fun h => nomatch k1.mpr h)]
      exact ih _

/-- `VerifyAggregate` on as many keys as messages panics exactly if the messages pass the checks (pairwise different,
none empty) and a key or the hash of a message is infinity, or the signature is infinity or a point of order 13. (With other numbers of keys it returns
false: C38.) -/
theorem C64_aggregate_g1pubs (sha : List UInt8 → List UInt8)
    (batch : List (G1Pubs.PublicKey × List UInt8 × E1 × E2))
    (h : ∀ b ∈ batch, b.1.p.Denotes b.2.2.1 ∧ (∃ g, hashG2 sha b.2.1 = some g ∧ g.Denotes b.2.2.2) ∧ r • b.2.2.2 = 0)
    (sig : G1Pubs.Signature) (S : E2) (hs : sig.s.Denotes S) :
    sig.verifyAggregate sha (batch.map fun b => b.1) (batch.map fun b => b.2.1) = none ↔
      (batch.map fun b => b.2.1).Nodup ∧ [] ∉ (batch.map fun b => b.2.1) ∧
      (13 • S = 0 ∨ ∃ b ∈ batch, b.2.2.1 = 0 ∨ b.2.2.2 = 0) := by
  have hl : ((batch.map fun b => b.1).length != (batch.map fun b => b.2.1).length) = false := by
    rw [List.length_map, List.length_map, bne_self_eq_false]
  rw [G1Pubs.Signature.verifyAggregate, hl, if_neg (by decide), ← and_assoc, ← noRepeat_sort]
  cases noRepeat [] (sortByteArrays (batch.map fun b => b.2.1))
  · exact ⟨nofun, fun k => absurd k.1 (by decide)⟩
  · rw [if_neg (by decide), eq_self_iff_true, true_and, ← product_none_g1pubs sha batch h FQ12.one]
    rcases k : pairing G1Projective.one sig.s with _ | _ | v
    · exact ⟨fun _ => .inl (pairing_bad hs (.inl k)), fun _ => rfl⟩
    · refine ⟨fun _ => .inl (pairing_bad hs (.inr k)), fun _ => ?_⟩
      generalize G1Pubs.pairingProduct sha (batch.map fun b => b.1) (batch.map fun b => b.2.1) FQ12.one = w
      rcases w with _ | w
      · rfl
      · rfl
    · rw [or_iff_right (pairing_good hs k)]
      generalize G1Pubs.pairingProduct sha (batch.map fun b => b.1) (batch.map fun b => b.2.1) FQ12.one = w
      rcases w with _ | w
      · exact ⟨fun _ => rfl, fun _ => rfl⟩
      · exact ⟨nofun, nofun⟩

theorem productDomain_none_g1pubs (sha : List UInt8 → List UInt8) (d : List UInt8)
    (batch : List (G1Pubs.PublicKey × List UInt8 × E1 × E2))
    (h : ∀ b ∈ batch, b.1.p.Denotes b.2.2.1 ∧ (∃ g, hashG2WithDomain sha b.2.1 d = some g ∧ g.Denotes b.2.2.2) ∧
      r • b.2.2.2 = 0)
    (e : FQ12) : G1Pubs.pairingProductWithDomain sha d (batch.map fun b => b.1) (batch.map fun b => b.2.1) e = none ↔
      ∃ b ∈ batch, b.2.2.1 = 0 ∨ b.2.2.2 = 0 := by
  induction batch generalizing e with
  | nil => exact ⟨nofun, nofun⟩
  | cons b l ih =>
    obtain ⟨h1, ⟨g, h2, h3⟩, h4⟩ := h b List.mem_cons_self
    have ih := ih fun x hx => h x (List.mem_cons_of_mem _ hx)
    obtain ⟨k1, k2⟩ := C64_pairing_subgroup b.1.p g.toAffine.toProjective b.2.2.1 b.2.2.2 h1
      (G2Projective.denotes_iff.mpr (G2Projective.denotes_iff.mp h3).toAffine.toProjective) h4
    rw [List.map_cons, List.map_cons, G1Pubs.pairingProductWithDomain, h2, Option.bind_some, List.exists_mem_cons_iff]
    rcases k : pairing b.1.p g.toAffine.toProjective with _ | _ | v
    · exact ⟨fun _ => .inl (k1.mp k), fun _ => rfl⟩
    · exact absurd k k2
    · rw [k] at k1
      rw [or_iff_right (fun h => nomatch k1.mpr h)]
      exact ih _

/-- `VerifyAggregateWithDomain` on as many keys as messages panics exactly if a key or the hash of a message is
infinity, or the signature is infinity or a point of order 13. -/
theorem C64_aggregateDomain_g1pubs (sha : List UInt8 → List UInt8) (d : List UInt8)
    (batch : List (G1Pubs.PublicKey × List UInt8 × E1 × E2))
    (h : ∀ b ∈ batch, b.1.p.Denotes b.2.2.1 ∧ (∃ g, hashG2WithDomain sha b.2.1 d = some g ∧ g.Denotes b.2.2.2) ∧
      r • b.2.2.2 = 0)
    (sig : G1Pubs.Signature) (S : E2) (hs : sig.s.Denotes S) :
    sig.verifyAggregateWithDomain sha (batch.map fun b => b.1) (batch.map fun b => b.2.1) d = none ↔
      13 • S = 0 ∨ ∃ b ∈ batch, b.2.2.1 = 0 ∨ b.2.2.2 = 0 := by
  have hl : ((batch.map fun b => b.1).length != (batch.map fun b => b.2.1).length) = false := by
    rw [List.length_map, List.length_map, bne_self_eq_false]
  rw [G1Pubs.Signature.verifyAggregateWithDomain, hl, if_neg (by decide),
    ← productDomain_none_g1pubs sha d batch h FQ12.one]
  rcases k : pairing G1Projective.one sig.s with _ | _ | v
  · exact ⟨fun _ => .inl (pairing_bad hs (.inl k)), fun _ => rfl⟩
  · refine ⟨fun _ => .inl (pairing_bad hs (.inr k)), fun _ => ?_⟩
    generalize G1Pubs.pairingProductWithDomain sha d (batch.map fun b => b.1) (batch.map fun b => b.2.1) FQ12.one = w
    rcases w with _ | w
    · rfl
    · rfl
  · rw [or_iff_right (pairing_good hs k)]
    generalize G1Pubs.pairingProductWithDomain sha d (batch.map fun b => b.1) (batch.map fun b => b.2.1) FQ12.one = w
    rcases w with _ | w
    · exact ⟨fun _ => rfl, fun _ => rfl⟩
    · exact ⟨nofun, nofun⟩

/-- The hypotheses on hashes and batches are met, with no point at infinity and with one. -/
example : ∃ (sha : List UInt8 → List UInt8) (H : E2), H ≠ 0 ∧
    (∀ b ∈ [((⟨G1Projective.one⟩, [1], g1Gen, H) : G1Pubs.PublicKey × List UInt8 × E1 × E2), (⟨.zero⟩, [2], 0, H)],
      b.1.p.Denotes b.2.2.1 ∧ (∃ g, hashG2 sha b.2.1 = some g ∧ g.Denotes b.2.2.2) ∧ r • b.2.2.2 = 0) := by
  obtain ⟨H, hH⟩ := Cases.case2
  obtain ⟨g, h1, h2, h3, h4⟩ := hH [1]
  obtain ⟨g', h1', h2', _, _⟩ := hH [2]
  exact ⟨Cases.sha2, H, h3, forall_pair ⟨one_g1, ⟨g, h1, h2⟩, h4⟩
    ⟨G1Projective.denotes_iff.mpr .zero, ⟨g', h1', h2'⟩, h4⟩⟩

/-- `Sign` and `PrivToPub` panic exactly on a key with a nil scalar, whatever the message and the hash function. A
deserialized key has one exactly if the number in its 32 bytes is r or more. -/
theorem C64_sign_g1pubs (sha : List UInt8 → List UInt8) (m : List UInt8) (sk : G1Pubs.SecretKey) :
    (G1Pubs.sign sha m sk = none ↔ sk.f = none) ∧ (G1Pubs.privToPub sk = none ↔ sk.f = none) := by
  obtain ⟨h, hh⟩ := hashG2_some sha m
  rw [G1Pubs.sign, G1Pubs.privToPub, hh, Option.bind_some, Option.map_eq_none_iff, Option.map_eq_none_iff]
  exact ⟨.rfl, .rfl⟩

/-! ## C64: g2pubs -/

/-- `Verify` panics exactly if the signature or the hash of the message is infinity, or the key is
infinity or a point of order 13. -/
theorem C64_verify_g2pubs (sha : List UInt8 → List UInt8) (m : List UInt8) (h : G1Affine) (H : E1)
    (hh : hashG1 sha m = some h) (hd : h.Denotes H) (pub : G2Pubs.PublicKey) (P : E2)
    (hp : pub.p.Denotes P) (sig : G2Pubs.Signature) (S : E1) (hs : sig.s.Denotes S) :
    G2Pubs.verify sha m pub sig = none ↔ S = 0 ∨ H = 0 ∨ 13 • P = 0 := by
  rw [G2Pubs.verify, hh, Option.bind_some, C64_compare _ _ _ _ _ _ _ _ hs one_g2
    (G1Projective.denotes_iff.mpr (G1Affine.denotes_iff.mp hd).toProjective) hp, thirteen_of_r r_smul_g2Gen,
    or_iff_right g2Gen_ne_zero]

/-- `VerifyAggregateCommon` panics exactly if the signature or the hash of the message is infinity, or the sum of the
keys is infinity or a point of order 13. -/
theorem C64_common_g2pubs (sha : List UInt8 → List UInt8) (m : List UInt8) (h : G1Affine) (H : E1)
    (hh : hashG1 sha m = some h) (hd : h.Denotes H) (pubs : List G2Pubs.PublicKey) (Ps : List E2)
    (hp : List.Forall₂ (fun p P => p.p.Denotes P) pubs Ps) (sig : G2Pubs.Signature) (S : E1)
    (hs : sig.s.Denotes S) : sig.verifyAggregateCommon sha pubs m = none ↔ S = 0 ∨ H = 0 ∨ 13 • Ps.sum = 0 :=
  C64_verify_g2pubs sha m h H hh hd _ _
    (G2Projective.denotes_iff.mpr (G2Pubs.aggregatePublicKeys_spec (hp.imp fun _ _ => G2Projective.denotes_iff.mp)))
    sig S hs

theorem product_none_g2pubs (sha : List UInt8 → List UInt8) (batch : List (G2Pubs.PublicKey × List UInt8 × E2 × E1))
    (h : ∀ b ∈ batch, b.1.p.Denotes b.2.2.1 ∧ ∃ g, hashG1 sha b.2.1 = some g ∧ g.Denotes b.2.2.2)
    (e : FQ12) : G2Pubs.pairingProduct sha (batch.map fun b => b.1) (batch.map fun b => b.2.1) e = none ↔
      ∃ b ∈ batch, b.2.2.2 = 0 ∨ 13 • b.2.2.1 = 0 := by
  induction batch generalizing e with
  | nil => exact ⟨nofun, nofun⟩
  | cons b l ih =>
    obtain ⟨h1, g, h2, h3⟩ := h b List.mem_cons_self
    have ih := ih fun x hx => h x (List.mem_cons_of_mem _ hx)
    obtain ⟨k1, k2⟩ := C64_pairing g.toProjective b.1.p b.2.2.2 b.2.2.1
      (G1Projective.denotes_iff.mpr (G1Affine.denotes_iff.mp h3).toProjective) h1
    rw [List.map_cons, List.map_cons, G2Pubs.pairingProduct, h2, Option.bind_some, List.exists_mem_cons_iff]
    rcases k : pairing g.toProjective b.1.p with _ | _ | v
    · exact ⟨fun _ => .inl ((k1.mp k).imp_right fun e => by rw [e, nsmul_zero]), fun _ => rfl⟩
    · exact ⟨fun _ => .inl (.inr (k2.mp k).2.2), fun _ => rfl⟩
    · rw [k] at k1 k2
      have hn : ¬ (b.2.2.2 = 0 ∨ 13 • b.2.2.1 = 0) := by
        have k1 := not_or.mp fun h => nomatch k1.mpr h
        exact not_or.mpr ⟨k1.1, fun h => nomatch k2.mpr ⟨k1.1, k1.2, h⟩⟩
      rw [or_iff_right hn]
      exact ih _

/-- `VerifyAggregate` on as many keys as messages panics exactly if the messages pass the checks (pairwise different,
none empty) and the signature or the hash of a message is infinity, or a key is infinity or a point of order 13. -/
theorem C64_aggregate_g2pubs (sha : List UInt8 → List UInt8)
    (batch : List (G2Pubs.PublicKey × List UInt8 × E2 × E1))
    (h : ∀ b ∈ batch, b.1.p.Denotes b.2.2.1 ∧ ∃ g, hashG1 sha b.2.1 = some g ∧ g.Denotes b.2.2.2)
    (sig : G2Pubs.Signature) (S : E1) (hs : sig.s.Denotes S) :
    sig.verifyAggregate sha (batch.map fun b => b.1) (batch.map fun b => b.2.1) = none ↔
      (batch.map fun b => b.2.1).Nodup ∧ [] ∉ (batch.map fun b => b.2.1) ∧
      (S = 0 ∨ ∃ b ∈ batch, b.2.2.2 = 0 ∨ 13 • b.2.2.1 = 0) := by
  have hl : ((batch.map fun b => b.1).length != (batch.map fun b => b.2.1).length) = false := by
    rw [List.length_map, List.length_map, bne_self_eq_false]
  rw [G2Pubs.Signature.verifyAggregate, hl, if_neg (by decide), ← and_assoc, ← noRepeat_sort]
  cases noRepeat [] (sortByteArrays (batch.map fun b => b.2.1))
  · exact ⟨nofun, fun k => absurd k.1 (by decide)⟩
  · rw [if_neg (by decide), eq_self_iff_true, true_and, ← product_none_g2pubs sha batch h FQ12.one]
    obtain ⟨k1, k2⟩ := C64_pairing_subgroup _ _ _ _ hs one_g2 r_smul_g2Gen
    rw [or_iff_left g2Gen_ne_zero] at k1
    rcases k : pairing sig.s G2Projective.one with _ | _ | v
    · exact ⟨fun _ => .inl (k1.mp k), fun _ => rfl⟩
    · exact absurd k k2
    · rw [k] at k1
      rw [or_iff_right (fun h => nomatch k1.mpr h)]
      generalize G2Pubs.pairingProduct sha (batch.map fun b => b.1) (batch.map fun b => b.2.1) FQ12.one = w
      rcases w with _ | w
      · exact ⟨fun _ => rfl, fun _ => rfl⟩
      · exact ⟨nofun, nofun⟩

/-- The hypotheses are met, with no point at infinity and with one. -/
example : ∃ (sha : List UInt8 → List UInt8) (H : E1), H ≠ 0 ∧
    (∀ b ∈ [((⟨G2Projective.one⟩, [1], g2Gen, H) : G2Pubs.PublicKey × List UInt8 × E2 × E1), (⟨.zero⟩, [2], 0, H)],
      b.1.p.Denotes b.2.2.1 ∧ ∃ g, hashG1 sha b.2.1 = some g ∧ g.Denotes b.2.2.2) := by
  obtain ⟨H, hH⟩ := Cases.case1
  obtain ⟨g, h1, h2, h3, h4⟩ := hH [1]
  obtain ⟨g', h1', h2', _, _⟩ := hH [2]
  exact ⟨Cases.sha1, H, h3, forall_pair ⟨one_g2, g, h1, h2⟩
    ⟨G2Projective.denotes_iff.mpr .zero, g', h1', h2'⟩⟩

/-- `Sign` and `PrivToPub` panic exactly on a key with a nil scalar. -/
theorem C64_sign_g2pubs (sha : List UInt8 → List UInt8) (m : List UInt8) (sk : G2Pubs.SecretKey) :
    (G2Pubs.sign sha m sk = none ↔ sk.f = none) ∧ (G2Pubs.privToPub sk = none ↔ sk.f = none) := by
  obtain ⟨h, hh⟩ := hashG1_some sha m
  rw [G2Pubs.sign, G2Pubs.privToPub, hh, Option.bind_some, Option.map_eq_none_iff, Option.map_eq_none_iff]
  exact ⟨.rfl, .rfl⟩

end Bls.Props
