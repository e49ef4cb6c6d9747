import Verif.Props.Encoding
import Verif.Props.Hash
import Verif.Proof.G2Pubs
import Verif.Proof.Lists
import Verif.Proof.HashCases
/-
The signature scheme of g2pubs (keys in G2, signatures in G1). `Holds`, `HashesTo` and `HashesToIn` are in
Verif/Spec/Keys.lean. `none` is a panic, for the deserializers of points an error.
-/
set_option exponentiation.threshold 1000
namespace Bls.Props

/-! ## C13: secret keys on the wire -/

/-- Serializing and deserializing a key gives the same key; the bytes are the big-endian scalar. -/
theorem C13_roundtrip_g2pubs (sk : G2Pubs.SecretKey) (k : ℕ) (h : sk.Holds k) :
    ∃ b, sk.serialize = some b ∧ b.length = 32 ∧ beNat b = k ∧ G2Pubs.deserializeSecretKey b = sk := by
  obtain ⟨f⟩ := sk
  obtain ⟨f, rfl, hv, rfl⟩ := h
  have hr := FR.rep_int hv
  refine ⟨_, rfl, FRRepr.bytes_length _, FRRepr.beNat_bytes _, ?_⟩
  obtain ⟨a, h1, h2⟩ := FR.ofRepr?_lt (o := f.toRepr) hr.int_lt
  rw [G2Pubs.deserializeSecretKey, FR.bytes, FRRepr.fromBytes_bytes, h1, hr.inj h2]

/-- A 32-byte string gives a usable key exactly when it is below r as a big-endian number, namely the key with that
scalar, and `Serialize` gives the string back. -/
theorem C13_deserialize_g2pubs (b : List UInt8) (hl : b.length = 32) :
    ((∃ k, (G2Pubs.deserializeSecretKey b).Holds k) ↔ beNat b < r) ∧
    (beNat b < r → (G2Pubs.deserializeSecretKey b).Holds (beNat b) ∧
      (G2Pubs.deserializeSecretKey b).serialize = some b) ∧
    (r ≤ beNat b → (G2Pubs.deserializeSecretKey b).f = none) := by
  have e := FRRepr.fromBytes_toNat hl
  have key : beNat b < r → (G2Pubs.deserializeSecretKey b).Holds (beNat b) ∧
      (G2Pubs.deserializeSecretKey b).serialize = some b := by
    intro h
    obtain ⟨a, h1, h2⟩ := FR.ofRepr?_lt (o := FRRepr.fromBytes b) (by rw [e]; exact h)
    have h3 : a.int = beNat b := by rw [h2.int_eq, e, Nat.mod_eq_of_lt h]
    refine ⟨⟨a, h1, h2.isValid, h3⟩, ?_⟩
    rw [G2Pubs.deserializeSecretKey, h1, G2Pubs.SecretKey.serialize, Option.map_some, FR.bytes]
    congr 1
    have h4 : a.toRepr = FRRepr.fromBytes b := FRRepr.toNat_inj (by rw [e]; exact h3)
    rw [h4, FRRepr.bytes_fromBytes hl]
  have key2 : r ≤ beNat b → (G2Pubs.deserializeSecretKey b).f = none := fun h =>
    FR.ofRepr?_of_le (by rw [e]; exact h)
  refine ⟨⟨fun ⟨k, f, hf, _⟩ => ?_, fun h => ⟨_, (key h).1⟩⟩, key, key2⟩
  by_contra h
  rw [key2 (not_lt.mp h)] at hf
  cases hf

/-- `KeyFromFQRepr` gives the key with that scalar, or a key with a nil field. -/
theorem C13_keyFromFQRepr_g2pubs (i : FRRepr) :
    (i.toNat < r → (G2Pubs.keyFromFQRepr i).Holds i.toNat) ∧
    (r ≤ i.toNat → (G2Pubs.keyFromFQRepr i).f = none) := by
  refine ⟨fun h => ?_, fun h => FR.ofRepr?_of_le h⟩
  obtain ⟨a, h1, h2⟩ := FR.ofRepr?_lt h
  exact ⟨a, h1, h2.isValid, by rw [h2.int_eq, Nat.mod_eq_of_lt h]⟩

/-- A key with a nil field is not usable: signing, deriving the public key and serializing panic. -/
theorem C13_nil_g2pubs (sha : List UInt8 → List UInt8) (m : List UInt8) (sk : G2Pubs.SecretKey) (h : sk.f = none) :
    sk.serialize = none ∧ G2Pubs.privToPub sk = none ∧ G2Pubs.sign sha m sk = none := by
  refine ⟨by rw [G2Pubs.SecretKey.serialize, h]; rfl, by rw [G2Pubs.privToPub, h]; rfl, ?_⟩
  rw [G2Pubs.sign, h]
  cases hashG1 sha m <;> rfl

example : ∃ k, k ≠ 0 ∧ (⟨some FR.one⟩ : G2Pubs.SecretKey).Holds k :=
  ⟨FR.one.int, by rw [FR.one_rep.int]; decide +kernel, FR.one, rfl, FR.one_rep.isValid, rfl⟩

/-! ## C50: derived keys -/

/-- `DeriveSecretKey` always gives a usable key, whose scalar is the hash output modulo r. -/
theorem C50_deriveSecretKey_g2pubs (sha : List UInt8 → List UInt8) (seed : List UInt8) :
    ∃ sk, G2Pubs.deriveSecretKey sha seed = some sk ∧ sk.Holds (hashToField sha seed 0 1 % r) := by
  obtain ⟨f, h1, h2⟩ := hashSecretKey_spec sha seed
  exact ⟨⟨some f⟩, by rw [G2Pubs.deriveSecretKey, h1]; rfl, f, rfl, h2.isValid, h2.int_eq⟩

/-! ## C23: equality of public keys -/

/-- `PublicKey.Equals` decides equality of the points. -/
theorem C23_publicKey_g2pubs (p p' : G2Pubs.PublicKey) (P P' : E2) (h : p.p.Denotes P) (h' : p'.p.Denotes P') :
    p.equals p' = true ↔ P = P' :=
  (G2Projective.denotes_iff.mp h).equal (G2Projective.denotes_iff.mp h')

/-! ## C56: wrapping and unwrapping -/

/-- Wrapping a point gives a key or signature with that point, which `GetPoint` and `Copy` keep; `GetFRElement` gives
the scalar. -/
theorem C56_g2pubs (a : G2Affine) (P : E2) (ha : a.Denotes P) (b : G1Affine) (S : E1) (hb : b.Denotes S) :
    (G2Pubs.newPublicKeyFromG2 a).p.Denotes P ∧ (G2Pubs.newPublicKeyFromG2 a).getPoint.Denotes P ∧
    (G2Pubs.newPublicKeyFromG2 a).copy.p.Denotes P ∧ (G2Pubs.newPublicKeyFromG2 a).serialize = a.compress ∧
    (G2Pubs.newSignatureFromG1 b).s.Denotes S ∧ (G2Pubs.newSignatureFromG1 b).getPoint.Denotes S ∧
    (G2Pubs.newSignatureFromG1 b).copy.s.Denotes S ∧ (G2Pubs.newSignatureFromG1 b).serialize = b.compress := by
  have h1 := (G2Affine.denotes_iff.mp ha).toProjective
  have h2 := (G1Affine.denotes_iff.mp hb).toProjective
  have h3 := G2Projective.denotes_iff.mpr h1
  have h4 := G1Projective.denotes_iff.mpr h2
  refine ⟨h3, h3, h3, ?_, h4, h4, h4, ?_⟩
  · exact congrArg G2Affine.compress (h1.toAffine.inj (G2Affine.denotes_iff.mp ha))
  · exact congrArg G1Affine.compress (h2.toAffine.inj (G1Affine.denotes_iff.mp hb))

/-- Unwrapping any key or signature: the point does not change, nor does what the copy serializes to. -/
theorem C56_unwrap_g2pubs (p : G2Pubs.PublicKey) (P : E2) (hp : p.p.Denotes P) (s : G2Pubs.Signature) (S : E1)
    (hs : s.s.Denotes S) (sk : G2Pubs.SecretKey) (k : ℕ) (hk : sk.Holds k) :
    p.getPoint.Denotes P ∧ p.copy.p.Denotes P ∧ p.copy.serialize = p.serialize ∧
    s.getPoint.Denotes S ∧ s.copy.s.Denotes S ∧ s.copy.serialize = s.serialize ∧
    ∃ f, sk.getFRElement = some f ∧ f.isValid ∧ f.int = k := ⟨hp, hp, rfl, hs, hs, rfl, hk⟩

example : G2Affine.one.Denotes g2Gen ∧ g2Gen ≠ 0 := ⟨G2Affine.denotes_iff.mpr G2Affine.one_rep, g2Gen_ne_zero⟩

/-! ## C25, C26: public keys and signatures on the wire -/

/-- Serializing and deserializing a public key of the subgroup gives a key that denotes the same point. -/
theorem C25_publicKey_g2pubs (p : G2Pubs.PublicKey) (P : E2) (h : p.p.Denotes P) (hr : r • P = 0) :
    p.serialize.length = 96 ∧ ∃ p', G2Pubs.deserializePublicKey p.serialize = some p' ∧ p'.p.Denotes P := by
  have ha := (G2Projective.denotes_iff.mp h).toAffine
  refine ⟨ha.compress_length, _, ?_, G2Projective.denotes_iff.mpr ha.toProjective⟩
  rw [G2Pubs.deserializePublicKey, G2Pubs.PublicKey.serialize, ha.decompress_compress hr]; rfl

/-- Serializing and deserializing a signature of the subgroup gives a signature that denotes the same point. -/
theorem C25_signature_g2pubs (s : G2Pubs.Signature) (S : E1) (h : s.s.Denotes S) (hr : r • S = 0) :
    s.serialize.length = 48 ∧ ∃ s', G2Pubs.deserializeSignature s.serialize = some s' ∧ s'.s.Denotes S := by
  have ha := (G1Projective.denotes_iff.mp h).toAffine
  refine ⟨ha.compress_length, _, ?_, G1Projective.denotes_iff.mpr ha.toProjective⟩
  rw [G2Pubs.deserializeSignature, G2Pubs.Signature.serialize, ha.decompress_compress hr]; rfl

/-- Every accepted public key is a multiple of the generator. -/
theorem C26_publicKey_g2pubs (b : List UInt8) (hl : b.length = 96) (p : G2Pubs.PublicKey)
    (h : G2Pubs.deserializePublicKey b = some p) : ∃ k : ℕ, k < r ∧ p.p.Denotes (k • g2Gen) := by
  obtain ⟨a, ha, rfl⟩ := Option.map_eq_some_iff.mp h
  obtain ⟨P, hP, hr⟩ := (C26_g2 b hl a).2 ha
  obtain ⟨k, rfl⟩ := E2.torsion hr
  refine ⟨k % r, Nat.mod_lt _ r_prime.pos, ?_⟩
  rw [← nsmul_mod_r r_smul_g2Gen]
  exact G2Projective.denotes_iff.mpr (G2Affine.denotes_iff.mp hP).toProjective

/-- Every accepted signature is a point of the subgroup of order r. -/
theorem C26_signature_g2pubs (b : List UInt8) (hl : b.length = 48) (s : G2Pubs.Signature)
    (h : G2Pubs.deserializeSignature b = some s) : ∃ S : E1, s.s.Denotes S ∧ r • S = 0 := by
  obtain ⟨a, ha, rfl⟩ := Option.map_eq_some_iff.mp h
  obtain ⟨S, hS, hr⟩ := (C26_g1 b hl a).2 ha
  exact ⟨S, G1Projective.denotes_iff.mpr (G1Affine.denotes_iff.mp hS).toProjective, hr⟩

/-! ## C29: aggregation -/

/-- The aggregate of signatures denotes the sum of the points. -/
theorem C29_signatures_g2pubs (l : List G2Pubs.Signature) (Ss : List E1)
    (h : List.Forall₂ (fun s S => s.s.Denotes S) l Ss) : (G2Pubs.aggregateSignatures l).s.Denotes Ss.sum :=
  G1Projective.denotes_iff.mpr
    (G2Pubs.aggregateSignatures_spec (h.imp fun _ _ h => G1Projective.denotes_iff.mp h))

/-- The aggregate of public keys denotes the sum of the points. -/
theorem C29_publicKeys_g2pubs (l : List G2Pubs.PublicKey) (Ps : List E2)
    (h : List.Forall₂ (fun p P => p.p.Denotes P) l Ps) : (G2Pubs.aggregatePublicKeys l).p.Denotes Ps.sum :=
  G2Projective.denotes_iff.mpr
    (G2Pubs.aggregatePublicKeys_spec (h.imp fun _ _ h => G2Projective.denotes_iff.mp h))

/-- The serialized aggregate does not depend on the order. -/
theorem C29_order_g2pubs (l l' : List G2Pubs.Signature) (hp : l.Perm l') (h : ∀ s ∈ l, ∃ S : E1, s.s.Denotes S)
    (p p' : List G2Pubs.PublicKey) (hp' : p.Perm p') (h' : ∀ k ∈ p, ∃ P : E2, k.p.Denotes P) :
    (G2Pubs.aggregateSignatures l).serialize = (G2Pubs.aggregateSignatures l').serialize ∧
    (G2Pubs.aggregatePublicKeys p).serialize = (G2Pubs.aggregatePublicKeys p').serialize ∧
    (G2Pubs.aggregatePublicKeys p).equals (G2Pubs.aggregatePublicKeys p') = true := by
  obtain ⟨Ss, hS⟩ := forall₂_of_forall h
  obtain ⟨Ss', hS', hs⟩ := forall₂_perm hp hS
  obtain ⟨Ps, hP⟩ := forall₂_of_forall h'
  obtain ⟨Ps', hP', hs'⟩ := forall₂_perm hp' hP
  have a := G1Projective.denotes_iff.mp (C29_signatures_g2pubs l Ss hS)
  have a' := G1Projective.denotes_iff.mp (C29_signatures_g2pubs l' Ss' hS')
  have b := G2Projective.denotes_iff.mp (C29_publicKeys_g2pubs p Ps hP)
  have b' := G2Projective.denotes_iff.mp (C29_publicKeys_g2pubs p' Ps' hP')
  rw [← hs.sum_eq] at a'
  rw [← hs'.sum_eq] at b'
  refine ⟨?_, ?_, (b.equal b').mpr rfl⟩
  · rw [G2Pubs.Signature.serialize, G2Pubs.Signature.serialize, a.toAffine.inj a'.toAffine]
  · rw [G2Pubs.PublicKey.serialize, G2Pubs.PublicKey.serialize, b.toAffine.inj b'.toAffine]

/-- Grouping does not matter: aggregating two aggregates is aggregating all. The empty aggregate is infinity, and so
is the fresh one that `Aggregate` is called on; calling it for each element is aggregating the list. -/
theorem C29_grouping_g2pubs (l l' : List G2Pubs.Signature) (h : ∀ s ∈ l ++ l', ∃ S : E1, s.s.Denotes S)
    (p p' : List G2Pubs.PublicKey) (h' : ∀ k ∈ p ++ p', ∃ P : E2, k.p.Denotes P) :
    ((G2Pubs.aggregateSignatures l).aggregate (G2Pubs.aggregateSignatures l')).serialize =
      (G2Pubs.aggregateSignatures (l ++ l')).serialize ∧
    ((G2Pubs.aggregatePublicKeys p).aggregate (G2Pubs.aggregatePublicKeys p')).serialize =
      (G2Pubs.aggregatePublicKeys (p ++ p')).serialize ∧
    G2Pubs.newAggregateSignature.s.Denotes 0 ∧ G2Pubs.newAggregatePubkey.p.Denotes 0 ∧
    G2Pubs.aggregateSignatures [] = G2Pubs.newAggregateSignature ∧
    G2Pubs.aggregatePublicKeys [] = G2Pubs.newAggregatePubkey ∧
    l.foldl G2Pubs.Signature.aggregate G2Pubs.newAggregateSignature = G2Pubs.aggregateSignatures l ∧
    p.foldl G2Pubs.PublicKey.aggregate G2Pubs.newAggregatePubkey = G2Pubs.aggregatePublicKeys p := by
  obtain ⟨Ss, hS⟩ := forall₂_of_forall fun s hs => h s (List.mem_append_left _ hs)
  obtain ⟨Ss', hS'⟩ := forall₂_of_forall fun s hs => h s (List.mem_append_right _ hs)
  obtain ⟨Ps, hP⟩ := forall₂_of_forall fun s hs => h' s (List.mem_append_left _ hs)
  obtain ⟨Ps', hP'⟩ := forall₂_of_forall fun s hs => h' s (List.mem_append_right _ hs)
  have a := G1Projective.denotes_iff.mp (C29_signatures_g2pubs l Ss hS)
  have a' := G1Projective.denotes_iff.mp (C29_signatures_g2pubs l' Ss' hS')
  have a'' := G1Projective.denotes_iff.mp (C29_signatures_g2pubs _ _ (List.rel_append hS hS'))
  have b := G2Projective.denotes_iff.mp (C29_publicKeys_g2pubs p Ps hP)
  have b' := G2Projective.denotes_iff.mp (C29_publicKeys_g2pubs p' Ps' hP')
  have b'' := G2Projective.denotes_iff.mp (C29_publicKeys_g2pubs _ _ (List.rel_append hP hP'))
  rw [List.sum_append] at a'' b''
  refine ⟨?_, ?_, G1Projective.denotes_iff.mpr .zero, G2Projective.denotes_iff.mpr .zero, rfl, rfl, rfl, rfl⟩
  · rw [G2Pubs.Signature.serialize, G2Pubs.Signature.serialize, G2Pubs.Signature.aggregate,
      (a.add a').toAffine.inj a''.toAffine]
  · rw [G2Pubs.PublicKey.serialize, G2Pubs.PublicKey.serialize, G2Pubs.PublicKey.aggregate,
      (b.add b').toAffine.inj b''.toAffine]

example : ∃ (l : List G2Pubs.Signature) (Ss : List E1), l.length = 3 ∧
    List.Forall₂ (fun s S => s.s.Denotes S) l Ss ∧ Ss.sum ≠ 0 := by
  have h := G1Projective.denotes_iff.mpr G1Affine.one_rep.toProjective
  refine ⟨[⟨G1Affine.one.toProjective⟩, ⟨G1Affine.one.toProjective⟩, ⟨G1Affine.one.toProjective⟩],
    [g1Gen, g1Gen, g1Gen], rfl, .cons h (.cons h (.cons h .nil)), ?_⟩
  have e : [g1Gen, g1Gen, g1Gen].sum = 3 • g1Gen := by simp [succ_nsmul, add_assoc]
  rw [e]
  exact G1Pubs.nsmul_ne_of_lt g1Gen_ne_zero r_smul_g1Gen (by norm_num) (by rw [r_eq]; decide +kernel)

/-! ## C36: verification is exact -/

/-- For the public key `k·G` and any signature in the subgroup, `Verify` is true exactly for the point that `Sign`
computes from the secret scalar; it only fails to return (a panic) when the signature is infinity. -/
theorem C36_exact_g2pubs (sha : List UInt8 → List UInt8) (m : List UInt8) (H : E1) (hm : G2Pubs.HashesTo sha m H)
    (sk : G2Pubs.SecretKey) (k : ℕ) (hk : sk.Holds k) (h0 : k ≠ 0) (pub : G2Pubs.PublicKey)
    (hp : pub.p.Denotes (k • g2Gen)) (sig : G2Pubs.Signature) (S : E1) (hs : sig.s.Denotes S) (hr : r • S = 0) :
    (∃ sig', G2Pubs.sign sha m sk = some sig' ∧ sig'.s.Denotes (k • H)) ∧
    (G2Pubs.verify sha m pub sig = some true ↔ S = k • H) ∧ (S ≠ 0 → G2Pubs.verify sha m pub sig ≠ none) := by
  obtain ⟨s, h1, h2⟩ := hk.sign hm
  have hkg := G1Pubs.nsmul_ne_of_lt g2Gen_ne_zero r_smul_g2Gen h0 hk.lt
  exact ⟨⟨s, h1, G1Projective.denotes_iff.mpr h2⟩,
    G2Pubs.verify_spec hm (G2Projective.denotes_iff.mp hp) hkg (G1Projective.denotes_iff.mp hs) hr⟩

/-- The same for anything read from the wire: an accepted public key other than infinity has one scalar `k`, and
an accepted signature other than infinity verifies exactly when it is the point `k·H`. -/
theorem C36_wire_g2pubs (sha : List UInt8 → List UInt8) (m : List UInt8) (H : E1) (hm : G2Pubs.HashesTo sha m H)
    (bp bs : List UInt8) (hbp : bp.length = 96) (hbs : bs.length = 48) (pub : G2Pubs.PublicKey)
    (sig : G2Pubs.Signature) (hp : G2Pubs.deserializePublicKey bp = some pub)
    (hs : G2Pubs.deserializeSignature bs = some sig) (np : ¬ pub.p.Denotes 0) (ns : ¬ sig.s.Denotes 0) :
    ∃ k c, 0 < k ∧ k < r ∧ pub.p.Denotes (k • g2Gen) ∧ G2Pubs.verify sha m pub sig = some c ∧
      (c = true ↔ sig.s.Denotes (k • H)) := by
  obtain ⟨k, hk, hd⟩ := C26_publicKey_g2pubs bp hbp pub hp
  obtain ⟨S, hS, hr⟩ := C26_signature_g2pubs bs hbs sig hs
  have hk0 : k ≠ 0 := by
    rintro rfl
    rw [zero_nsmul] at hd
    exact np hd
  have hS0 : S ≠ 0 := by
    rintro rfl
    exact ns hS
  have hkg := G1Pubs.nsmul_ne_of_lt g2Gen_ne_zero r_smul_g2Gen hk0 hk
  obtain ⟨h1, h2⟩ := G2Pubs.verify_spec hm (G2Projective.denotes_iff.mp hd) hkg (G1Projective.denotes_iff.mp hS) hr
  obtain ⟨c, hc⟩ := Option.ne_none_iff_exists'.mp (h2 hS0)
  refine ⟨k, c, Nat.pos_of_ne_zero hk0, hk, hd, hc, ?_⟩
  rw [hc, Option.some_inj] at h1
  rw [h1]
  have hS := G1Projective.denotes_iff.mp hS
  exact ⟨fun e => e ▸ G1Projective.denotes_iff.mpr hS,
    fun e => (G1Projective.Rep.equal hS (G1Projective.denotes_iff.mp e)).mp ((G1Projective.Rep.equal hS hS).mpr rfl)⟩

example : ∃ bp bs pub sig, bp.length = 96 ∧ bs.length = 48 ∧ G2Pubs.deserializePublicKey bp = some pub ∧
    G2Pubs.deserializeSignature bs = some sig ∧ ¬ pub.p.Denotes 0 ∧ ¬ sig.s.Denotes 0 := by
  have h1 := G2Projective.denotes_iff.mpr G2Affine.one_rep.toProjective
  have h2 := G1Projective.denotes_iff.mpr G1Affine.one_rep.toProjective
  obtain ⟨l1, p, e1, d1⟩ := C25_publicKey_g2pubs ⟨_⟩ _ h1 r_smul_g2Gen
  obtain ⟨l2, s, e2, d2⟩ := C25_signature_g2pubs ⟨_⟩ _ h2 r_smul_g1Gen
  exact ⟨_, _, p, s, l1, l2, e1, e2,
    fun h => g2Gen_ne_zero ((G2Projective.denotes_iff.mp d1).fn (G2Projective.denotes_iff.mp h)),
    fun h => g1Gen_ne_zero ((G1Projective.denotes_iff.mp d2).fn (G1Projective.denotes_iff.mp h))⟩

/-! ## C35: signatures verify -/

/-- `Verify(m, PrivToPub(sk), Sign(m, sk))` is true for every non-zero key and every message with a hash point. -/
theorem C35_complete_g2pubs (sha : List UInt8 → List UInt8) (m : List UInt8) (H : E1) (hm : G2Pubs.HashesTo sha m H)
    (sk : G2Pubs.SecretKey) (k : ℕ) (hk : sk.Holds k) (h0 : k ≠ 0) :
    ∃ pub sig, G2Pubs.privToPub sk = some pub ∧ G2Pubs.sign sha m sk = some sig ∧
      G2Pubs.verify sha m pub sig = some true := by
  obtain ⟨pub, h1, h2⟩ := hk.toPub
  obtain ⟨sig, h3, h4⟩ := hk.sign hm
  obtain ⟨_, _, _, H0, hH⟩ := id hm
  have hkg := G1Pubs.nsmul_ne_of_lt g2Gen_ne_zero r_smul_g2Gen h0 hk.lt
  exact ⟨pub, sig, h1, h3, (G2Pubs.verify_spec hm h2 hkg h4 (G1Pubs.torsion_nsmul hH k)).1.mpr rfl⟩

/-- The same from the description of `HashG1`: two mapped points with different x-coordinates, not mapped to infinity. -/
theorem C35_hashG1 (sha : List UInt8 → List UInt8) (m : List UInt8) (P Q : E1'.Point) (R : E1)
    (hP : Swu1 (hashToField sha (1 :: m) 0 1 : Fq) P) (hQ : Swu1 (hashToField sha (1 :: m) 1 1 : Fq) Q)
    (hne : P ≠ Q) (hne' : P ≠ -Q) (hR : iso11Map.Maps (P + Q) R) (hH : (blsU + 1) • R ≠ 0) :
    (∃ H, G2Pubs.HashesTo sha m H) ∧ ∀ (sk : G2Pubs.SecretKey) (k : ℕ), sk.Holds k → k ≠ 0 →
      ∃ pub sig, G2Pubs.privToPub sk = some pub ∧ G2Pubs.sign sha m sk = some sig ∧
        G2Pubs.verify sha m pub sig = some true := by
  obtain ⟨g, h2, h3, h5⟩ := C40_hashG1 sha m P Q R hP hQ hne hne' hR
  have hm : G2Pubs.HashesTo sha m _ := ⟨g, h2, h3, hH, h5⟩
  exact ⟨⟨_, hm⟩, fun sk k hk h0 => C35_complete_g2pubs sha m _ hm sk k hk h0⟩

/-- There are messages and a hash function as in the theorems above. -/
example : ∃ sha H, ∀ m, G2Pubs.HashesTo sha m H := by
  obtain ⟨H, hH⟩ := Cases.case1
  exact ⟨_, H, hH⟩

example (m : List UInt8) : ∃ (P Q : E1'.Point) (R : E1), Swu1 (hashToField Cases.sha1 (1 :: m) 0 1 : Fq) P ∧
    Swu1 (hashToField Cases.sha1 (1 :: m) 1 1 : Fq) Q ∧ P ≠ Q ∧ P ≠ -Q ∧ iso11Map.Maps (P + Q) R ∧
    (blsU + 1) • R ≠ 0 := by
  obtain ⟨P, Q, R, h1, h2, h3, h4, h5, h6⟩ := Cases.case1_full m
  exact ⟨P, Q, R, h1, h2, h3, h4, h5, Cases.aMul_ne h6⟩

/-! ## C34: verification panics on infinity -/

/-- `Verify` panics if the signature or the public key is infinity, although both are accepted by the deserializers. -/
theorem C34_verify_g2pubs_false (sha : List UInt8 → List UInt8) (m : List UInt8) (H : E1)
    (hm : G2Pubs.HashesTo sha m H) :
    (∃ b sig, b.length = 48 ∧ G2Pubs.deserializeSignature b = some sig ∧
      ∀ (pub : G2Pubs.PublicKey) (P : E2), pub.p.Denotes P → G2Pubs.verify sha m pub sig = none) ∧
    ∃ b pub, b.length = 96 ∧ G2Pubs.deserializePublicKey b = some pub ∧
      ∀ (sig : G2Pubs.Signature) (S : E1), sig.s.Denotes S → G2Pubs.verify sha m pub sig = none := by
  obtain ⟨h, hh, hd, _⟩ := hm
  have hd := (G1Affine.denotes_iff.mp hd).toProjective
  obtain ⟨l1, s, h1, h2⟩ := C25_signature_g2pubs ⟨G1Projective.zero⟩ 0 (G1Projective.denotes_iff.mpr .zero) (nsmul_zero _)
  obtain ⟨l2, p, h3, h4⟩ := C25_publicKey_g2pubs ⟨G2Projective.zero⟩ 0 (G2Projective.denotes_iff.mpr .zero) (nsmul_zero _)
  have h2 := G1Projective.denotes_iff.mp h2
  have h4 := G2Projective.denotes_iff.mp h4
  refine ⟨⟨_, s, l1, h1, fun pub P hp => ?_⟩, _, p, l2, h3, fun sig S hs => ?_⟩
  · have hp := G2Projective.denotes_iff.mp hp
    rw [G2Pubs.verify, hh, Option.bind_some]
    exact compareTwoPairings_none h2 G2Affine.one_rep.toProjective hd hp (Or.inl rfl)
  · have hs := G1Projective.denotes_iff.mp hs
    rw [G2Pubs.verify, hh, Option.bind_some]
    exact compareTwoPairings_none hs G2Affine.one_rep.toProjective hd h4 (Or.inr (Or.inr (Or.inr rfl)))

/-! ## C37: one message, many signers -/

/-- `VerifyAggregateCommon` accepts exactly the sum of the signatures of the keys, in whatever order they are listed,
if the sum of the secret scalars is not 0 modulo r. -/
theorem C37_common_g2pubs (sha : List UInt8 → List UInt8) (m : List UInt8) (H : E1) (hm : G2Pubs.HashesTo sha m H)
    (pubs : List G2Pubs.PublicKey) (ks : List ℕ) (hp : List.Forall₂ (fun p k => p.p.Denotes (k • g2Gen)) pubs ks)
    (h0 : ¬ r ∣ ks.sum) (sig : G2Pubs.Signature) (S : E1) (hs : sig.s.Denotes S) (hr : r • S = 0) :
    (sig.verifyAggregateCommon sha pubs m = some true ↔ S = (ks.map fun k => k • H).sum) ∧
    sig.verifyAggregateCommon sha pubs m = G2Pubs.verify sha m (G2Pubs.aggregatePublicKeys pubs) sig := by
  have ha := G2Pubs.aggregatePublicKeys_spec (forall₂_map (fun _ _ h => G2Projective.denotes_iff.mp h) hp)
  rw [← sum_nsmul_eq] at ha
  have hkg : ks.sum • g2Gen ≠ 0 := fun e => h0 (by
    have := addOrderOf_dvd_of_nsmul_eq_zero e
    rwa [addOrderOf_g2Gen] at this)
  rw [← sum_nsmul_eq]
  exact ⟨(G2Pubs.verify_spec hm ha hkg (G1Projective.denotes_iff.mp hs) hr).1, rfl⟩

/-- Aggregating the signatures of the secret keys over one message, and verifying with the public keys, both in any
order. -/
theorem C37_complete_g2pubs (sha : List UInt8 → List UInt8) (m : List UInt8) (H : E1) (hm : G2Pubs.HashesTo sha m H)
    (sks : List G2Pubs.SecretKey) (ks : List ℕ) (hk : List.Forall₂ G2Pubs.SecretKey.Holds sks ks)
    (h0 : ¬ r ∣ ks.sum) :
    ∃ sigs pubs, sks.map (G2Pubs.sign sha m) = sigs.map some ∧ sks.map G2Pubs.privToPub = pubs.map some ∧
      ∀ sigs' pubs', sigs'.Perm sigs → pubs'.Perm pubs →
        (G2Pubs.aggregateSignatures sigs').verifyAggregateCommon sha pubs' m = some true := by
  obtain ⟨_, _, _, H0, hH⟩ := id hm
  have key : ∃ sigs pubs, sks.map (G2Pubs.sign sha m) = sigs.map some ∧ sks.map G2Pubs.privToPub = pubs.map some ∧
      List.Forall₂ (fun s S => s.s.Denotes S) sigs (ks.map fun k => k • H) ∧
      List.Forall₂ (fun p k => p.p.Denotes (k • g2Gen)) pubs ks := by
    clear h0
    induction hk with
    | nil => exact ⟨[], [], rfl, rfl, .nil, .nil⟩
    | cons h _ ih =>
      obtain ⟨ss, ps, e1, e2, f1, f2⟩ := ih
      obtain ⟨s, a1, a2⟩ := h.sign hm
      obtain ⟨p, b1, b2⟩ := h.toPub
      refine ⟨s :: ss, p :: ps, ?_, ?_, .cons (G1Projective.denotes_iff.mpr a2) f1,
        .cons (G2Projective.denotes_iff.mpr b2) f2⟩
      · rw [List.map_cons, List.map_cons, a1, e1]
      · rw [List.map_cons, List.map_cons, b1, e2]
  obtain ⟨sigs, pubs, e1, e2, f1, f2⟩ := key
  refine ⟨sigs, pubs, e1, e2, fun sigs' pubs' hs hp => ?_⟩
  obtain ⟨Ss', w1, w2⟩ := forall₂_perm hs.symm f1
  obtain ⟨ks', g3, g4⟩ := forall₂_perm hp.symm f2
  have hsum := C29_signatures_g2pubs sigs' Ss' w1
  rw [← w2.sum_eq] at hsum
  have e := g4.sum_eq
  refine (C37_common_g2pubs sha m H hm pubs' ks' g3 (by rwa [← e]) _ _ hsum ?_).1.mpr (g4.map fun k => k • H).sum_eq
  rw [← sum_nsmul_eq]
  exact G1Pubs.torsion_nsmul hH _

example : ∃ (sks : List G2Pubs.SecretKey) (ks : List ℕ), sks.length = 3 ∧
    List.Forall₂ G2Pubs.SecretKey.Holds sks ks ∧ ¬ r ∣ ks.sum := by
  have h1 : (⟨some FR.one⟩ : G2Pubs.SecretKey).Holds 1 :=
    ⟨FR.one, rfl, FR.one_rep.isValid, by rw [FR.one_rep.int]; decide +kernel⟩
  have h2 : (⟨some FR.one.double⟩ : G2Pubs.SecretKey).Holds 2 :=
    ⟨_, rfl, FR.one_rep.double.isValid, by decide +kernel⟩
  exact ⟨_, [1, 2, 2], rfl, .cons h1 (.cons h2 (.cons h2 .nil)), by rw [r_eq]; decide +kernel⟩

/-! ## C38: the guards of VerifyAggregate -/

/-- `VerifyAggregate` is false if the numbers differ or a message is repeated, whatever the other arguments are. -/
theorem C38_guards_g2pubs (sha : List UInt8 → List UInt8) (sig : G2Pubs.Signature) (pubs : List G2Pubs.PublicKey)
    (msgs : List (List UInt8)) (h : pubs.length ≠ msgs.length ∨ ¬ msgs.Nodup) :
    sig.verifyAggregate sha pubs msgs = some false := by
  rw [G2Pubs.Signature.verifyAggregate]
  rcases h with h | h
  · rw [if_pos (by rwa [bne_iff_ne])]
  · split_ifs with h1 h2
    · rfl
    · rfl
    · refine absurd ?_ h
      rw [Bool.not_eq_true', Bool.not_eq_false, noRepeat_sort] at h2
      exact h2.1

/-- Batches of pairwise different messages are not rejected by the guards if none is empty (that they then verify is
`C39`). Missing for the full claim: it is false with an empty message, see `C38_empty_g2pubs_false`. -/
theorem C38_distinct_g2pubs_partial (sha : List UInt8 → List UInt8) (sig : G2Pubs.Signature)
    (pubs : List G2Pubs.PublicKey) (msgs : List (List UInt8)) (h : pubs.length = msgs.length) (hn : msgs.Nodup)
    (he : [] ∉ msgs) :
    sig.verifyAggregate sha pubs msgs = ((pairing sig.s G2Projective.one).bind fun lhs =>
      (G2Pubs.pairingProduct sha pubs msgs FQ12.one).bind fun rhs => lhs.map fun l => l.equals rhs) := by
  rw [G2Pubs.Signature.verifyAggregate, if_neg (by rw [bne_iff_ne, not_not]; exact h),
    if_neg (by rw [(noRepeat_sort msgs).mpr ⟨hn, he⟩]; decide)]

example : ([[1], [2], [1, 2]] : List (List UInt8)).Nodup ∧ [] ∉ ([[1], [2], [1, 2]] : List (List UInt8)) := by decide

/-- A batch with an empty message is always rejected, also the batch of the one empty message with a signature that
`Verify` accepts. -/
theorem C38_empty_g2pubs_false :
    (∀ (sha : List UInt8 → List UInt8) (sig : G2Pubs.Signature) (pubs : List G2Pubs.PublicKey)
      (msgs : List (List UInt8)), [] ∈ msgs → sig.verifyAggregate sha pubs msgs = some false) ∧
    ∃ (sha : List UInt8 → List UInt8) (sig : G2Pubs.Signature) (pub : G2Pubs.PublicKey),
      G2Pubs.verify sha [] pub sig = some true ∧ sig.verifyAggregate sha [pub] [[]] = some false := by
  have key : ∀ (sha : List UInt8 → List UInt8) (sig : G2Pubs.Signature) (pubs : List G2Pubs.PublicKey)
      (msgs : List (List UInt8)), [] ∈ msgs → sig.verifyAggregate sha pubs msgs = some false := by
    intro sha sig pubs msgs h
    rw [G2Pubs.Signature.verifyAggregate]
    split_ifs with h1 h2
    · rfl
    · rfl
    · rw [Bool.not_eq_true', Bool.not_eq_false, noRepeat_sort] at h2
      exact absurd h h2.2
  refine ⟨key, ?_⟩
  obtain ⟨H, hH⟩ := Cases.case1
  obtain ⟨pub, sig, _, _, h⟩ := C35_complete_g2pubs Cases.sha1 [] H (hH []) ⟨some FR.one⟩ FR.one.int
    ⟨FR.one, rfl, FR.one_rep.isValid, rfl⟩ (by rw [FR.one_rep.int]; decide +kernel)
  exact ⟨_, sig, pub, h, key _ _ _ _ List.mem_cons_self⟩

/-! ## C34: aggregates and infinity -/

/-- `VerifyAggregateCommon` panics if the keys add up to infinity, in particular for no keys, and `VerifyAggregate`
panics if the signature is infinity and the messages pass the checks, in particular for no messages. -/
theorem C34_aggregate_g2pubs_false (sha : List UInt8 → List UInt8) :
    (∀ (m : List UInt8) (H : E1), G2Pubs.HashesTo sha m H → ∀ (pubs : List G2Pubs.PublicKey) (Ps : List E2),
      List.Forall₂ (fun p P => p.p.Denotes P) pubs Ps → Ps.sum = 0 → ∀ (sig : G2Pubs.Signature) (S : E1),
      sig.s.Denotes S → sig.verifyAggregateCommon sha pubs m = none) ∧
    ∀ (sig : G2Pubs.Signature), sig.s.Denotes 0 → ∀ (pubs : List G2Pubs.PublicKey) (msgs : List (List UInt8)),
      pubs.length = msgs.length → msgs.Nodup → [] ∉ msgs → sig.verifyAggregate sha pubs msgs = none := by
  refine ⟨fun m H hm pubs Ps hp h0 sig S hs => ?_, fun sig hs pubs msgs hl hn he => ?_⟩
  · have ha := C29_publicKeys_g2pubs pubs Ps hp
    rw [h0] at ha
    obtain ⟨h, hh, hd, _⟩ := hm
    have hd := (G1Affine.denotes_iff.mp hd).toProjective
    have h4 := G2Projective.denotes_iff.mp ha
    have hs := G1Projective.denotes_iff.mp hs
    rw [G2Pubs.Signature.verifyAggregateCommon, G2Pubs.verify, hh, Option.bind_some]
    exact compareTwoPairings_none hs G2Affine.one_rep.toProjective hd h4 (Or.inr (Or.inr (Or.inr rfl)))
  · rw [C38_distinct_g2pubs_partial sha sig pubs msgs hl hn he]
    exact G2Pubs.final_none (G1Projective.denotes_iff.mp hs)


/-! ## C39: VerifyAggregate is exact -/

/-- For pairwise different non-empty messages `mᵢ` with hash points `Hᵢ` and keys `kᵢ·G` other than infinity,
`VerifyAggregate` is true exactly for the sum of the `kᵢ·Hᵢ`, the points `Sign` computes. -/
theorem C39_exact_g2pubs (sha : List UInt8 → List UInt8) (batch : List (G2Pubs.PublicKey × List UInt8 × ℕ × E1))
    (h : ∀ b ∈ batch, b.1.p.Denotes (b.2.2.1 • g2Gen) ∧ ¬ r ∣ b.2.2.1 ∧ G2Pubs.HashesTo sha b.2.1 b.2.2.2)
    (hn : (batch.map fun b => b.2.1).Nodup) (he : [] ∉ batch.map fun b => b.2.1) (sig : G2Pubs.Signature) (S : E1)
    (hs : sig.s.Denotes S) (hr : r • S = 0) (hS : S ≠ 0) :
    ∃ c, sig.verifyAggregate sha (batch.map fun b => b.1) (batch.map fun b => b.2.1) = some c ∧
      (c = true ↔ S = (batch.map fun b => b.2.2.1 • b.2.2.2).sum) := by
  have key : G2Pubs.Entries (G2Pubs.HashesTo sha) (batch.map fun b => b.1) (batch.map fun b => b.2.1)
      (batch.map fun b => b.2.2) := by
    clear hn he
    induction batch with
    | nil => exact .nil
    | cons b l ih =>
      obtain ⟨h1, h2, h3⟩ := h b List.mem_cons_self
      refine .cons ⟨G2Projective.denotes_iff.mp h1, fun e => h2 ?_, h3⟩ (ih fun x hx => h x (List.mem_cons_of_mem _ hx))
      have := addOrderOf_dvd_of_nsmul_eq_zero e
      rwa [addOrderOf_g2Gen] at this
  obtain ⟨c, h1, h2⟩ := G2Pubs.verifyAggregate_spec key (G1Projective.denotes_iff.mp hs) hr hS hn he
  refine ⟨c, h1, ?_⟩
  rw [h2, G2Pubs.total, List.map_map]; rfl

/-- The hypotheses are met by a batch of two messages. -/
example : ∃ (sha : List UInt8 → List UInt8) (batch : List (G2Pubs.PublicKey × List UInt8 × ℕ × E1)),
    batch.length = 2 ∧ (∀ b ∈ batch, b.1.p.Denotes (b.2.2.1 • g2Gen) ∧ ¬ r ∣ b.2.2.1 ∧
      G2Pubs.HashesTo sha b.2.1 b.2.2.2) ∧ (batch.map fun b => b.2.1).Nodup ∧ [] ∉ (batch.map fun b => b.2.1) ∧
    (batch.map fun b => b.2.2.1 • b.2.2.2).sum ≠ 0 ∧ r • (batch.map fun b => b.2.2.1 • b.2.2.2).sum = 0 := by
  obtain ⟨H, hH⟩ := Cases.case1
  obtain ⟨_, _, _, H0, Hr⟩ := id (hH [])
  have hr1 : ¬ r ∣ 1 := fun h => r_prime.one_lt.ne' (Nat.dvd_one.mp h)
  have hp : (G2Affine.one.toProjective).Denotes (1 • g2Gen) := by
    rw [one_nsmul]; exact G2Projective.denotes_iff.mpr G2Affine.one_rep.toProjective
  refine ⟨Cases.sha1, [(⟨G2Affine.one.toProjective⟩, [1], 1, H), (⟨G2Affine.one.toProjective⟩, [2], 1, H)], rfl, ?_,
    by simp, by simp, ?_, ?_⟩
  · exact forall_pair ⟨hp, hr1, hH _⟩ ⟨hp, hr1, hH _⟩
  · have e : ([(⟨G2Affine.one.toProjective⟩, [1], 1, H), (⟨G2Affine.one.toProjective⟩, [2], 1, H)].map
      fun b : G2Pubs.PublicKey × List UInt8 × ℕ × E1 => b.2.2.1 • b.2.2.2).sum = 2 • H := by simp [two_nsmul]
    rw [e]
    exact G1Pubs.nsmul_ne_of_lt H0 Hr (by norm_num) (by rw [r_eq]; decide +kernel)
  · have e : ([(⟨G2Affine.one.toProjective⟩, [1], 1, H), (⟨G2Affine.one.toProjective⟩, [2], 1, H)].map
      fun b : G2Pubs.PublicKey × List UInt8 × ℕ × E1 => b.2.2.1 • b.2.2.2).sum = 2 • H := by simp [two_nsmul]
    rw [e]
    exact G1Pubs.torsion_nsmul Hr 2

/-! ## C49: keys are homomorphic -/

/-- The public key and the signature of the sum of two secret scalars are the aggregates. -/
theorem C49_add_g2pubs (sha : List UInt8 → List UInt8) (m : List UInt8) (H : E1) (hm : G2Pubs.HashesTo sha m H)
    (f g : FR) (hf : f.isValid) (hg : g.isValid) :
    ∃ p p₁ p₂ s s₁ s₂, G2Pubs.privToPub ⟨some (f.add g)⟩ = some p ∧ G2Pubs.privToPub ⟨some f⟩ = some p₁ ∧
      G2Pubs.privToPub ⟨some g⟩ = some p₂ ∧ p.equals (p₁.aggregate p₂) = true ∧
      p.serialize = (p₁.aggregate p₂).serialize ∧
      G2Pubs.sign sha m ⟨some (f.add g)⟩ = some s ∧ G2Pubs.sign sha m ⟨some f⟩ = some s₁ ∧
      G2Pubs.sign sha m ⟨some g⟩ = some s₂ ∧ s.serialize = (s₁.aggregate s₂).serialize := by
  have hfg := (FR.rep_int hf).add (FR.rep_int hg)
  have hi : (f.add g).int = (f.int + g.int) % r := by
    rw [← Nat.cast_add] at hfg
    exact hfg.int_eq
  have k : (⟨some (f.add g)⟩ : G2Pubs.SecretKey).Holds _ := ⟨_, rfl, hfg.isValid, hi⟩
  have k₁ : (⟨some f⟩ : G2Pubs.SecretKey).Holds _ := ⟨_, rfl, hf, rfl⟩
  have k₂ : (⟨some g⟩ : G2Pubs.SecretKey).Holds _ := ⟨_, rfl, hg, rfl⟩
  obtain ⟨_, _, _, _, hH⟩ := id hm
  obtain ⟨p, a, b⟩ := k.toPub
  obtain ⟨p₁, a₁, b₁⟩ := k₁.toPub
  obtain ⟨p₂, a₂, b₂⟩ := k₂.toPub
  obtain ⟨s, c, d⟩ := k.sign hm
  obtain ⟨s₁, c₁, d₁⟩ := k₁.sign hm
  obtain ⟨s₂, c₂, d₂⟩ := k₂.sign hm
  rw [← nsmul_mod_r r_smul_g2Gen, add_nsmul] at b
  rw [← nsmul_mod_r hH, add_nsmul] at d
  refine ⟨p, p₁, p₂, s, s₁, s₂, a, a₁, a₂, (b.equal (b₁.add b₂)).mpr rfl, ?_, c, c₁, c₂, ?_⟩
  · rw [G2Pubs.PublicKey.serialize, G2Pubs.PublicKey.serialize, G2Pubs.PublicKey.aggregate,
      b.toAffine.inj (b₁.add b₂).toAffine]
  · rw [G2Pubs.Signature.serialize, G2Pubs.Signature.serialize, G2Pubs.Signature.aggregate,
      d.toAffine.inj (d₁.add d₂).toAffine]

/-- Equal public keys have equal secret scalars. -/
theorem C49_injective_g2pubs (sk sk' : G2Pubs.SecretKey) (k k' : ℕ) (h : sk.Holds k) (h' : sk'.Holds k')
    (p p' : G2Pubs.PublicKey) (hp : G2Pubs.privToPub sk = some p) (hp' : G2Pubs.privToPub sk' = some p') :
    p.equals p' = true ↔ k = k' := by
  obtain ⟨_, a, b⟩ := h.toPub
  obtain ⟨_, a', b'⟩ := h'.toPub
  rw [hp, Option.some_inj] at a
  rw [hp', Option.some_inj] at a'
  subst a a'
  rw [G2Pubs.PublicKey.equals, b.equal b']
  exact ⟨fun e => G1Pubs.nsmul_inj_of_lt g2Gen_ne_zero r_smul_g2Gen h.lt h'.lt e, fun e => by rw [e]⟩

example : ∃ (sha : List UInt8 → List UInt8) (H : E1), G2Pubs.HashesTo sha [7] H ∧ FR.one.isValid = true := by
  obtain ⟨H, hH⟩ := Cases.case1
  exact ⟨_, H, hH _, FR.one_rep.isValid⟩

end Bls.Props
