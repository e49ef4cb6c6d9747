import Verif.Props.Encoding
import Verif.Props.Hash
import Verif.Proof.G1Pubs
import Verif.Proof.Lists
import Verif.Proof.HashCases
/-
The signature scheme of g1pubs (keys in G1, signatures in G2). `Holds`, `HashesTo` and `HashesToIn` are in
Verif/Spec/Keys.lean. `none` is a panic, for the deserializers of points an error.
-/
set_option exponentiation.threshold 1000
namespace Bls.Props

/-! ## C13: secret keys on the wire -/

/-- Serializing and deserializing a key gives the same key; the bytes are the big-endian scalar. -/
theorem C13_roundtrip_g1pubs (sk : G1Pubs.SecretKey) (k : ℕ) (h : sk.Holds k) :
    ∃ b, sk.serialize = some b ∧ b.length = 32 ∧ beNat b = k ∧ G1Pubs.deserializeSecretKey b = sk := by
  obtain ⟨f⟩ := sk
  obtain ⟨f, rfl, hv, rfl⟩ := h
  have hr := FR.rep_int hv
  refine ⟨_, rfl, FRRepr.bytes_length _, FRRepr.beNat_bytes _, ?_⟩
  obtain ⟨a, h1, h2⟩ := FR.ofRepr?_lt (o := f.toRepr) hr.int_lt
  rw [G1Pubs.deserializeSecretKey, FR.bytes, FRRepr.fromBytes_bytes, h1, hr.inj h2]

/-- A 32-byte string gives a usable key exactly when it is below r as a big-endian number, namely the key with that
scalar, and `Serialize` gives the string back. -/
theorem C13_deserialize_g1pubs (b : List UInt8) (hl : b.length = 32) :
    ((∃ k, (G1Pubs.deserializeSecretKey b).Holds k) ↔ beNat b < r) ∧
    (beNat b < r → (G1Pubs.deserializeSecretKey b).Holds (beNat b) ∧
      (G1Pubs.deserializeSecretKey b).serialize = some b) ∧
    (r ≤ beNat b → (G1Pubs.deserializeSecretKey b).f = none) := by
  have e := FRRepr.fromBytes_toNat hl
  have key : beNat b < r → (G1Pubs.deserializeSecretKey b).Holds (beNat b) ∧
      (G1Pubs.deserializeSecretKey b).serialize = some b := by
    intro h
    obtain ⟨a, h1, h2⟩ := FR.ofRepr?_lt (o := FRRepr.fromBytes b) (by rw [e]; exact h)
    have h3 : a.int = beNat b := by rw [h2.int_eq, e, Nat.mod_eq_of_lt h]
    refine ⟨⟨a, h1, h2.isValid, h3⟩, ?_⟩
    rw [G1Pubs.deserializeSecretKey, h1, G1Pubs.SecretKey.serialize, Option.map_some, FR.bytes]
    congr 1
    have h4 : a.toRepr = FRRepr.fromBytes b := FRRepr.toNat_inj (by rw [e]; exact h3)
    rw [h4, FRRepr.bytes_fromBytes hl]
  have key2 : r ≤ beNat b → (G1Pubs.deserializeSecretKey b).f = none := fun h =>
    FR.ofRepr?_of_le (by rw [e]; exact h)
  refine ⟨⟨fun ⟨k, f, hf, _⟩ => ?_, fun h => ⟨_, (key h).1⟩⟩, key, key2⟩
  by_contra h
  rw [key2 (not_lt.mp h)] at hf
  cases hf

/-- `KeyFromFQRepr` gives the key with that scalar, or a key with a nil field. -/
theorem C13_keyFromFQRepr_g1pubs (i : FRRepr) :
    (i.toNat < r → (G1Pubs.keyFromFQRepr i).Holds i.toNat) ∧
    (r ≤ i.toNat → (G1Pubs.keyFromFQRepr i).f = none) := by
  refine ⟨fun h => ?_, fun h => FR.ofRepr?_of_le h⟩
  obtain ⟨a, h1, h2⟩ := FR.ofRepr?_lt h
  exact ⟨a, h1, h2.isValid, by rw [h2.int_eq, Nat.mod_eq_of_lt h]⟩

/-- A key with a nil field is not usable: signing, deriving the public key and serializing panic. -/
theorem C13_nil_g1pubs (sha : List UInt8 → List UInt8) (m : List UInt8) (sk : G1Pubs.SecretKey) (h : sk.f = none) :
    sk.serialize = none ∧ G1Pubs.privToPub sk = none ∧ G1Pubs.sign sha m sk = none := by
  refine ⟨by rw [G1Pubs.SecretKey.serialize, h]; rfl, by rw [G1Pubs.privToPub, h]; rfl, ?_⟩
  rw [G1Pubs.sign, h]
  cases hashG2 sha m <;> rfl

example : ∃ k, k ≠ 0 ∧ (⟨some FR.one⟩ : G1Pubs.SecretKey).Holds k :=
  ⟨FR.one.int, by rw [FR.one_rep.int]; decide +kernel, FR.one, rfl, FR.one_rep.isValid, rfl⟩

/-! ## C50: derived keys -/

/-- `DeriveSecretKey` always gives a usable key, whose scalar is the hash output modulo r. -/
theorem C50_deriveSecretKey_g1pubs (sha : List UInt8 → List UInt8) (seed : List UInt8) :
    ∃ sk, G1Pubs.deriveSecretKey sha seed = some sk ∧ sk.Holds (hashToField sha seed 0 1 % r) := by
  obtain ⟨f, h1, h2⟩ := hashSecretKey_spec sha seed
  exact ⟨⟨some f⟩, by rw [G1Pubs.deriveSecretKey, h1]; rfl, f, rfl, h2.isValid, h2.int_eq⟩

/-! ## C23: equality of public keys -/

/-- `PublicKey.Equals` decides equality of the points. -/
theorem C23_publicKey_g1pubs (p p' : G1Pubs.PublicKey) (P P' : E1) (h : p.p.Denotes P) (h' : p'.p.Denotes P') :
    p.equals p' = true ↔ P = P' :=
  (G1Projective.denotes_iff.mp h).equal (G1Projective.denotes_iff.mp h')

/-! ## C56: wrapping and unwrapping -/

/-- Wrapping a point gives a key or signature with that point, which `GetPoint` and `Copy` keep; `GetFRElement` gives
the scalar. -/
theorem C56_g1pubs (a : G1Affine) (P : E1) (ha : a.Denotes P) (b : G2Affine) (S : E2) (hb : b.Denotes S) :
    (G1Pubs.newPublicKeyFromG1 a).p.Denotes P ∧ (G1Pubs.newPublicKeyFromG1 a).getPoint.Denotes P ∧
    (G1Pubs.newPublicKeyFromG1 a).copy.p.Denotes P ∧ (G1Pubs.newPublicKeyFromG1 a).serialize = a.compress ∧
    (G1Pubs.newSignatureFromG2 b).s.Denotes S ∧ (G1Pubs.newSignatureFromG2 b).getPoint.Denotes S ∧
    (G1Pubs.newSignatureFromG2 b).copy.s.Denotes S ∧ (G1Pubs.newSignatureFromG2 b).serialize = b.compress := by
  have h1 := (G1Affine.denotes_iff.mp ha).toProjective
  have h2 := (G2Affine.denotes_iff.mp hb).toProjective
  have h3 := G1Projective.denotes_iff.mpr h1
  have h4 := G2Projective.denotes_iff.mpr h2
  refine ⟨h3, h3, h3, ?_, h4, h4, h4, ?_⟩
  · exact congrArg G1Affine.compress (h1.toAffine.inj (G1Affine.denotes_iff.mp ha))
  · exact congrArg G2Affine.compress (h2.toAffine.inj (G2Affine.denotes_iff.mp hb))

/-- Unwrapping any key or signature: the point does not change, nor does what the copy serializes to. -/
theorem C56_unwrap_g1pubs (p : G1Pubs.PublicKey) (P : E1) (hp : p.p.Denotes P) (s : G1Pubs.Signature) (S : E2)
    (hs : s.s.Denotes S) (sk : G1Pubs.SecretKey) (k : ℕ) (hk : sk.Holds k) :
    p.getPoint.Denotes P ∧ p.copy.p.Denotes P ∧ p.copy.serialize = p.serialize ∧
    s.getPoint.Denotes S ∧ s.copy.s.Denotes S ∧ s.copy.serialize = s.serialize ∧
    ∃ f, sk.getFRElement = some f ∧ f.isValid ∧ f.int = k := ⟨hp, hp, rfl, hs, hs, rfl, hk⟩

example : G1Affine.one.Denotes g1Gen ∧ g1Gen ≠ 0 := ⟨G1Affine.denotes_iff.mpr G1Affine.one_rep, g1Gen_ne_zero⟩

/-! ## C25, C26: public keys and signatures on the wire -/

/-- Serializing and deserializing a public key of the subgroup gives a key that denotes the same point. -/
theorem C25_publicKey_g1pubs (p : G1Pubs.PublicKey) (P : E1) (h : p.p.Denotes P) (hr : r • P = 0) :
    p.serialize.length = 48 ∧ ∃ p', G1Pubs.deserializePublicKey p.serialize = some p' ∧ p'.p.Denotes P := by
  have ha := (G1Projective.denotes_iff.mp h).toAffine
  refine ⟨ha.compress_length, _, ?_, G1Projective.denotes_iff.mpr ha.toProjective⟩
  rw [G1Pubs.deserializePublicKey, G1Pubs.PublicKey.serialize, ha.decompress_compress hr]; rfl

/-- Serializing and deserializing a signature of the subgroup gives a signature that denotes the same point. -/
theorem C25_signature_g1pubs (s : G1Pubs.Signature) (S : E2) (h : s.s.Denotes S) (hr : r • S = 0) :
    s.serialize.length = 96 ∧ ∃ s', G1Pubs.deserializeSignature s.serialize = some s' ∧ s'.s.Denotes S := by
  have ha := (G2Projective.denotes_iff.mp h).toAffine
  refine ⟨ha.compress_length, _, ?_, G2Projective.denotes_iff.mpr ha.toProjective⟩
  rw [G1Pubs.deserializeSignature, G1Pubs.Signature.serialize, ha.decompress_compress hr]; rfl

/-- Every accepted public key is a multiple of the generator. -/
theorem C26_publicKey_g1pubs (b : List UInt8) (hl : b.length = 48) (p : G1Pubs.PublicKey)
    (h : G1Pubs.deserializePublicKey b = some p) : ∃ k : ℕ, k < r ∧ p.p.Denotes (k • g1Gen) := by
  obtain ⟨a, ha, rfl⟩ := Option.map_eq_some_iff.mp h
  obtain ⟨P, hP, hr⟩ := (C26_g1 b hl a).2 ha
  obtain ⟨k, rfl⟩ := E1.torsion hr
  refine ⟨k % r, Nat.mod_lt _ r_prime.pos, ?_⟩
  rw [← nsmul_mod_r r_smul_g1Gen]
  exact G1Projective.denotes_iff.mpr (G1Affine.denotes_iff.mp hP).toProjective

/-- Every accepted signature is a point of the subgroup of order r. -/
theorem C26_signature_g1pubs (b : List UInt8) (hl : b.length = 96) (s : G1Pubs.Signature)
    (h : G1Pubs.deserializeSignature b = some s) : ∃ S : E2, s.s.Denotes S ∧ r • S = 0 := by
  obtain ⟨a, ha, rfl⟩ := Option.map_eq_some_iff.mp h
  obtain ⟨S, hS, hr⟩ := (C26_g2 b hl a).2 ha
  exact ⟨S, G2Projective.denotes_iff.mpr (G2Affine.denotes_iff.mp hS).toProjective, hr⟩

/-! ## C29: aggregation -/

/-- The aggregate of signatures denotes the sum of the points. -/
theorem C29_signatures_g1pubs (l : List G1Pubs.Signature) (Ss : List E2)
    (h : List.Forall₂ (fun s S => s.s.Denotes S) l Ss) : (G1Pubs.aggregateSignatures l).s.Denotes Ss.sum :=
  G2Projective.denotes_iff.mpr
    (G1Pubs.aggregateSignatures_spec (h.imp fun _ _ h => G2Projective.denotes_iff.mp h))

/-- The aggregate of public keys denotes the sum of the points. -/
theorem C29_publicKeys_g1pubs (l : List G1Pubs.PublicKey) (Ps : List E1)
    (h : List.Forall₂ (fun p P => p.p.Denotes P) l Ps) : (G1Pubs.aggregatePublicKeys l).p.Denotes Ps.sum :=
  G1Projective.denotes_iff.mpr
    (G1Pubs.aggregatePublicKeys_spec (h.imp fun _ _ h => G1Projective.denotes_iff.mp h))

/-- The serialized aggregate does not depend on the order. -/
theorem C29_order_g1pubs (l l' : List G1Pubs.Signature) (hp : l.Perm l') (h : ∀ s ∈ l, ∃ S : E2, s.s.Denotes S)
    (p p' : List G1Pubs.PublicKey) (hp' : p.Perm p') (h' : ∀ k ∈ p, ∃ P : E1, k.p.Denotes P) :
    (G1Pubs.aggregateSignatures l).serialize = (G1Pubs.aggregateSignatures l').serialize ∧
    (G1Pubs.aggregatePublicKeys p).serialize = (G1Pubs.aggregatePublicKeys p').serialize ∧
    (G1Pubs.aggregatePublicKeys p).equals (G1Pubs.aggregatePublicKeys p') = true := by
  obtain ⟨Ss, hS⟩ := forall₂_of_forall h
  obtain ⟨Ss', hS', hs⟩ := forall₂_perm hp hS
  obtain ⟨Ps, hP⟩ := forall₂_of_forall h'
  obtain ⟨Ps', hP', hs'⟩ := forall₂_perm hp' hP
  have a := G2Projective.denotes_iff.mp (C29_signatures_g1pubs l Ss hS)
  have a' := G2Projective.denotes_iff.mp (C29_signatures_g1pubs l' Ss' hS')
  have b := G1Projective.denotes_iff.mp (C29_publicKeys_g1pubs p Ps hP)
  have b' := G1Projective.denotes_iff.mp (C29_publicKeys_g1pubs p' Ps' hP')
  rw [← hs.sum_eq] at a'
  rw [← hs'.sum_eq] at b'
  refine ⟨?_, ?_, (b.equal b').mpr rfl⟩
  · rw [G1Pubs.Signature.serialize, G1Pubs.Signature.serialize, a.toAffine.inj a'.toAffine]
  · rw [G1Pubs.PublicKey.serialize, G1Pubs.PublicKey.serialize, b.toAffine.inj b'.toAffine]

/-- Grouping does not matter: aggregating two aggregates is aggregating all. The empty aggregate is infinity, and so
is the fresh one that `Aggregate` is called on; calling it for each element is aggregating the list. -/
theorem C29_grouping_g1pubs (l l' : List G1Pubs.Signature) (h : ∀ s ∈ l ++ l', ∃ S : E2, s.s.Denotes S)
    (p p' : List G1Pubs.PublicKey) (h' : ∀ k ∈ p ++ p', ∃ P : E1, k.p.Denotes P) :
    ((G1Pubs.aggregateSignatures l).aggregate (G1Pubs.aggregateSignatures l')).serialize =
      (G1Pubs.aggregateSignatures (l ++ l')).serialize ∧
    ((G1Pubs.aggregatePublicKeys p).aggregate (G1Pubs.aggregatePublicKeys p')).serialize =
      (G1Pubs.aggregatePublicKeys (p ++ p')).serialize ∧
    G1Pubs.newAggregateSignature.s.Denotes 0 ∧ G1Pubs.newAggregatePubkey.p.Denotes 0 ∧
    G1Pubs.aggregateSignatures [] = G1Pubs.newAggregateSignature ∧
    G1Pubs.aggregatePublicKeys [] = G1Pubs.newAggregatePubkey ∧
    l.foldl G1Pubs.Signature.aggregate G1Pubs.newAggregateSignature = G1Pubs.aggregateSignatures l ∧
    p.foldl G1Pubs.PublicKey.aggregate G1Pubs.newAggregatePubkey = G1Pubs.aggregatePublicKeys p := by
  obtain ⟨Ss, hS⟩ := forall₂_of_forall fun s hs => h s (List.mem_append_left _ hs)
  obtain ⟨Ss', hS'⟩ := forall₂_of_forall fun s hs => h s (List.mem_append_right _ hs)
  obtain ⟨Ps, hP⟩ := forall₂_of_forall fun s hs => h' s (List.mem_append_left _ hs)
  obtain ⟨Ps', hP'⟩ := forall₂_of_forall fun s hs => h' s (List.mem_append_right _ hs)
  have a := G2Projective.denotes_iff.mp (C29_signatures_g1pubs l Ss hS)
  have a' := G2Projective.denotes_iff.mp (C29_signatures_g1pubs l' Ss' hS')
  have a'' := G2Projective.denotes_iff.mp (C29_signatures_g1pubs _ _ (List.rel_append hS hS'))
  have b := G1Projective.denotes_iff.mp (C29_publicKeys_g1pubs p Ps hP)
  have b' := G1Projective.denotes_iff.mp (C29_publicKeys_g1pubs p' Ps' hP')
  have b'' := G1Projective.denotes_iff.mp (C29_publicKeys_g1pubs _ _ (List.rel_append hP hP'))
  rw [List.sum_append] at a'' b''
  refine ⟨?_, ?_, G2Projective.denotes_iff.mpr .zero, G1Projective.denotes_iff.mpr .zero, rfl, rfl, rfl, rfl⟩
  · rw [G1Pubs.Signature.serialize, G1Pubs.Signature.serialize, G1Pubs.Signature.aggregate,
      (a.add a').toAffine.inj a''.toAffine]
  · rw [G1Pubs.PublicKey.serialize, G1Pubs.PublicKey.serialize, G1Pubs.PublicKey.aggregate,
      (b.add b').toAffine.inj b''.toAffine]

example : ∃ (l : List G1Pubs.Signature) (Ss : List E2), l.length = 3 ∧
    List.Forall₂ (fun s S => s.s.Denotes S) l Ss ∧ Ss.sum ≠ 0 := by
  have h := G2Projective.denotes_iff.mpr G2Affine.one_rep.toProjective
  refine ⟨[⟨G2Affine.one.toProjective⟩, ⟨G2Affine.one.toProjective⟩, ⟨G2Affine.one.toProjective⟩],
    [g2Gen, g2Gen, g2Gen], rfl, .cons h (.cons h (.cons h .nil)), ?_⟩
  have e : [g2Gen, g2Gen, g2Gen].sum = 3 • g2Gen := by simp [succ_nsmul, add_assoc]
  rw [e]
  exact G1Pubs.nsmul_ne_of_lt g2Gen_ne_zero r_smul_g2Gen (by norm_num) (by rw [r_eq]; decide +kernel)

/-! ## C36: verification is exact -/

/-- For the public key `k·G` and any signature in the subgroup, `Verify` is true exactly for the point that `Sign`
computes from the secret scalar; it only fails to return (a panic) when the signature is infinity. -/
theorem C36_exact_g1pubs (sha : List UInt8 → List UInt8) (m : List UInt8) (H : E2) (hm : G1Pubs.HashesTo sha m H)
    (sk : G1Pubs.SecretKey) (k : ℕ) (hk : sk.Holds k) (h0 : k ≠ 0) (pub : G1Pubs.PublicKey)
    (hp : pub.p.Denotes (k • g1Gen)) (sig : G1Pubs.Signature) (S : E2) (hs : sig.s.Denotes S) (hr : r • S = 0) :
    (∃ sig', G1Pubs.sign sha m sk = some sig' ∧ sig'.s.Denotes (k • H)) ∧
    (G1Pubs.verify sha m pub sig = some true ↔ S = k • H) ∧ (S ≠ 0 → G1Pubs.verify sha m pub sig ≠ none) := by
  obtain ⟨s, h1, h2⟩ := hk.sign hm
  have hkg := G1Pubs.nsmul_ne_of_lt g1Gen_ne_zero r_smul_g1Gen h0 hk.lt
  exact ⟨⟨s, h1, G2Projective.denotes_iff.mpr h2⟩,
    G1Pubs.verify_spec hm (G1Projective.denotes_iff.mp hp) hkg (G2Projective.denotes_iff.mp hs) hr⟩

/-- The same for anything read from the wire: an accepted public key other than infinity has one scalar `k`, and
an accepted signature other than infinity verifies exactly when it is the point `k·H`. -/
theorem C36_wire_g1pubs (sha : List UInt8 → List UInt8) (m : List UInt8) (H : E2) (hm : G1Pubs.HashesTo sha m H)
    (bp bs : List UInt8) (hbp : bp.length = 48) (hbs : bs.length = 96) (pub : G1Pubs.PublicKey)
    (sig : G1Pubs.Signature) (hp : G1Pubs.deserializePublicKey bp = some pub)
    (hs : G1Pubs.deserializeSignature bs = some sig) (np : ¬ pub.p.Denotes 0) (ns : ¬ sig.s.Denotes 0) :
    ∃ k c, 0 < k ∧ k < r ∧ pub.p.Denotes (k • g1Gen) ∧ G1Pubs.verify sha m pub sig = some c ∧
      (c = true ↔ sig.s.Denotes (k • H)) := by
  obtain ⟨k, hk, hd⟩ := C26_publicKey_g1pubs bp hbp pub hp
  obtain ⟨S, hS, hr⟩ := C26_signature_g1pubs bs hbs sig hs
  have hk0 : k ≠ 0 := by
    rintro rfl
    rw [zero_nsmul] at hd
    exact np hd
  have hS0 : S ≠ 0 := by
    rintro rfl
    exact ns hS
  have hkg := G1Pubs.nsmul_ne_of_lt g1Gen_ne_zero r_smul_g1Gen hk0 hk
  obtain ⟨h1, h2⟩ := G1Pubs.verify_spec hm (G1Projective.denotes_iff.mp hd) hkg (G2Projective.denotes_iff.mp hS) hr
  obtain ⟨c, hc⟩ := Option.ne_none_iff_exists'.mp (h2 hS0)
  refine ⟨k, c, Nat.pos_of_ne_zero hk0, hk, hd, hc, ?_⟩
  rw [hc, Option.some_inj] at h1
  rw [h1]
  have hS := G2Projective.denotes_iff.mp hS
  exact ⟨fun e => e ▸ G2Projective.denotes_iff.mpr hS,
    fun e => (G2Projective.Rep.equal hS (G2Projective.denotes_iff.mp e)).mp ((G2Projective.Rep.equal hS hS).mpr rfl)⟩

/-- Bytes of a key and of a signature that are accepted and are not infinity. -/
example : ∃ bp bs pub sig, bp.length = 48 ∧ bs.length = 96 ∧ G1Pubs.deserializePublicKey bp = some pub ∧
    G1Pubs.deserializeSignature bs = some sig ∧ ¬ pub.p.Denotes 0 ∧ ¬ sig.s.Denotes 0 := by
  have h1 := G1Projective.denotes_iff.mpr G1Affine.one_rep.toProjective
  have h2 := G2Projective.denotes_iff.mpr G2Affine.one_rep.toProjective
  obtain ⟨l1, p, e1, d1⟩ := C25_publicKey_g1pubs ⟨_⟩ _ h1 r_smul_g1Gen
  obtain ⟨l2, s, e2, d2⟩ := C25_signature_g1pubs ⟨_⟩ _ h2 r_smul_g2Gen
  exact ⟨_, _, p, s, l1, l2, e1, e2,
    fun h => g1Gen_ne_zero ((G1Projective.denotes_iff.mp d1).fn (G1Projective.denotes_iff.mp h)),
    fun h => g2Gen_ne_zero ((G2Projective.denotes_iff.mp d2).fn (G2Projective.denotes_iff.mp h))⟩

/-! ## C35: signatures verify -/

/-- `Verify(m, PrivToPub(sk), Sign(m, sk))` is true for every non-zero key and every message with a hash point. -/
theorem C35_complete_g1pubs (sha : List UInt8 → List UInt8) (m : List UInt8) (H : E2) (hm : G1Pubs.HashesTo sha m H)
    (sk : G1Pubs.SecretKey) (k : ℕ) (hk : sk.Holds k) (h0 : k ≠ 0) :
    ∃ pub sig, G1Pubs.privToPub sk = some pub ∧ G1Pubs.sign sha m sk = some sig ∧
      G1Pubs.verify sha m pub sig = some true := by
  obtain ⟨pub, h1, h2⟩ := hk.toPub
  obtain ⟨sig, h3, h4⟩ := hk.sign hm
  obtain ⟨_, _, _, H0, hH⟩ := id hm
  have hkg := G1Pubs.nsmul_ne_of_lt g1Gen_ne_zero r_smul_g1Gen h0 hk.lt
  exact ⟨pub, sig, h1, h3, (G1Pubs.verify_spec hm h2 hkg h4 (G1Pubs.torsion_nsmul hH k)).1.mpr rfl⟩

/-- The same from the description of `HashG2`: two mapped points with different x-coordinates, not mapped to infinity. -/
theorem C35_hashG2 (sha : List UInt8 → List UInt8) (m : List UInt8) (P Q : E2'.Point)
    (hP : Swu2 ⟨(hashToField sha (1 :: m) 0 1 : Fq), (hashToField sha (1 :: m) 0 2 : Fq)⟩ P)
    (hQ : Swu2 ⟨(hashToField sha (1 :: m) 1 1 : Fq), (hashToField sha (1 :: m) 1 2 : Fq)⟩ Q)
    (hne : P ≠ Q) (hne' : P ≠ -Q) (hH : ∀ R : E2, iso3Map.Maps (P + Q) R →
      (blsU * blsU + blsU) • R - R - (blsU + 1) • psi.hom R + 2 • psi.hom (psi.hom R) ≠ 0) :
    (∃ H, G1Pubs.HashesTo sha m H) ∧ ∀ (sk : G1Pubs.SecretKey) (k : ℕ), sk.Holds k → k ≠ 0 →
      ∃ pub sig, G1Pubs.privToPub sk = some pub ∧ G1Pubs.sign sha m sk = some sig ∧
        G1Pubs.verify sha m pub sig = some true := by
  obtain ⟨g, R, H, h1, h2, h3, h4, h5⟩ := C41_hashG2 sha m P Q hP hQ hne hne'
  have hm : G1Pubs.HashesTo sha m H := ⟨g, h2, h3, by rw [h4]; exact hH R h1, h5⟩
  exact ⟨⟨H, hm⟩, fun sk k hk h0 => C35_complete_g1pubs sha m H hm sk k hk h0⟩

/-- The variant with a domain: true for every message and domain for which the hash is not infinity. -/
theorem C35_domain_g1pubs (sha : List UInt8 → List UInt8) (m d : List UInt8) (H : E2)
    (hm : G1Pubs.HashesToIn sha d m H) (sk : G1Pubs.SecretKey) (k : ℕ) (hk : sk.Holds k) (h0 : k ≠ 0) :
    ∃ pub sig, G1Pubs.privToPub sk = some pub ∧ G1Pubs.signWithDomain sha m sk d = some sig ∧
      G1Pubs.verifyWithDomain sha m pub sig d = some true := by
  obtain ⟨pub, h1, h2⟩ := hk.toPub
  obtain ⟨sig, h3, h4⟩ := hk.signIn hm
  obtain ⟨_, _, _, H0, hH⟩ := id hm
  have hkg := G1Pubs.nsmul_ne_of_lt g1Gen_ne_zero r_smul_g1Gen h0 hk.lt
  exact ⟨pub, sig, h1, h3, (G1Pubs.verifyWithDomain_spec hm h2 hkg h4 (G1Pubs.torsion_nsmul hH k)).1.mpr rfl⟩

/-- With a 32-byte hash function, only infinity is excluded. -/
theorem C35_domain_total (sha : List UInt8 → List UInt8) (hsha : ∀ m, (sha m).length = 32) (m d : List UInt8)
    (h : ∀ g, hashG2WithDomain sha m d = some g → ¬ g.Denotes 0) : ∃ H, G1Pubs.HashesToIn sha d m H := by
  obtain ⟨g, P, _, _, h1, h3, h4, _⟩ := C43_hashG2WithDomain sha hsha m d _ rfl
  refine ⟨_, g, h1, h3, fun e => h g h1 ?_, h4⟩
  rw [← e]
  exact h3

/-- Exactness of the variant with a domain. -/
theorem C36_domain_g1pubs (sha : List UInt8 → List UInt8) (m d : List UInt8) (H : E2)
    (hm : G1Pubs.HashesToIn sha d m H) (k : ℕ) (hk : ¬ r ∣ k) (pub : G1Pubs.PublicKey)
    (hp : pub.p.Denotes (k • g1Gen)) (sig : G1Pubs.Signature) (S : E2) (hs : sig.s.Denotes S) (hr : r • S = 0) :
    (G1Pubs.verifyWithDomain sha m pub sig d = some true ↔ S = k • H) ∧
    (S ≠ 0 → G1Pubs.verifyWithDomain sha m pub sig d ≠ none) := by
  have hkg : k • g1Gen ≠ 0 := fun e => hk (by
    have := addOrderOf_dvd_of_nsmul_eq_zero e
    rwa [addOrderOf_g1Gen] at this)
  exact G1Pubs.verifyWithDomain_spec hm (G1Projective.denotes_iff.mp hp) hkg (G2Projective.denotes_iff.mp hs) hr

/-- There are messages and hash functions as in the theorems above. -/
example : (∃ sha H, ∀ m, G1Pubs.HashesTo sha m H) ∧ ∃ sha, ∀ m d, ∃ H, G1Pubs.HashesToIn sha d m H := by
  obtain ⟨H, hH⟩ := Cases.case2
  exact ⟨⟨_, H, hH⟩, _, Cases.case3⟩

example (m : List UInt8) : ∃ (P Q : E2'.Point),
    Swu2 ⟨(hashToField Cases.sha2 (1 :: m) 0 1 : Fq), (hashToField Cases.sha2 (1 :: m) 0 2 : Fq)⟩ P ∧
    Swu2 ⟨(hashToField Cases.sha2 (1 :: m) 1 1 : Fq), (hashToField Cases.sha2 (1 :: m) 1 2 : Fq)⟩ Q ∧
    P ≠ Q ∧ P ≠ -Q ∧ ∀ R : E2, iso3Map.Maps (P + Q) R →
      (blsU * blsU + blsU) • R - R - (blsU + 1) • psi.hom R + 2 • psi.hom (psi.hom R) ≠ 0 := by
  obtain ⟨P, Q, h1, h2, h3, h4, h5⟩ := Cases.case2_full m
  refine ⟨P, Q, h1, h2, h3, h4, fun R hR => ?_⟩
  have := Cases.bClr (h5 R hR)
  rwa [Grp.clr_apply] at this

/-! ## C34: verification panics on infinity -/

/-- `Verify` panics if the signature or the public key is infinity, although both are accepted by the deserializers. -/
theorem C34_verify_g1pubs_false (sha : List UInt8 → List UInt8) (m : List UInt8) (H : E2)
    (hm : G1Pubs.HashesTo sha m H) :
    (∃ b sig, b.length = 96 ∧ G1Pubs.deserializeSignature b = some sig ∧
      ∀ (pub : G1Pubs.PublicKey) (P : E1), pub.p.Denotes P → G1Pubs.verify sha m pub sig = none) ∧
    ∃ b pub, b.length = 48 ∧ G1Pubs.deserializePublicKey b = some pub ∧
      ∀ (sig : G1Pubs.Signature) (S : E2), sig.s.Denotes S → G1Pubs.verify sha m pub sig = none := by
  obtain ⟨h, hh, hd, _⟩ := hm
  have hd := (G2Affine.denotes_iff.mp hd).toProjective
  obtain ⟨l1, s, h1, h2⟩ := C25_signature_g1pubs ⟨G2Projective.zero⟩ 0 (G2Projective.denotes_iff.mpr .zero) (nsmul_zero _)
  obtain ⟨l2, p, h3, h4⟩ := C25_publicKey_g1pubs ⟨G1Projective.zero⟩ 0 (G1Projective.denotes_iff.mpr .zero) (nsmul_zero _)
  have h2 := G2Projective.denotes_iff.mp h2
  have h4 := G1Projective.denotes_iff.mp h4
  refine ⟨⟨_, s, l1, h1, fun pub P hp => ?_⟩, _, p, l2, h3, fun sig S hs => ?_⟩
  · have hp := G1Projective.denotes_iff.mp hp
    rw [G1Pubs.verify, hh, Option.bind_some]
    exact compareTwoPairings_none G1Affine.one_rep.toProjective h2 hp hd (Or.inr (Or.inr (Or.inl rfl)))
  · have hs := G2Projective.denotes_iff.mp hs
    rw [G1Pubs.verify, hh, Option.bind_some]
    exact compareTwoPairings_none G1Affine.one_rep.toProjective hs h4 hd (Or.inr (Or.inl rfl))

/-! ## C37: one message, many signers -/

/-- `VerifyAggregateCommon` accepts exactly the sum of the signatures of the keys, in whatever order they are listed,
if the sum of the secret scalars is not 0 modulo r. -/
theorem C37_common_g1pubs (sha : List UInt8 → List UInt8) (m : List UInt8) (H : E2) (hm : G1Pubs.HashesTo sha m H)
    (pubs : List G1Pubs.PublicKey) (ks : List ℕ) (hp : List.Forall₂ (fun p k => p.p.Denotes (k • g1Gen)) pubs ks)
    (h0 : ¬ r ∣ ks.sum) (sig : G1Pubs.Signature) (S : E2) (hs : sig.s.Denotes S) (hr : r • S = 0) :
    (sig.verifyAggregateCommon sha pubs m = some true ↔ S = (ks.map fun k => k • H).sum) ∧
    sig.verifyAggregateCommon sha pubs m = G1Pubs.verify sha m (G1Pubs.aggregatePublicKeys pubs) sig := by
  have ha := G1Pubs.aggregatePublicKeys_spec (forall₂_map (fun _ _ h => G1Projective.denotes_iff.mp h) hp)
  rw [← sum_nsmul_eq] at ha
  have hkg : ks.sum • g1Gen ≠ 0 := fun e => h0 (by
    have := addOrderOf_dvd_of_nsmul_eq_zero e
    rwa [addOrderOf_g1Gen] at this)
  rw [← sum_nsmul_eq]
  exact ⟨(G1Pubs.verify_spec hm ha hkg (G2Projective.denotes_iff.mp hs) hr).1, rfl⟩

/-- Aggregating the signatures of the secret keys over one message, and verifying with the public keys, both in any
order. -/
theorem C37_complete_g1pubs (sha : List UInt8 → List UInt8) (m : List UInt8) (H : E2) (hm : G1Pubs.HashesTo sha m H)
    (sks : List G1Pubs.SecretKey) (ks : List ℕ) (hk : List.Forall₂ G1Pubs.SecretKey.Holds sks ks)
    (h0 : ¬ r ∣ ks.sum) :
    ∃ sigs pubs, sks.map (G1Pubs.sign sha m) = sigs.map some ∧ sks.map G1Pubs.privToPub = pubs.map some ∧
      ∀ sigs' pubs', sigs'.Perm sigs → pubs'.Perm pubs →
        (G1Pubs.aggregateSignatures sigs').verifyAggregateCommon sha pubs' m = some true := by
  obtain ⟨_, _, _, H0, hH⟩ := id hm
  have key : ∃ sigs pubs, sks.map (G1Pubs.sign sha m) = sigs.map some ∧ sks.map G1Pubs.privToPub = pubs.map some ∧
      List.Forall₂ (fun s S => s.s.Denotes S) sigs (ks.map fun k => k • H) ∧
      List.Forall₂ (fun p k => p.p.Denotes (k • g1Gen)) pubs ks := by
    clear h0
    induction hk with
    | nil => exact ⟨[], [], rfl, rfl, .nil, .nil⟩
    | cons h _ ih =>
      obtain ⟨ss, ps, e1, e2, f1, f2⟩ := ih
      obtain ⟨s, a1, a2⟩ := h.sign hm
      obtain ⟨p, b1, b2⟩ := h.toPub
      refine ⟨s :: ss, p :: ps, ?_, ?_, .cons (G2Projective.denotes_iff.mpr a2) f1,
        .cons (G1Projective.denotes_iff.mpr b2) f2⟩
      · rw [List.map_cons, List.map_cons, a1, e1]
      · rw [List.map_cons, List.map_cons, b1, e2]
  obtain ⟨sigs, pubs, e1, e2, f1, f2⟩ := key
  refine ⟨sigs, pubs, e1, e2, fun sigs' pubs' hs hp => ?_⟩
  obtain ⟨Ss', g1, g2⟩ := forall₂_perm hs.symm f1
  obtain ⟨ks', g3, g4⟩ := forall₂_perm hp.symm f2
  have hsum := C29_signatures_g1pubs sigs' Ss' g1
  rw [← g2.sum_eq] at hsum
  have e := g4.sum_eq
  refine (C37_common_g1pubs sha m H hm pubs' ks' g3 (by rwa [← e]) _ _ hsum ?_).1.mpr (g4.map fun k => k • H).sum_eq
  rw [← sum_nsmul_eq]
  exact G1Pubs.torsion_nsmul hH _

/-- Three keys, one of them twice. -/
example : ∃ (sks : List G1Pubs.SecretKey) (ks : List ℕ), sks.length = 3 ∧
    List.Forall₂ G1Pubs.SecretKey.Holds sks ks ∧ ¬ r ∣ ks.sum := by
  have h1 : (⟨some FR.one⟩ : G1Pubs.SecretKey).Holds 1 :=
    ⟨FR.one, rfl, FR.one_rep.isValid, by rw [FR.one_rep.int]; decide +kernel⟩
  have h2 : (⟨some FR.one.double⟩ : G1Pubs.SecretKey).Holds 2 :=
    ⟨_, rfl, FR.one_rep.double.isValid, by decide +kernel⟩
  exact ⟨_, [1, 2, 2], rfl, .cons h1 (.cons h2 (.cons h2 .nil)), by rw [r_eq]; decide +kernel⟩

/-! ## C38: the guards of VerifyAggregate -/

/-- `VerifyAggregate` is false if the numbers differ or a message is repeated, whatever the other arguments are. -/
theorem C38_guards_g1pubs (sha : List UInt8 → List UInt8) (sig : G1Pubs.Signature) (pubs : List G1Pubs.PublicKey)
    (msgs : List (List UInt8)) (h : pubs.length ≠ msgs.length ∨ ¬ msgs.Nodup) :
    sig.verifyAggregate sha pubs msgs = some false := by
  rw [G1Pubs.Signature.verifyAggregate]
  rcases h with h | h
  · rw [if_pos (by rwa [bne_iff_ne])]
  · split_ifs with h1 h2
    · rfl
    · rfl
    · refine absurd ?_ h
      rw [Bool.not_eq_true', Bool.not_eq_false, noRepeat_sort] at h2
      exact h2.1

/-- Batches of pairwise different messages are not rejected by the guards if none is empty (that they then verify is
`C39`). Missing for the full claim: it is false with an empty message, see `C38_empty_g1pubs_false`. -/
theorem C38_distinct_g1pubs_partial (sha : List UInt8 → List UInt8) (sig : G1Pubs.Signature)
    (pubs : List G1Pubs.PublicKey) (msgs : List (List UInt8)) (h : pubs.length = msgs.length) (hn : msgs.Nodup)
    (he : [] ∉ msgs) :
    sig.verifyAggregate sha pubs msgs = ((pairing G1Projective.one sig.s).bind fun lhs =>
      (G1Pubs.pairingProduct sha pubs msgs FQ12.one).bind fun rhs => lhs.map fun l => l.equals rhs) := by
  rw [G1Pubs.Signature.verifyAggregate, if_neg (by rw [bne_iff_ne, not_not]; exact h),
    if_neg (by rw [(noRepeat_sort msgs).mpr ⟨hn, he⟩]; decide)]

example : ([[1], [2], [1, 2]] : List (List UInt8)).Nodup ∧ [] ∉ ([[1], [2], [1, 2]] : List (List UInt8)) := by decide

/-- A batch with an empty message is always rejected, also the batch of the one empty message with a signature that
`Verify` accepts. -/
theorem C38_empty_g1pubs_false :
    (∀ (sha : List UInt8 → List UInt8) (sig : G1Pubs.Signature) (pubs : List G1Pubs.PublicKey)
      (msgs : List (List UInt8)), [] ∈ msgs → sig.verifyAggregate sha pubs msgs = some false) ∧
    ∃ (sha : List UInt8 → List UInt8) (sig : G1Pubs.Signature) (pub : G1Pubs.PublicKey),
      G1Pubs.verify sha [] pub sig = some true ∧ sig.verifyAggregate sha [pub] [[]] = some false := by
  have key : ∀ (sha : List UInt8 → List UInt8) (sig : G1Pubs.Signature) (pubs : List G1Pubs.PublicKey)
      (msgs : List (List UInt8)), [] ∈ msgs → sig.verifyAggregate sha pubs msgs = some false := by
    intro sha sig pubs msgs h
    rw [G1Pubs.Signature.verifyAggregate]
    split_ifs with h1 h2
    · rfl
    · rfl
    · rw [Bool.not_eq_true', Bool.not_eq_false, noRepeat_sort] at h2
      exact absurd h h2.2
  refine ⟨key, ?_⟩
  obtain ⟨H, hH⟩ := Cases.case2
  obtain ⟨pub, sig, _, _, h⟩ := C35_complete_g1pubs Cases.sha2 [] H (hH []) ⟨some FR.one⟩ FR.one.int
    ⟨FR.one, rfl, FR.one_rep.isValid, rfl⟩ (by rw [FR.one_rep.int]; decide +kernel)
  exact ⟨_, sig, pub, h, key _ _ _ _ List.mem_cons_self⟩

/-! ## C34: aggregates and infinity -/

/-- `VerifyAggregateCommon` panics if the keys add up to infinity, in particular for no keys, and `VerifyAggregate`
panics if the signature is infinity and the messages pass the checks, in particular for no messages. -/
theorem C34_aggregate_g1pubs_false (sha : List UInt8 → List UInt8) :
    (∀ (m : List UInt8) (H : E2), G1Pubs.HashesTo sha m H → ∀ (pubs : List G1Pubs.PublicKey) (Ps : List E1),
      List.Forall₂ (fun p P => p.p.Denotes P) pubs Ps → Ps.sum = 0 → ∀ (sig : G1Pubs.Signature) (S : E2),
      sig.s.Denotes S → sig.verifyAggregateCommon sha pubs m = none) ∧
    ∀ (sig : G1Pubs.Signature), sig.s.Denotes 0 → ∀ (pubs : List G1Pubs.PublicKey) (msgs : List (List UInt8)),
      pubs.length = msgs.length → msgs.Nodup → [] ∉ msgs → sig.verifyAggregate sha pubs msgs = none := by
  refine ⟨fun m H hm pubs Ps hp h0 sig S hs => ?_, fun sig hs pubs msgs hl hn he => ?_⟩
  · have ha := C29_publicKeys_g1pubs pubs Ps hp
    rw [h0] at ha
    obtain ⟨h, hh, hd, _⟩ := hm
    have hd := (G2Affine.denotes_iff.mp hd).toProjective
    have h4 := G1Projective.denotes_iff.mp ha
    have hs := G2Projective.denotes_iff.mp hs
    rw [G1Pubs.Signature.verifyAggregateCommon, G1Pubs.verify, hh, Option.bind_some]
    exact compareTwoPairings_none G1Affine.one_rep.toProjective hs h4 hd (Or.inr (Or.inl rfl))
  · rw [C38_distinct_g1pubs_partial sha sig pubs msgs hl hn he]
    exact G1Pubs.final_none (G2Projective.denotes_iff.mp hs)


/-! ## C39: VerifyAggregate is exact -/

/-- For pairwise different non-empty messages `mᵢ` with hash points `Hᵢ` and keys `kᵢ·G` other than infinity,
`VerifyAggregate` is true exactly for the sum of the `kᵢ·Hᵢ`, the points `Sign` computes. -/
theorem C39_exact_g1pubs (sha : List UInt8 → List UInt8) (batch : List (G1Pubs.PublicKey × List UInt8 × ℕ × E2))
    (h : ∀ b ∈ batch, b.1.p.Denotes (b.2.2.1 • g1Gen) ∧ ¬ r ∣ b.2.2.1 ∧ G1Pubs.HashesTo sha b.2.1 b.2.2.2)
    (hn : (batch.map fun b => b.2.1).Nodup) (he : [] ∉ batch.map fun b => b.2.1) (sig : G1Pubs.Signature) (S : E2)
    (hs : sig.s.Denotes S) (hr : r • S = 0) (hS : S ≠ 0) :
    ∃ c, sig.verifyAggregate sha (batch.map fun b => b.1) (batch.map fun b => b.2.1) = some c ∧
      (c = true ↔ S = (batch.map fun b => b.2.2.1 • b.2.2.2).sum) := by
  have key : G1Pubs.Entries (G1Pubs.HashesTo sha) (batch.map fun b => b.1) (batch.map fun b => b.2.1)
      (batch.map fun b => b.2.2) := by
    clear hn he
    induction batch with
    | nil => exact .nil
    | cons b l ih =>
      obtain ⟨h1, h2, h3⟩ := h b List.mem_cons_self
      refine .cons ⟨G1Projective.denotes_iff.mp h1, fun e => h2 ?_, h3⟩ (ih fun x hx => h x (List.mem_cons_of_mem _ hx))
      have := addOrderOf_dvd_of_nsmul_eq_zero e
      rwa [addOrderOf_g1Gen] at this
  obtain ⟨c, h1, h2⟩ := G1Pubs.verifyAggregate_spec key (G2Projective.denotes_iff.mp hs) hr hS hn he
  refine ⟨c, h1, ?_⟩
  rw [h2, G1Pubs.total, List.map_map]; rfl

/-- The hypotheses are met by a batch of two messages. -/
example : ∃ (sha : List UInt8 → List UInt8) (batch : List (G1Pubs.PublicKey × List UInt8 × ℕ × E2)),
    batch.length = 2 ∧ (∀ b ∈ batch, b.1.p.Denotes (b.2.2.1 • g1Gen) ∧ ¬ r ∣ b.2.2.1 ∧
      G1Pubs.HashesTo sha b.2.1 b.2.2.2) ∧ (batch.map fun b => b.2.1).Nodup ∧ [] ∉ (batch.map fun b => b.2.1) ∧
    (batch.map fun b => b.2.2.1 • b.2.2.2).sum ≠ 0 ∧ r • (batch.map fun b => b.2.2.1 • b.2.2.2).sum = 0 := by
  obtain ⟨H, hH⟩ := Cases.case2
  obtain ⟨_, _, _, H0, Hr⟩ := id (hH [])
  have hr1 : ¬ r ∣ 1 := fun h => r_prime.one_lt.ne' (Nat.dvd_one.mp h)
  have hp : (G1Affine.one.toProjective).Denotes (1 • g1Gen) := by
    rw [one_nsmul]; exact G1Projective.denotes_iff.mpr G1Affine.one_rep.toProjective
  refine ⟨Cases.sha2, [(⟨G1Affine.one.toProjective⟩, [1], 1, H), (⟨G1Affine.one.toProjective⟩, [2], 1, H)], rfl, ?_,
    by simp, by simp, ?_, ?_⟩
  · exact forall_pair ⟨hp, hr1, hH _⟩ ⟨hp, hr1, hH _⟩
  · have e : ([(⟨G1Affine.one.toProjective⟩, [1], 1, H), (⟨G1Affine.one.toProjective⟩, [2], 1, H)].map
      fun b : G1Pubs.PublicKey × List UInt8 × ℕ × E2 => b.2.2.1 • b.2.2.2).sum = 2 • H := by simp [two_nsmul]
    rw [e]
    exact G1Pubs.nsmul_ne_of_lt H0 Hr (by norm_num) (by rw [r_eq]; decide +kernel)
  · have e : ([(⟨G1Affine.one.toProjective⟩, [1], 1, H), (⟨G1Affine.one.toProjective⟩, [2], 1, H)].map
      fun b : G1Pubs.PublicKey × List UInt8 × ℕ × E2 => b.2.2.1 • b.2.2.2).sum = 2 • H := by simp [two_nsmul]
    rw [e]
    exact G1Pubs.torsion_nsmul Hr 2

/-! ## C49: keys are homomorphic -/

/-- The public key and the signature of the sum of two secret scalars are the aggregates. -/
theorem C49_add_g1pubs (sha : List UInt8 → List UInt8) (m : List UInt8) (H : E2) (hm : G1Pubs.HashesTo sha m H)
    (f g : FR) (hf : f.isValid) (hg : g.isValid) :
    ∃ p p₁ p₂ s s₁ s₂, G1Pubs.privToPub ⟨some (f.add g)⟩ = some p ∧ G1Pubs.privToPub ⟨some f⟩ = some p₁ ∧
      G1Pubs.privToPub ⟨some g⟩ = some p₂ ∧ p.equals (p₁.aggregate p₂) = true ∧
      p.serialize = (p₁.aggregate p₂).serialize ∧
      G1Pubs.sign sha m ⟨some (f.add g)⟩ = some s ∧ G1Pubs.sign sha m ⟨some f⟩ = some s₁ ∧
      G1Pubs.sign sha m ⟨some g⟩ = some s₂ ∧ s.serialize = (s₁.aggregate s₂).serialize := by
  have hfg := (FR.rep_int hf).add (FR.rep_int hg)
  have hi : (f.add g).int = (f.int + g.int) % r := by
    rw [← Nat.cast_add] at hfg
    exact hfg.int_eq
  have k : (⟨some (f.add g)⟩ : G1Pubs.SecretKey).Holds _ := ⟨_, rfl, hfg.isValid, hi⟩
  have k₁ : (⟨some f⟩ : G1Pubs.SecretKey).Holds _ := ⟨_, rfl, hf, rfl⟩
  have k₂ : (⟨some g⟩ : G1Pubs.SecretKey).Holds _ := ⟨_, rfl, hg, rfl⟩
  obtain ⟨_, _, _, _, hH⟩ := id hm
  obtain ⟨p, a, b⟩ := k.toPub
  obtain ⟨p₁, a₁, b₁⟩ := k₁.toPub
  obtain ⟨p₂, a₂, b₂⟩ := k₂.toPub
  obtain ⟨s, c, d⟩ := k.sign hm
  obtain ⟨s₁, c₁, d₁⟩ := k₁.sign hm
  obtain ⟨s₂, c₂, d₂⟩ := k₂.sign hm
  rw [← nsmul_mod_r r_smul_g1Gen, add_nsmul] at b
  rw [← nsmul_mod_r hH, add_nsmul] at d
  refine ⟨p, p₁, p₂, s, s₁, s₂, a, a₁, a₂, (b.equal (b₁.add b₂)).mpr rfl, ?_, c, c₁, c₂, ?_⟩
  · rw [G1Pubs.PublicKey.serialize, G1Pubs.PublicKey.serialize, G1Pubs.PublicKey.aggregate,
      b.toAffine.inj (b₁.add b₂).toAffine]
  · rw [G1Pubs.Signature.serialize, G1Pubs.Signature.serialize, G1Pubs.Signature.aggregate,
      d.toAffine.inj (d₁.add d₂).toAffine]

/-- Equal public keys have equal secret scalars. -/
theorem C49_injective_g1pubs (sk sk' : G1Pubs.SecretKey) (k k' : ℕ) (h : sk.Holds k) (h' : sk'.Holds k')
    (p p' : G1Pubs.PublicKey) (hp : G1Pubs.privToPub sk = some p) (hp' : G1Pubs.privToPub sk' = some p') :
    p.equals p' = true ↔ k = k' := by
  obtain ⟨_, a, b⟩ := h.toPub
  obtain ⟨_, a', b'⟩ := h'.toPub
  rw [hp, Option.some_inj] at a
  rw [hp', Option.some_inj] at a'
  subst a a'
  rw [G1Pubs.PublicKey.equals, b.equal b']
  exact ⟨fun e => G1Pubs.nsmul_inj_of_lt g1Gen_ne_zero r_smul_g1Gen h.lt h'.lt e, fun e => by rw [e]⟩

example : ∃ (sha : List UInt8 → List UInt8) (H : E2), G1Pubs.HashesTo sha [7] H ∧ FR.one.isValid = true := by
  obtain ⟨H, hH⟩ := Cases.case2
  exact ⟨_, H, hH _, FR.one_rep.isValid⟩

/-! ## The variants with a domain of C37, C38 and C39 -/

/-- `VerifyAggregateCommonWithDomain` accepts exactly the sum of the signatures. -/
theorem C37_commonDomain_g1pubs (sha : List UInt8 → List UInt8) (m d : List UInt8) (H : E2)
    (hm : G1Pubs.HashesToIn sha d m H) (pubs : List G1Pubs.PublicKey) (ks : List ℕ)
    (hp : List.Forall₂ (fun p k => p.p.Denotes (k • g1Gen)) pubs ks) (h0 : ¬ r ∣ ks.sum) (sig : G1Pubs.Signature)
    (S : E2) (hs : sig.s.Denotes S) (hr : r • S = 0) :
    sig.verifyAggregateCommonWithDomain sha pubs m d = some true ↔ S = (ks.map fun k => k • H).sum := by
  have ha := G1Pubs.aggregatePublicKeys_spec (forall₂_map (fun _ _ h => G1Projective.denotes_iff.mp h) hp)
  rw [← sum_nsmul_eq] at ha
  rw [← sum_nsmul_eq]
  exact (C36_domain_g1pubs sha m d H hm _ h0 _ (G1Projective.denotes_iff.mpr ha) sig S hs hr).1

/-- `VerifyAggregateWithDomain` is false if the numbers differ. -/
theorem C38_lengthDomain_g1pubs (sha : List UInt8 → List UInt8) (sig : G1Pubs.Signature)
    (pubs : List G1Pubs.PublicKey) (msgs : List (List UInt8)) (d : List UInt8) (h : pubs.length ≠ msgs.length) :
    sig.verifyAggregateWithDomain sha pubs msgs d = some false := by
  rw [G1Pubs.Signature.verifyAggregateWithDomain, if_pos (by rwa [bne_iff_ne])]

/-- It is true exactly for the sum of the `kᵢ·Hᵢ`; the messages need not be different. -/
theorem C39_domain_g1pubs (sha : List UInt8 → List UInt8) (d : List UInt8)
    (batch : List (G1Pubs.PublicKey × List UInt8 × ℕ × E2))
    (h : ∀ b ∈ batch, b.1.p.Denotes (b.2.2.1 • g1Gen) ∧ ¬ r ∣ b.2.2.1 ∧ G1Pubs.HashesToIn sha d b.2.1 b.2.2.2)
    (sig : G1Pubs.Signature) (S : E2) (hs : sig.s.Denotes S) (hr : r • S = 0) (hS : S ≠ 0) :
    ∃ c, sig.verifyAggregateWithDomain sha (batch.map fun b => b.1) (batch.map fun b => b.2.1) d = some c ∧
      (c = true ↔ S = (batch.map fun b => b.2.2.1 • b.2.2.2).sum) := by
  have key : G1Pubs.Entries (G1Pubs.HashesToIn sha d) (batch.map fun b => b.1) (batch.map fun b => b.2.1)
      (batch.map fun b => b.2.2) := by
    induction batch with
    | nil => exact .nil
    | cons b l ih =>
      obtain ⟨h1, h2, h3⟩ := h b List.mem_cons_self
      refine .cons ⟨G1Projective.denotes_iff.mp h1, fun e => h2 ?_, h3⟩ (ih fun x hx => h x (List.mem_cons_of_mem _ hx))
      have := addOrderOf_dvd_of_nsmul_eq_zero e
      rwa [addOrderOf_g1Gen] at this
  obtain ⟨c, h1, h2⟩ := G1Pubs.verifyAggregateWithDomain_spec key (G2Projective.denotes_iff.mp hs) hr hS
  refine ⟨c, h1, ?_⟩
  rw [h2, G1Pubs.total, List.map_map]; rfl

/-- So it accepts a batch with a repeated message, unlike `VerifyAggregate`. -/
theorem C38_repeatDomain_g1pubs_false : ∃ (sha : List UInt8 → List UInt8) (sig : G1Pubs.Signature)
    (pub : G1Pubs.PublicKey) (m d : List UInt8), sig.verifyAggregateWithDomain sha [pub, pub] [m, m] d = some true := by
  obtain ⟨H, hH⟩ := Cases.case3 [1] [2]
  obtain ⟨_, _, _, H0, Hr⟩ := id hH
  have hr1 : ¬ r ∣ 1 := fun h => r_prime.one_lt.ne' (Nat.dvd_one.mp h)
  have hp : (G1Affine.one.toProjective).Denotes (1 • g1Gen) := by
    rw [one_nsmul]; exact G1Projective.denotes_iff.mpr G1Affine.one_rep.toProjective
  obtain ⟨s, _, hs⟩ := G1Pubs.SecretKey.Holds.signIn ⟨FR.one, rfl, FR.one_rep.isValid, rfl⟩ hH
  have h1 : FR.one.int = 1 := by rw [FR.one_rep.int]; decide +kernel
  rw [h1, one_nsmul] at hs
  have hg := hs.add hs
  rw [← two_nsmul] at hg
  have hb : (⟨G1Affine.one.toProjective⟩ : G1Pubs.PublicKey).p.Denotes (1 • g1Gen) ∧ ¬ r ∣ 1 ∧
      G1Pubs.HashesToIn Cases.sha3 [2] [1] H := ⟨hp, hr1, hH⟩
  obtain ⟨c, h1, h2⟩ := C39_domain_g1pubs Cases.sha3 [2]
    [(⟨G1Affine.one.toProjective⟩, [1], 1, H), (⟨G1Affine.one.toProjective⟩, [1], 1, H)] (forall_pair hb hb) ⟨_⟩ (2 • H)
    (G2Projective.denotes_iff.mpr hg) (G1Pubs.torsion_nsmul Hr 2)
    (G1Pubs.nsmul_ne_of_lt H0 Hr (by norm_num) (by rw [r_eq]; decide +kernel))
  have hc : c = true := h2.mpr (by simp [two_nsmul])
  exact ⟨_, _, _, _, _, h1.trans (congrArg some hc)⟩

/-! ## C38: the sorting of the messages -/

/-- The duplicate check does not depend on the sorting algorithm: any rearrangement of the messages in which no message
is smaller than an earlier one is the one computed. -/
theorem C38_sort_determined (l l' : List (List UInt8)) (hp : l'.Perm l)
    (hs : l'.Pairwise fun a b => bytesCompare b a ≠ -1) : l' = sortByteArrays l :=
  sortByteArrays_unique hp (hs.imp fun h => by
    unfold bytesLE bytesLess; rwa [beq_eq_false_iff_ne])

/-- The comparison is the lexicographic order of byte strings. -/
theorem C38_compare (a b : List UInt8) : bytesCompare a b = -1 ↔ List.Lex (· < ·) a b := bytesCompare_lex a b

end Bls.Props
