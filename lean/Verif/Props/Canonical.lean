import Verif.Props.Encoding
import Verif.Props.Hash
import Verif.Props.PanicBytes
/-
C27, for `DecompressG2`: which accepted strings are not the encoding of the point they give. A coefficient of x that is
not below q is read as 0, so this is a question about points of the subgroup whose x has a zero coefficient. Then C36 on
strings: a signature has one accepted encoding.
-/
namespace Bls.Props
open G2Affine

/-- If an accepted string is not the encoding of its point, a coefficient of x is 0. -/
theorem C27_g2_point (b : List UInt8) (hl : b.length = 96) (a : G2Affine) (h : G2Affine.decompress b = some a)
    (x y : Fq2) (P : E2) (hd : a.Denotes P) (hP : IsAt P x y) (hx : x.c0 ≠ 0 ∧ x.c1 ≠ 0) : a.compress = b := by
  obtain ⟨b0, s, t, rfl, hs, ht⟩ := split96 hl
  have es : (b0 :: (s ++ t)).take 48 = b0 :: s := by simp [← hs]
  have et : (b0 :: (s ++ t)).drop 48 = t := by simp [← hs]
  have hl' : ((b0 &&& 0x1f) :: s).length = 48 := by rw [List.length_cons, hs]
  obtain ⟨h1, ⟨_, _, rfl⟩ | ⟨h2, h'⟩⟩ := (decompressUnchecked_spec hs ht).mp (decompress_iff.mp h).1
  · rcases hd with ⟨_, rfl⟩ | ⟨h', _⟩
    · exact absurd rfl hP.ne_zero
    · cases h'
  obtain ⟨X, hX⟩ := ofRepr_exists2 (.fromBytes t) (.fromBytes ((b0 &&& 0x1f) :: s))
  obtain ⟨e1, e2, _⟩ := getPointFromX_some hX h'
  have hxX : X = x := by
    rcases G2Affine.denotes_iff.mp hd with ⟨rfl, _⟩ | ⟨_, x', y', hx', hy', hP'⟩
    · cases e2
    · rw [e1] at hx'
      rw [hX.fn hx']
      exact (hP'.coord hP).1
  subst hxX
  refine C27_g2_partial _ hl a h ?_ ?_
  · rw [es, ← beNat_mask b0 hs, ← FQRepr.fromBytes_toNat hl']
    by_contra hn
    exact hx.2 (hX.c1.fn (FQ.ofRepr_of_le (not_lt.mp hn)))
  · rw [et, ← FQRepr.fromBytes_toNat ht]
    by_contra hn
    exact hx.1 (hX.c0.fn (FQ.ofRepr_of_le (not_lt.mp hn)))

/-- 48 bytes of the number q, which is read as 0. -/
theorem qBytes_read : (0x1a :: qBytes.tail).length = 48 ∧ FQ.ofRepr (.fromBytes (0x1a :: qBytes.tail)) = FQ.zero ∧
    beNat (0x1a :: qBytes.tail) = q := by
  refine ⟨by decide +kernel, by decide +kernel, ?_⟩
  rw [q_eq]
  decide +kernel

theorem inf_canonical {b : List UInt8} (hl : b.length = 96) (h : G2Affine.decompressUnchecked b = some G2Affine.zero) :
    G2Affine.zero.compress = b := by
  obtain ⟨b0, s, t, rfl, hs, ht⟩ := split96 hl
  obtain ⟨_, ⟨rfl, h2, _⟩ | ⟨_, h'⟩⟩ := (decompressUnchecked_spec hs ht).mp h
  · rw [compress_zero]
    have hs' := List.eq_replicate_of_mem (a := (0 : UInt8)) (l := s) (fun x hx => h2 x (List.mem_append_left _ hx))
    have ht' := List.eq_replicate_of_mem (a := (0 : UInt8)) (l := t) (fun x hx => h2 x (List.mem_append_right _ hx))
    rw [hs', ht', hs, ht]
  · obtain ⟨X, hX⟩ := ofRepr_exists2 (.fromBytes t) (.fromBytes ((b0 &&& 0x1f) :: s))
    obtain ⟨_, e2, _⟩ := getPointFromX_some hX h'
    cases e2

/-- `ψ` exchanges the points whose x is in Fq and those whose x is in u·Fq. -/
theorem psi_swap {P : E2} {x y : Fq2} (h : IsAt P x y) (hx : x.c0 = 0) :
    ∃ x' y', IsAt (psi.hom P) x' y' ∧ x'.c1 = 0 := by
  refine ⟨(gam ^ 2)⁻¹ * Fq2.conj x, (gam ^ 3)⁻¹ * Fq2.conj y, psi.hom_at h, ?_⟩
  have h0 : (gam ^ 2).c0 = 0 := by
    rw [pow_two, gam, ← N2.toF_mul, show N2.mul gammaN gammaN = ⟨0, (N2.mul gammaN gammaN).im⟩ by decide +kernel]
    exact Nat.cast_zero
  have hne : gam ^ 2 ≠ 0 := pow_ne_zero _ gam_ne
  generalize gam ^ 2 = g at h0 hne
  set w := g⁻¹ * Fq2.conj x with hw
  have e : g * w = Fq2.conj x := by rw [hw, mul_inv_cancel_left₀ hne]
  have e0 := congrArg Fq2.c0 e
  have hg : g.c1 ≠ 0 := fun h1 => hne (Fq2.ext h0 h1)
  rw [Fq2.mul_c0, h0, Fq2.conj_c0, hx, zero_mul, zero_add, neg_one_mul, neg_eq_zero, mul_eq_zero] at e0
  exact e0.resolve_left hg

/-- So `DecompressG2` accepts some string that is not the encoding of its point exactly if there is a point of order r
whose x is in Fq. (Whether there is one is not known: there are about 2^381 candidates, and one in 2^507 points of the
curve is in the subgroup.) -/
theorem C27_g2_exact : (∃ (b : List UInt8) (a : G2Affine), b.length = 96 ∧ G2Affine.decompress b = some a ∧
    a.compress ≠ b) ↔ ∃ (P : E2) (x y : Fq2), r • P = 0 ∧ IsAt P x y ∧ x.c1 = 0 := by
  constructor
  · rintro ⟨b, a, hl, h, hne⟩
    obtain ⟨P, hd, hr⟩ := (C26_g2 b hl a).2 h
    have hd' := G2Affine.denotes_iff.mp hd
    rcases hd' with ⟨rfl, _⟩ | ⟨_, x, y, hx, hy, hP⟩
    · exact absurd ((inf_canonical hl (decompress_iff.mp h).1)) hne
    · by_cases h0 : x.c0 = 0
      · obtain ⟨x', y', h1, h2⟩ := psi_swap hP h0
        exact ⟨_, x', y', by rw [← map_nsmul, hr, map_zero], h1, h2⟩
      · by_cases h1 : x.c1 = 0
        · exact ⟨P, x, y, hr, hP, h1⟩
        · exact absurd (C27_g2_point b hl a h x y P hd hP ⟨h0, h1⟩) hne
  · rintro ⟨P, x, y, hr, hP, hx⟩
    obtain ⟨a, ha⟩ := G2Affine.exists_rep P
    have ha' := ha
    rcases ha with ⟨_, rfl⟩ | ⟨hi, x', y', hx', hy', hP'⟩
    · exact absurd rfl hP.ne_zero
    obtain ⟨rfl, rfl⟩ := hP'.coord hP
    have e1 : a.x.c1 = FQ.zero := (hx ▸ hx'.c1 : a.x.c1.Rep 0).inj FQ.zero_rep
    obtain ⟨k1, k2, _⟩ := qBytes_read
    obtain ⟨j1, j2, j3, j4⟩ := byte_enc (decide (a.y.cmp a.y.neg > 0)) 0x1a (by decide)
    have hb : a.x.c1.toRepr.bytes = 0 :: List.replicate 47 0 := by rw [e1]; decide +kernel
    refine ⟨((if decide (a.y.cmp a.y.neg > 0) = true then 0x1a ||| 0x20 else 0x1a) ||| 0x80) ::
      (qBytes.tail ++ a.x.c0.toRepr.bytes), a, ?_, decompress_iff.mpr ⟨?_, ha'.isInCorrectSubgroup.mpr hr⟩, ?_⟩
    · rw [List.length_cons, List.length_append, FQRepr.bytes_length, Nat.succ.inj k1]
    · rw [decompressUnchecked_spec (Nat.succ.inj k1) (FQRepr.bytes_length _)]
      refine ⟨j1, Or.inr ⟨j2, ?_⟩⟩
      rw [j3, j4, k2, FQRepr.fromBytes_bytes, hx'.c0.ofRepr_toRepr, ← e1]
      exact ha'.getPointFromX hP.ne_zero
    · rw [compress_finite hi hb]
      intro e
      have e' := (List.append_inj (List.cons.inj e).2 (by rw [List.length_replicate, Nat.succ.inj k1])).1
      exact absurd e' (by decide +kernel)

/-- A point with x = 0 has order 3. -/
theorem x_zero {P : E2} {y : Fq2} (h : IsAt P 0 y) : r • P ≠ 0 := by
  intro hr
  have y0 : 2 * y ≠ 0 := by
    refine mul_ne_zero (GoodCurve.two_ne (b := b2)) ?_
    rintro rfl; exact E2.y_ne_zero h.on
  have hd : IsAt (P + P) 0 (-y) := h.add_self (l := 0) h y0 (by ring) (by ring) (by ring)
  have h3 : 3 • P = 0 := by
    rw [show 3 • P = P + (P + P) by abel]
    exact h.add_neg hd
  have hc : Nat.Coprime r 3 := by rw [r]; decide +kernel
  have := Nat.eq_one_of_dvd_coprimes hc ((addOrderOf_dvd_iff_nsmul_eq_zero).mpr hr)
    ((addOrderOf_dvd_iff_nsmul_eq_zero).mpr h3)
  exact h.ne_zero (AddMonoid.addOrderOf_eq_one_iff.mp this)

/-- At least one of the two numbers in an accepted string is below q. -/
theorem C27_g2_one (b : List UInt8) (hl : b.length = 96) (a : G2Affine) (h : G2Affine.decompress b = some a) :
    beNat (b.take 48) % 2 ^ 381 < q ∨ beNat (b.drop 48) < q := by
  by_contra hn
  rw [not_or, not_lt, not_lt] at hn
  obtain ⟨P, hd, hr⟩ := (C26_g2 b hl a).2 h
  obtain ⟨b0, s, t, rfl, hs, ht⟩ := split96 hl
  have es : (b0 :: (s ++ t)).take 48 = b0 :: s := by simp [← hs]
  have et : (b0 :: (s ++ t)).drop 48 = t := by simp [← hs]
  have hl' : ((b0 &&& 0x1f) :: s).length = 48 := by rw [List.length_cons, hs]
  rw [es, et, ← beNat_mask b0 hs, ← FQRepr.fromBytes_toNat hl', ← FQRepr.fromBytes_toNat ht] at hn
  obtain ⟨h1, ⟨rfl, h2, _⟩ | ⟨h2, h'⟩⟩ := (decompressUnchecked_spec hs ht).mp (decompress_iff.mp h).1
  · have ht' := List.eq_replicate_of_mem (a := (0 : UInt8)) (l := t) (fun x hx => h2 x (List.mem_append_right _ hx))
    rw [ht', ht, q_eq] at hn
    exact absurd hn.2 (by decide +kernel)
  · have hX : (⟨FQ.ofRepr (.fromBytes t), FQ.ofRepr (.fromBytes ((b0 &&& 0x1f) :: s))⟩ : FQ2).Rep 0 :=
      ⟨FQ.ofRepr_of_le hn.2, FQ.ofRepr_of_le hn.1⟩
    obtain ⟨e1, e2, _⟩ := getPointFromX_some hX h'
    rcases G2Affine.denotes_iff.mp hd with ⟨rfl, _⟩ | ⟨_, x, y, hx, hy, hP⟩
    · cases e2
    · rw [e1] at hx
      rw [← hX.fn hx] at hP
      exact x_zero hP hr

/-! ## C36: on strings -/

/-- For g2pubs a message has one signature string under a key: two accepted strings that verify are the same. -/
theorem C36_bytes_g2pubs (sha : List UInt8 → List UInt8) (m : List UInt8) (H : E1) (hm : G2Pubs.HashesTo sha m H)
    (bp bs bs' : List UInt8) (hbp : bp.length = 96) (hbs : bs.length = 48) (hbs' : bs'.length = 48)
    (pub : G2Pubs.PublicKey) (sig sig' : G2Pubs.Signature) (hp : G2Pubs.deserializePublicKey bp = some pub)
    (hs : G2Pubs.deserializeSignature bs = some sig) (hs' : G2Pubs.deserializeSignature bs' = some sig')
    (hv : G2Pubs.verify sha m pub sig = some true) (hv' : G2Pubs.verify sha m pub sig' = some true) : bs = bs' := by
  obtain ⟨k, hk, hd⟩ := C26_publicKey_g2pubs bp hbp pub hp
  have hk0 : k • g2Gen ≠ 0 := by
    obtain ⟨S, hS, _⟩ := C26_signature_g2pubs bs hbs sig hs
    obtain ⟨h, hh, hhd, _⟩ := id hm
    intro h0
    have := (C64_verify_g2pubs sha m h H hh hhd pub _ hd sig S hS).mpr
      (.inr (.inr (by rw [h0, nsmul_zero])))
    rw [this] at hv
    cases hv
  have key : ∀ (b : List UInt8) (g : G2Pubs.Signature), b.length = 48 → G2Pubs.deserializeSignature b = some g →
      G2Pubs.verify sha m pub g = some true → ∃ a : G1Affine, a.Rep (k • H) ∧ a.compress = b := by
    intro b g hl hg hv
    obtain ⟨a, ha, rfl⟩ := Option.map_eq_some_iff.mp hg
    obtain ⟨S, hS, hr⟩ := (C26_g1 b hl a).2 ha
    have hS := G1Affine.denotes_iff.mp hS
    have e := (G2Pubs.verify_spec (sig := ⟨a.toProjective⟩) hm (G2Projective.denotes_iff.mp hd) hk0 hS.toProjective
      hr).1.mp hv
    exact ⟨a, e ▸ hS, C27_g1 b hl a ha⟩
  obtain ⟨a, ha, rfl⟩ := key bs sig hbs hs hv
  obtain ⟨a', ha', rfl⟩ := key bs' sig' hbs' hs' hv'
  rw [ha.inj ha']

/-- For g1pubs the same, for signatures whose x coordinate has no zero coefficient (C27_g2_exact). -/
theorem C36_bytes_g1pubs (sha : List UInt8 → List UInt8) (m : List UInt8) (H : E2) (hm : G1Pubs.HashesTo sha m H)
    (bp bs bs' : List UInt8) (hbp : bp.length = 48) (hbs : bs.length = 96) (hbs' : bs'.length = 96)
    (pub : G1Pubs.PublicKey) (sig sig' : G1Pubs.Signature) (hp : G1Pubs.deserializePublicKey bp = some pub)
    (hs : G1Pubs.deserializeSignature bs = some sig) (hs' : G1Pubs.deserializeSignature bs' = some sig')
    (hv : G1Pubs.verify sha m pub sig = some true) (hv' : G1Pubs.verify sha m pub sig' = some true)
    (hx : ∀ (S : E2) (x y : Fq2), sig.s.Denotes S → IsAt S x y → x.c0 ≠ 0 ∧ x.c1 ≠ 0) : bs = bs' := by
  obtain ⟨k, hk, hd⟩ := C26_publicKey_g1pubs bp hbp pub hp
  obtain ⟨h, hh, hhd, _, hHr⟩ := id hm
  obtain ⟨S, hS, hSr⟩ := C26_signature_g1pubs bs hbs sig hs
  have hk0 : k • g1Gen ≠ 0 := by
    intro h0
    have := (C64_verify_g1pubs sha m h H hh hhd hHr pub _ hd sig S hS).mpr (.inl h0)
    rw [this] at hv
    cases hv
  have hS0 : S ≠ 0 := by
    intro h0
    have := (C64_verify_g1pubs sha m h H hh hhd hHr pub _ hd sig S hS).mpr
      (.inr (.inl (by rw [h0, nsmul_zero])))
    rw [this] at hv
    cases hv
  have eS : S = k • H := (G1Pubs.verify_spec hm (G1Projective.denotes_iff.mp hd) hk0 (G2Projective.denotes_iff.mp hS)
      hSr).1.mp hv
  have key : ∀ (b : List UInt8) (g : G1Pubs.Signature), b.length = 96 → G1Pubs.deserializeSignature b = some g →
      G1Pubs.verify sha m pub g = some true → ∃ a : G2Affine, a.Rep S ∧ a.compress = b := by
    intro b g hl hg hv
    obtain ⟨a, ha, rfl⟩ := Option.map_eq_some_iff.mp hg
    obtain ⟨S', hS', hr⟩ := (C26_g2 b hl a).2 ha
    have hS'' := G2Affine.denotes_iff.mp hS'
    have e := (G1Pubs.verify_spec (sig := ⟨a.toProjective⟩) hm (G1Projective.denotes_iff.mp hd) hk0 hS''.toProjective
      hr).1.mp hv
    rw [← eS] at e
    subst e
    refine ⟨a, hS'', ?_⟩
    rcases id hS'' with ⟨_, rfl⟩ | ⟨_, x, y, _, _, hP⟩
    · exact absurd rfl hS0
    · exact C27_g2_point b hl a ha x y _ hS' hP (hx _ x y hS hP)
  obtain ⟨a, ha, rfl⟩ := key bs sig hbs hs hv
  obtain ⟨a', ha', rfl⟩ := key bs' sig' hbs' hs' hv'
  rw [ha.inj ha']

/-- Completeness with everything sent as bytes: a secret key read from 32 bytes, the public key and the signature
serialized and read back. -/
theorem C35_wire_g1pubs (sha : List UInt8 → List UInt8) (m : List UInt8) (H : E2) (hm : G1Pubs.HashesTo sha m H)
    (b : List UInt8) (hl : b.length = 32) (h0 : 0 < beNat b) (hr : beNat b < r) :
    ∃ pub sig pub' sig', G1Pubs.privToPub (G1Pubs.deserializeSecretKey b) = some pub ∧
      G1Pubs.sign sha m (G1Pubs.deserializeSecretKey b) = some sig ∧
      pub.serialize.length = 48 ∧ sig.serialize.length = 96 ∧
      G1Pubs.deserializePublicKey pub.serialize = some pub' ∧ G1Pubs.deserializeSignature sig.serialize = some sig' ∧
      G1Pubs.verify sha m pub' sig' = some true := by
  obtain ⟨hk, _⟩ := (C13_deserialize_g1pubs b hl).2.1 hr
  obtain ⟨pub, h1, h2⟩ := hk.toPub
  obtain ⟨sig, h3, h4⟩ := hk.sign hm
  obtain ⟨_, _, _, H0, hH⟩ := id hm
  have hkg := G1Pubs.nsmul_ne_of_lt g1Gen_ne_zero r_smul_g1Gen h0.ne' hk.lt
  have tH := G1Pubs.torsion_nsmul hH (beNat b)
  obtain ⟨l1, pub', h5, h6⟩ := C25_publicKey_g1pubs pub _ (G1Projective.denotes_iff.mpr h2)
    (G1Pubs.torsion_nsmul r_smul_g1Gen _)
  obtain ⟨l2, sig', h7, h8⟩ := C25_signature_g1pubs sig _ (G2Projective.denotes_iff.mpr h4) tH
  exact ⟨pub, sig, pub', sig', h1, h3, l1, l2, h5, h7, (G1Pubs.verify_spec hm (G1Projective.denotes_iff.mp h6) hkg
    (G2Projective.denotes_iff.mp h8) tH).1.mpr rfl⟩

/-- Completeness with everything sent as bytes: a secret key read from 32 bytes, the public key and the signature
serialized and read back. -/
theorem C35_wire_g2pubs (sha : List UInt8 → List UInt8) (m : List UInt8) (H : E1) (hm : G2Pubs.HashesTo sha m H)
    (b : List UInt8) (hl : b.length = 32) (h0 : 0 < beNat b) (hr : beNat b < r) :
    ∃ pub sig pub' sig', G2Pubs.privToPub (G2Pubs.deserializeSecretKey b) = some pub ∧
      G2Pubs.sign sha m (G2Pubs.deserializeSecretKey b) = some sig ∧
      pub.serialize.length = 96 ∧ sig.serialize.length = 48 ∧
      G2Pubs.deserializePublicKey pub.serialize = some pub' ∧ G2Pubs.deserializeSignature sig.serialize = some sig' ∧
      G2Pubs.verify sha m pub' sig' = some true := by
  obtain ⟨hk, _⟩ := (C13_deserialize_g2pubs b hl).2.1 hr
  obtain ⟨pub, h1, h2⟩ := hk.toPub
  obtain ⟨sig, h3, h4⟩ := hk.sign hm
  obtain ⟨_, _, _, H0, hH⟩ := id hm
  have hkg := G1Pubs.nsmul_ne_of_lt g2Gen_ne_zero r_smul_g2Gen h0.ne' hk.lt
  have tH := G1Pubs.torsion_nsmul hH (beNat b)
  obtain ⟨l1, pub', h5, h6⟩ := C25_publicKey_g2pubs pub _ (G2Projective.denotes_iff.mpr h2)
    (G1Pubs.torsion_nsmul r_smul_g2Gen _)
  obtain ⟨l2, sig', h7, h8⟩ := C25_signature_g2pubs sig _ (G1Projective.denotes_iff.mpr h4) tH
  exact ⟨pub, sig, pub', sig', h1, h3, l1, l2, h5, h7, (G2Pubs.verify_spec hm (G2Projective.denotes_iff.mp h6) hkg
    (G1Projective.denotes_iff.mp h8) tH).1.mpr rfl⟩

/-- The hypotheses of C27_g2_point are met by the generator. -/
theorem canonical_gen : ∃ x y : Fq2, G2Affine.one.Denotes g2Gen ∧ IsAt g2Gen x y ∧ x.c0 ≠ 0 ∧ x.c1 ≠ 0 := by
  rcases id G2Affine.one_rep with ⟨_, h⟩ | ⟨_, x, y, hx, _, hP⟩
  · exact absurd h g2Gen_ne_zero
  refine ⟨x, y, G2Affine.denotes_iff.mpr G2Affine.one_rep, hP, fun h => ?_, fun h => ?_⟩
  · have : G2Affine.one.x.c0 = FQ.zero := (h ▸ hx.c0 : FQ.Rep _ 0).inj FQ.zero_rep
    revert this; decide +kernel
  · have : G2Affine.one.x.c1 = FQ.zero := (h ▸ hx.c1 : FQ.Rep _ 0).inj FQ.zero_rep
    revert this; decide +kernel

/-- The hypotheses of C36_bytes_g1pubs are met, with a signature made by `Sign`. -/
example : ∃ (sha : List UInt8 → List UInt8) (H : E2), ∀ m, G1Pubs.HashesTo sha m H ∧
    ∃ (bp bs : List UInt8) (pub : G1Pubs.PublicKey) (sig : G1Pubs.Signature), bp.length = 48 ∧ bs.length = 96 ∧
      G1Pubs.deserializePublicKey bp = some pub ∧ G1Pubs.deserializeSignature bs = some sig ∧
      G1Pubs.verify sha m pub sig = some true ∧
      ∀ (S : E2) (x y : Fq2), sig.s.Denotes S → IsAt S x y → x.c0 ≠ 0 ∧ x.c1 ≠ 0 := by
  obtain ⟨H, hH⟩ := Cases.case2
  refine ⟨_, H, fun m => ⟨hH m, ?_⟩⟩
  obtain ⟨_, _, _, H0, hr⟩ := hH m
  -- the key whose signature is the generator
  obtain ⟨j, hj⟩ := Grp.torsion_cyclic r_prime E2.card
    (fun hd => absurd (Nat.mod_eq_zero_of_dvd hd) (by rw [r_eq]; decide +kernel)) H0 hr r_smul_g2Gen
  have hj' : (j % r) • H = g2Gen := by
    rw [hj, ← Nat.mod_add_div j r, add_nsmul, mul_nsmul, hr, nsmul_zero, add_zero, Nat.mod_add_div]
  have hlt : (FRRepr.ofNat (j % r)).toNat = j % r :=
    FRRepr.ofNat_toNat ((Nat.mod_lt _ r_prime.pos).trans (by rw [r_eq]; decide +kernel))
  have hk := (C13_keyFromFQRepr_g1pubs (.ofNat (j % r))).1 (by rw [hlt]; exact Nat.mod_lt _ r_prime.pos)
  rw [hlt] at hk
  have h0 : j % r ≠ 0 := fun h => g2Gen_ne_zero (by rw [← hj', h, zero_nsmul])
  obtain ⟨pub, h1, h2⟩ := hk.toPub
  obtain ⟨sig, h3, h4⟩ := hk.sign (hH m)
  rw [hj'] at h4
  have hkg := G1Pubs.nsmul_ne_of_lt g1Gen_ne_zero r_smul_g1Gen h0 hk.lt
  obtain ⟨l1, pub', h5, h6⟩ := C25_publicKey_g1pubs pub _ (G1Projective.denotes_iff.mpr h2)
    (G1Pubs.torsion_nsmul r_smul_g1Gen _)
  obtain ⟨l2, sig', h7, h8⟩ := C25_signature_g1pubs sig _ (G2Projective.denotes_iff.mpr h4) r_smul_g2Gen
  refine ⟨_, _, _, _, l1, l2, h5, h7, (G1Pubs.verify_spec (hH m) (G1Projective.denotes_iff.mp h6) hkg
    (G2Projective.denotes_iff.mp h8) r_smul_g2Gen).1.mpr hj'.symm, fun S x y hS hP => ?_⟩
  obtain ⟨x', y', _, hP', hx⟩ := canonical_gen
  obtain rfl := G2Projective.Rep.fn (G2Projective.denotes_iff.mp hS) (G2Projective.denotes_iff.mp h8)
  obtain ⟨rfl, rfl⟩ := hP.coord hP'
  exact hx

/-- The hypotheses of C36_bytes_g2pubs are met, with a signature made by `Sign`. -/
example : ∃ (sha : List UInt8 → List UInt8) (H : E1), ∀ m, G2Pubs.HashesTo sha m H ∧
    ∃ (bp bs : List UInt8) (pub : G2Pubs.PublicKey) (sig : G2Pubs.Signature), bp.length = 96 ∧ bs.length = 48 ∧
      G2Pubs.deserializePublicKey bp = some pub ∧ G2Pubs.deserializeSignature bs = some sig ∧
      G2Pubs.verify sha m pub sig = some true := by
  obtain ⟨H, hH⟩ := Cases.case1
  refine ⟨_, H, fun m => ⟨hH m, ?_⟩⟩
  obtain ⟨pub, sig, pub', sig', _, _, h1, h2, h3, h4, h5⟩ := C35_wire_g2pubs _ m H (hH m) (List.replicate 32 1) rfl
    (by decide +kernel) (by rw [r_eq]; decide +kernel)
  exact ⟨_, _, _, _, h1, h2, h3, h4, h5⟩

end Bls.Props
