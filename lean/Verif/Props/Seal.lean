import Verif.Proof.Threshold
import Verif.Proof.HashCases
import Verif.Props.Blind
import Verif.Props.Repr
import Verif.Spec.Seal
/-
C80: exactly the signature that Verify accepts opens what was encrypted for the key and the message.
-/
namespace Bls.Props

private theorem sealScalar {f : FR} (h : f ∈ blindings) : f.toRepr.toNat ≠ 0 ∧ f.toRepr.toNat < r :=
  ⟨h.2, (FR.rep_int h.1).int_lt⟩

private theorem scalar_inj {f g : FR} (hf : f ∈ blindings) (hg : g ∈ blindings) (h : f.toRepr.toNat = g.toRepr.toNat) :
    f = g := by
  have h1 := FR.rep_val hf.1
  have h2 := FR.rep_val hg.1
  have e : f.int = g.int := h
  rw [h1.int, h2.int] at e
  rw [ZMod.val_injective r e] at h1
  exact h1.inj h2

/-! ## g1pubs -/

private theorem mask_rep_g1pubs {sha : List UInt8 → List UInt8} {m : List UInt8} {H : E2} (hm : G1Pubs.HashesTo sha m H)
    {pub : G1Pubs.PublicKey} {P : E1} (hp : pub.p.Rep P) (P0 : P ≠ 0) (hP : r • P = 0) {f : FR} (hf : f ∈ blindings) :
    ∃ e, G1Pubs.sealMask sha pub m f = some (some e) ∧ e.Rep (ee (P) (H) ^ f.toRepr.toNat).val := by
  obtain ⟨h, e, hd, H0, hH⟩ := hm
  obtain ⟨f0, fr⟩ := sealScalar hf
  have hq := hp.mulFR f.toRepr
  have h0 := G1Pubs.nsmul_ne_of_lt P0 hP f0 fr
  have hr := G1Pubs.torsion_nsmul hP f.toRepr.toNat
  obtain ⟨o, ho, hv⟩ := pairing_spec hq (G2Affine.denotes_iff.mp hd).toProjective h0 ⟨H0, hH⟩
  rw [ee_nsmul_left _ hH] at hv
  exact ⟨o, by rw [G1Pubs.sealMask, e, Option.bind_some]; exact ho, hv⟩

/-- The mask exists and both ways to compute it give the same value. -/
theorem C80_mask_g1pubs (sha : List UInt8 → List UInt8) (m : List UInt8) (H : E2) (hm : G1Pubs.HashesTo sha m H)
    (pub : G1Pubs.PublicKey) (P : E1) (hp : pub.p.Denotes P) (P0 : P ≠ 0) (hP : r • P = 0) (f : FR) (hf : f ∈ blindings) :
    ∃ e, G1Pubs.sealMask sha pub m f = some (some e) ∧ G1Pubs.sealMaskExp sha pub m f = some (some e) ∧ e.isValid ∧
      e.fld ≠ 1 ∧ e.fld ^ r = 1 := by
  have hp := G1Projective.denotes_iff.mp hp
  obtain ⟨e, he, hv⟩ := mask_rep_g1pubs hm hp P0 hP hf
  obtain ⟨h, eh, hd, H0, hH⟩ := hm
  obtain ⟨f0, fr⟩ := sealScalar hf
  obtain ⟨o, ho, hw⟩ := pairing_spec hp (G2Affine.denotes_iff.mp hd).toProjective P0 ⟨H0, hH⟩
  have hx := hw.exp f.toRepr.toFQ
  rw [C07_fr_toFQ, ← GT.val_pow] at hx
  refine ⟨e, he, ?_, hv.out.1, ?_, ?_⟩
  · rw [G1Pubs.sealMaskExp, eh, Option.bind_some]
    refine (congrArg _ ho).trans ?_
    rw [Option.map_some, Option.map_some, hx.inj hv]
  · rw [hv.out.2, ← GT.val_one, Ne, ← ee_nsmul_left _ hH]
    exact fun h => absurd (GT.ext h) <| ee_ne_one (G1Pubs.torsion_nsmul hP _) hH (G1Pubs.nsmul_ne_of_lt P0 hP f0 fr) H0
  · rw [hv.out.2, ← GT.val_pow, ← ee_nsmul_left _ hH, ee_pow_r, GT.val_one]

/-- A signature gives the mask exactly if `Verify` accepts it for the key and the message. -/
theorem C80_open_g1pubs (sha : List UInt8 → List UInt8) (m : List UInt8) (H : E2) (hm : G1Pubs.HashesTo sha m H)
    (pub : G1Pubs.PublicKey) (P : E1) (hp : pub.p.Denotes P) (P0 : P ≠ 0) (hP : r • P = 0) (f : FR) (hf : f ∈ blindings)
    (sig : G1Pubs.Signature) (S : E2) (hs : sig.s.Denotes S) (S0 : S ≠ 0) (hS : r • S = 0) :
    G1Pubs.openMask (G1Pubs.sealPoint f) sig = G1Pubs.sealMask sha pub m f ↔ G1Pubs.verify sha m pub sig = some true := by
  have hp := G1Projective.denotes_iff.mp hp
  have hs := G2Projective.denotes_iff.mp hs
  obtain ⟨e, he, hv⟩ := mask_rep_g1pubs hm hp P0 hP hf
  obtain ⟨f0, fr⟩ := sealScalar hf
  obtain ⟨k, rfl⟩ := E1.torsion hP
  obtain ⟨H0, hH⟩ : H ≠ 0 ∧ r • H = 0 := by obtain ⟨_, _, _, h⟩ := hm; exact h
  have hu : (G1Pubs.sealPoint f).Rep (f.toRepr.toNat • g1Gen) := G1Affine.one_rep.mulFR f.toRepr
  have u0 := G1Pubs.nsmul_ne_of_lt g1Gen_ne_zero r_smul_g1Gen f0 fr
  have ur := G1Pubs.torsion_nsmul r_smul_g1Gen f.toRepr.toNat
  obtain ⟨o, ho, hw⟩ := pairing_spec hu hs u0 ⟨S0, hS⟩
  rw [(G1Pubs.verify_spec hm hp P0 hs hS).1, he, G1Pubs.openMask]
  refine (by rw [show pairing (G1Pubs.sealPoint f) sig.getPoint = some (some o) from ho] :
    _ ↔ some (some o) = some (some e)).trans ?_
  rw [Option.some_inj, Option.some_inj]
  have key : ee (f.toRepr.toNat • g1Gen) (S) = ee (k • g1Gen) (H) ^ f.toRepr.toNat ↔ S = k • H := by
    have t : ee (k • g1Gen) (H) ^ f.toRepr.toNat = ee (f.toRepr.toNat • g1Gen) (k • H) := by
      rw [ee_nsmul_left _ hH, ee_nsmul_left _ (G1Pubs.torsion_nsmul hH k), ee_nsmul_right _ hH]
    rw [t]
    refine ⟨fun h => ee_right_inj ur hS (G1Pubs.torsion_nsmul hH k) u0 h, fun h => by rw [h]⟩
  rw [← key]
  constructor
  · rintro rfl
    exact GT.ext (hw.out.2.symm.trans hv.out.2)
  · intro h
    rw [h] at hw
    exact hw.inj hv

/-- Different scalars give different masks: the sender's choice determines the mask, and no two choices share it. -/
theorem C80_scalars_g1pubs (sha : List UInt8 → List UInt8) (m : List UInt8) (H : E2) (hm : G1Pubs.HashesTo sha m H)
    (pub : G1Pubs.PublicKey) (P : E1) (hp : pub.p.Denotes P) (P0 : P ≠ 0) (hP : r • P = 0) (f g : FR) (hf : f ∈ blindings)
    (hg : g ∈ blindings) (h : G1Pubs.sealMask sha pub m f = G1Pubs.sealMask sha pub m g) : f = g := by
  have hp := G1Projective.denotes_iff.mp hp
  obtain ⟨e, he, hv⟩ := mask_rep_g1pubs hm hp P0 hP hf
  obtain ⟨e', he', hv'⟩ := mask_rep_g1pubs hm hp P0 hP hg
  obtain ⟨H0, hH⟩ : H ≠ 0 ∧ r • H = 0 := by obtain ⟨_, _, _, h⟩ := hm; exact h
  rw [he, he', Option.some_inj, Option.some_inj] at h
  subst h
  have h1 := GT.ext (hv.out.2.symm.trans hv'.out.2)
  rw [← ee_nsmul_left _ hH, ← ee_nsmul_left _ hH] at h1
  have h2 := ee_left_inj (G1Pubs.torsion_nsmul hP _) (G1Pubs.torsion_nsmul hP _) hH H0 h1
  exact scalar_inj hf hg (G1Pubs.nsmul_inj_of_lt P0 hP (sealScalar hf).2 (sealScalar hg).2 h2)

/-- With one scalar, two pairs of key and message share the mask exactly if each signature of the one opens the other: the
signer of `P` on the message of `H` and the signer of `P'` on the message of `H'` have the same signature. -/
theorem C80_shared_g1pubs (sha : List UInt8 → List UInt8) (m m' : List UInt8) (H H' : E2) (hm : G1Pubs.HashesTo sha m H)
    (hm' : G1Pubs.HashesTo sha m' H') (pub pub' : G1Pubs.PublicKey) (k k' : ℕ) (hp : pub.p.Denotes (k • g1Gen))
    (hp' : pub'.p.Denotes (k' • g1Gen)) (P0 : k • g1Gen ≠ 0) (P0' : k' • g1Gen ≠ 0) (f : FR) (hf : f ∈ blindings) :
    G1Pubs.sealMask sha pub m f = G1Pubs.sealMask sha pub' m' f ↔ k • H = k' • H' := by
  have hp := G1Projective.denotes_iff.mp hp
  have hp' := G1Projective.denotes_iff.mp hp'
  obtain ⟨e, he, hv⟩ := mask_rep_g1pubs hm hp P0 (G1Pubs.torsion_nsmul r_smul_g1Gen k) hf
  obtain ⟨e', he', hv'⟩ := mask_rep_g1pubs hm' hp' P0' (G1Pubs.torsion_nsmul r_smul_g1Gen k') hf
  obtain ⟨f0, fr⟩ := sealScalar hf
  obtain ⟨H0, hH⟩ : H ≠ 0 ∧ r • H = 0 := by obtain ⟨_, _, _, h⟩ := hm; exact h
  obtain ⟨H0', hH'⟩ : H' ≠ 0 ∧ r • H' = 0 := by obtain ⟨_, _, _, h⟩ := hm'; exact h
  have u0 := G1Pubs.nsmul_ne_of_lt g1Gen_ne_zero r_smul_g1Gen f0 fr
  have ur := G1Pubs.torsion_nsmul r_smul_g1Gen f.toRepr.toNat
  have t (k : ℕ) (H : E2) (hH : r • H = 0) : ee (k • g1Gen) (H) ^ f.toRepr.toNat = ee (f.toRepr.toNat • g1Gen) (k • H) := by
    rw [ee_nsmul_left _ hH, ee_nsmul_left _ (G1Pubs.torsion_nsmul hH k), ee_nsmul_right _ hH]
  rw [t k H hH] at hv
  rw [t k' H' hH'] at hv'
  rw [he, he', Option.some_inj, Option.some_inj]
  constructor
  · rintro rfl
    exact ee_right_inj ur (G1Pubs.torsion_nsmul hH k) (G1Pubs.torsion_nsmul hH' k') u0 (GT.ext (hv.out.2.symm.trans hv'.out.2))
  · intro h
    rw [h] at hv
    exact hv.inj hv'

/-! ## g1pubs, in a domain -/

private theorem maskDomain_rep_g1pubs {sha : List UInt8 → List UInt8} {m d : List UInt8} {H : E2} (hm : G1Pubs.HashesToIn sha d m H)
    {pub : G1Pubs.PublicKey} {P : E1} (hp : pub.p.Rep P) (P0 : P ≠ 0) (hP : r • P = 0) {f : FR} (hf : f ∈ blindings) :
    ∃ e, G1Pubs.sealMaskWithDomain sha pub m d f = some (some e) ∧ e.Rep (ee (P) (H) ^ f.toRepr.toNat).val := by
  obtain ⟨h, e, hd, H0, hH⟩ := hm
  obtain ⟨f0, fr⟩ := sealScalar hf
  have hq := hp.mulFR f.toRepr
  have h0 := G1Pubs.nsmul_ne_of_lt P0 hP f0 fr
  have hr := G1Pubs.torsion_nsmul hP f.toRepr.toNat
  obtain ⟨o, ho, hv⟩ := pairing_spec hq (G2Projective.denotes_iff.mp hd) h0 ⟨H0, hH⟩
  rw [ee_nsmul_left _ hH] at hv
  exact ⟨o, by rw [G1Pubs.sealMaskWithDomain, e, Option.bind_some]; exact ho, hv⟩

/-- The mask exists and both ways to compute it give the same value. -/
theorem C80_maskDomain_g1pubs (sha : List UInt8 → List UInt8) (m d : List UInt8) (H : E2) (hm : G1Pubs.HashesToIn sha d m H)
    (pub : G1Pubs.PublicKey) (P : E1) (hp : pub.p.Denotes P) (P0 : P ≠ 0) (hP : r • P = 0) (f : FR) (hf : f ∈ blindings) :
    ∃ e, G1Pubs.sealMaskWithDomain sha pub m d f = some (some e) ∧ G1Pubs.sealMaskExpWithDomain sha pub m d f = some (some e) ∧ e.isValid ∧
      e.fld ≠ 1 ∧ e.fld ^ r = 1 := by
  have hp := G1Projective.denotes_iff.mp hp
  obtain ⟨e, he, hv⟩ := maskDomain_rep_g1pubs hm hp P0 hP hf
  obtain ⟨h, eh, hd, H0, hH⟩ := hm
  obtain ⟨f0, fr⟩ := sealScalar hf
  obtain ⟨o, ho, hw⟩ := pairing_spec hp (G2Projective.denotes_iff.mp hd) P0 ⟨H0, hH⟩
  have hx := hw.exp f.toRepr.toFQ
  rw [C07_fr_toFQ, ← GT.val_pow] at hx
  refine ⟨e, he, ?_, hv.out.1, ?_, ?_⟩
  · rw [G1Pubs.sealMaskExpWithDomain, eh, Option.bind_some]
    refine (congrArg _ ho).trans ?_
    rw [Option.map_some, Option.map_some, hx.inj hv]
  · rw [hv.out.2, ← GT.val_one, Ne, ← ee_nsmul_left _ hH]
    exact fun h => absurd (GT.ext h) <| ee_ne_one (G1Pubs.torsion_nsmul hP _) hH (G1Pubs.nsmul_ne_of_lt P0 hP f0 fr) H0
  · rw [hv.out.2, ← GT.val_pow, ← ee_nsmul_left _ hH, ee_pow_r, GT.val_one]

/-- A signature gives the mask exactly if `VerifyWithDomain` accepts it for the key and the message. -/
theorem C80_openDomain_g1pubs (sha : List UInt8 → List UInt8) (m d : List UInt8) (H : E2) (hm : G1Pubs.HashesToIn sha d m H)
    (pub : G1Pubs.PublicKey) (P : E1) (hp : pub.p.Denotes P) (P0 : P ≠ 0) (hP : r • P = 0) (f : FR) (hf : f ∈ blindings)
    (sig : G1Pubs.Signature) (S : E2) (hs : sig.s.Denotes S) (S0 : S ≠ 0) (hS : r • S = 0) :
    G1Pubs.openMask (G1Pubs.sealPoint f) sig = G1Pubs.sealMaskWithDomain sha pub m d f ↔ G1Pubs.verifyWithDomain sha m pub sig d = some true := by
  have hp := G1Projective.denotes_iff.mp hp
  have hs := G2Projective.denotes_iff.mp hs
  obtain ⟨e, he, hv⟩ := maskDomain_rep_g1pubs hm hp P0 hP hf
  obtain ⟨f0, fr⟩ := sealScalar hf
  obtain ⟨k, rfl⟩ := E1.torsion hP
  obtain ⟨H0, hH⟩ : H ≠ 0 ∧ r • H = 0 := by obtain ⟨_, _, _, h⟩ := hm; exact h
  have hu : (G1Pubs.sealPoint f).Rep (f.toRepr.toNat • g1Gen) := G1Affine.one_rep.mulFR f.toRepr
  have u0 := G1Pubs.nsmul_ne_of_lt g1Gen_ne_zero r_smul_g1Gen f0 fr
  have ur := G1Pubs.torsion_nsmul r_smul_g1Gen f.toRepr.toNat
  obtain ⟨o, ho, hw⟩ := pairing_spec hu hs u0 ⟨S0, hS⟩
  rw [(G1Pubs.verifyWithDomain_spec hm hp P0 hs hS).1, he, G1Pubs.openMask]
  refine (by rw [show pairing (G1Pubs.sealPoint f) sig.getPoint = some (some o) from ho] :
    _ ↔ some (some o) = some (some e)).trans ?_
  rw [Option.some_inj, Option.some_inj]
  have key : ee (f.toRepr.toNat • g1Gen) (S) = ee (k • g1Gen) (H) ^ f.toRepr.toNat ↔ S = k • H := by
    have t : ee (k • g1Gen) (H) ^ f.toRepr.toNat = ee (f.toRepr.toNat • g1Gen) (k • H) := by
      rw [ee_nsmul_left _ hH, ee_nsmul_left _ (G1Pubs.torsion_nsmul hH k), ee_nsmul_right _ hH]
    rw [t]
    refine ⟨fun h => ee_right_inj ur hS (G1Pubs.torsion_nsmul hH k) u0 h, fun h => by rw [h]⟩
  rw [← key]
  constructor
  · rintro rfl
    exact GT.ext (hw.out.2.symm.trans hv.out.2)
  · intro h
    rw [h] at hw
    exact hw.inj hv

/-- Different scalars give different masks: the sender's choice determines the mask, and no two choices share it. -/
theorem C80_scalarsDomain_g1pubs (sha : List UInt8 → List UInt8) (m d : List UInt8) (H : E2) (hm : G1Pubs.HashesToIn sha d m H)
    (pub : G1Pubs.PublicKey) (P : E1) (hp : pub.p.Denotes P) (P0 : P ≠ 0) (hP : r • P = 0) (f g : FR) (hf : f ∈ blindings)
    (hg : g ∈ blindings) (h : G1Pubs.sealMaskWithDomain sha pub m d f = G1Pubs.sealMaskWithDomain sha pub m d g) : f = g := by
  have hp := G1Projective.denotes_iff.mp hp
  obtain ⟨e, he, hv⟩ := maskDomain_rep_g1pubs hm hp P0 hP hf
  obtain ⟨e', he', hv'⟩ := maskDomain_rep_g1pubs hm hp P0 hP hg
  obtain ⟨H0, hH⟩ : H ≠ 0 ∧ r • H = 0 := by obtain ⟨_, _, _, h⟩ := hm; exact h
  rw [he, he', Option.some_inj, Option.some_inj] at h
  subst h
  have h1 := GT.ext (hv.out.2.symm.trans hv'.out.2)
  rw [← ee_nsmul_left _ hH, ← ee_nsmul_left _ hH] at h1
  have h2 := ee_left_inj (G1Pubs.torsion_nsmul hP _) (G1Pubs.torsion_nsmul hP _) hH H0 h1
  exact scalar_inj hf hg (G1Pubs.nsmul_inj_of_lt P0 hP (sealScalar hf).2 (sealScalar hg).2 h2)

/-- With one scalar, two pairs of key and message share the mask exactly if each signature of the one opens the other: the
signer of `P` on the message of `H` and the signer of `P'` on the message of `H'` have the same signature. -/
theorem C80_sharedDomain_g1pubs (sha : List UInt8 → List UInt8) (m m' d d' : List UInt8) (H H' : E2) (hm : G1Pubs.HashesToIn sha d m H)
    (hm' : G1Pubs.HashesToIn sha d' m' H') (pub pub' : G1Pubs.PublicKey) (k k' : ℕ) (hp : pub.p.Denotes (k • g1Gen))
    (hp' : pub'.p.Denotes (k' • g1Gen)) (P0 : k • g1Gen ≠ 0) (P0' : k' • g1Gen ≠ 0) (f : FR) (hf : f ∈ blindings) :
    G1Pubs.sealMaskWithDomain sha pub m d f = G1Pubs.sealMaskWithDomain sha pub' m' d' f ↔ k • H = k' • H' := by
  have hp := G1Projective.denotes_iff.mp hp
  have hp' := G1Projective.denotes_iff.mp hp'
  obtain ⟨e, he, hv⟩ := maskDomain_rep_g1pubs hm hp P0 (G1Pubs.torsion_nsmul r_smul_g1Gen k) hf
  obtain ⟨e', he', hv'⟩ := maskDomain_rep_g1pubs hm' hp' P0' (G1Pubs.torsion_nsmul r_smul_g1Gen k') hf
  obtain ⟨f0, fr⟩ := sealScalar hf
  obtain ⟨H0, hH⟩ : H ≠ 0 ∧ r • H = 0 := by obtain ⟨_, _, _, h⟩ := hm; exact h
  obtain ⟨H0', hH'⟩ : H' ≠ 0 ∧ r • H' = 0 := by obtain ⟨_, _, _, h⟩ := hm'; exact h
  have u0 := G1Pubs.nsmul_ne_of_lt g1Gen_ne_zero r_smul_g1Gen f0 fr
  have ur := G1Pubs.torsion_nsmul r_smul_g1Gen f.toRepr.toNat
  have t (k : ℕ) (H : E2) (hH : r • H = 0) : ee (k • g1Gen) (H) ^ f.toRepr.toNat = ee (f.toRepr.toNat • g1Gen) (k • H) := by
    rw [ee_nsmul_left _ hH, ee_nsmul_left _ (G1Pubs.torsion_nsmul hH k), ee_nsmul_right _ hH]
  rw [t k H hH] at hv
  rw [t k' H' hH'] at hv'
  rw [he, he', Option.some_inj, Option.some_inj]
  constructor
  · rintro rfl
    exact ee_right_inj ur (G1Pubs.torsion_nsmul hH k) (G1Pubs.torsion_nsmul hH' k') u0 (GT.ext (hv.out.2.symm.trans hv'.out.2))
  · intro h
    rw [h] at hv
    exact hv.inj hv'

/-! ## g2pubs -/

private theorem mask_rep_g2pubs {sha : List UInt8 → List UInt8} {m : List UInt8} {H : E1} (hm : G2Pubs.HashesTo sha m H)
    {pub : G2Pubs.PublicKey} {P : E2} (hp : pub.p.Rep P) (P0 : P ≠ 0) (hP : r • P = 0) {f : FR} (hf : f ∈ blindings) :
    ∃ e, G2Pubs.sealMask sha pub m f = some (some e) ∧ e.Rep (ee (H) (P) ^ f.toRepr.toNat).val := by
  obtain ⟨h, e, hd, H0, hH⟩ := hm
  obtain ⟨f0, fr⟩ := sealScalar hf
  have hq := hp.mulFR f.toRepr
  have h0 := G1Pubs.nsmul_ne_of_lt P0 hP f0 fr
  have hr := G1Pubs.torsion_nsmul hP f.toRepr.toNat
  obtain ⟨o, ho, hv⟩ := pairing_spec (G1Affine.denotes_iff.mp hd).toProjective hq H0 ⟨h0, hr⟩
  rw [ee_nsmul_right _ hP] at hv
  exact ⟨o, by rw [G2Pubs.sealMask, e, Option.bind_some]; exact ho, hv⟩

/-- The mask exists and both ways to compute it give the same value. -/
theorem C80_mask_g2pubs (sha : List UInt8 → List UInt8) (m : List UInt8) (H : E1) (hm : G2Pubs.HashesTo sha m H)
    (pub : G2Pubs.PublicKey) (P : E2) (hp : pub.p.Denotes P) (P0 : P ≠ 0) (hP : r • P = 0) (f : FR) (hf : f ∈ blindings) :
    ∃ e, G2Pubs.sealMask sha pub m f = some (some e) ∧ G2Pubs.sealMaskExp sha pub m f = some (some e) ∧ e.isValid ∧
      e.fld ≠ 1 ∧ e.fld ^ r = 1 := by
  have hp := G2Projective.denotes_iff.mp hp
  obtain ⟨e, he, hv⟩ := mask_rep_g2pubs hm hp P0 hP hf
  obtain ⟨h, eh, hd, H0, hH⟩ := hm
  obtain ⟨f0, fr⟩ := sealScalar hf
  obtain ⟨o, ho, hw⟩ := pairing_spec (G1Affine.denotes_iff.mp hd).toProjective hp H0 ⟨P0, hP⟩
  have hx := hw.exp f.toRepr.toFQ
  rw [C07_fr_toFQ, ← GT.val_pow] at hx
  refine ⟨e, he, ?_, hv.out.1, ?_, ?_⟩
  · rw [G2Pubs.sealMaskExp, eh, Option.bind_some]
    refine (congrArg _ ho).trans ?_
    rw [Option.map_some, Option.map_some, hx.inj hv]
  · rw [hv.out.2, ← GT.val_one, Ne, ← ee_nsmul_right _ hP]
    exact fun h => absurd (GT.ext h) <| ee_ne_one hH (G1Pubs.torsion_nsmul hP _) H0 (G1Pubs.nsmul_ne_of_lt P0 hP f0 fr)
  · rw [hv.out.2, ← GT.val_pow, ← ee_nsmul_right _ hP, ee_pow_r, GT.val_one]

/-- A signature gives the mask exactly if `Verify` accepts it for the key and the message. -/
theorem C80_open_g2pubs (sha : List UInt8 → List UInt8) (m : List UInt8) (H : E1) (hm : G2Pubs.HashesTo sha m H)
    (pub : G2Pubs.PublicKey) (P : E2) (hp : pub.p.Denotes P) (P0 : P ≠ 0) (hP : r • P = 0) (f : FR) (hf : f ∈ blindings)
    (sig : G2Pubs.Signature) (S : E1) (hs : sig.s.Denotes S) (S0 : S ≠ 0) (hS : r • S = 0) :
    G2Pubs.openMask (G2Pubs.sealPoint f) sig = G2Pubs.sealMask sha pub m f ↔ G2Pubs.verify sha m pub sig = some true := by
  have hp := G2Projective.denotes_iff.mp hp
  have hs := G1Projective.denotes_iff.mp hs
  obtain ⟨e, he, hv⟩ := mask_rep_g2pubs hm hp P0 hP hf
  obtain ⟨f0, fr⟩ := sealScalar hf
  obtain ⟨k, rfl⟩ := E2.torsion hP
  obtain ⟨H0, hH⟩ : H ≠ 0 ∧ r • H = 0 := by obtain ⟨_, _, _, h⟩ := hm; exact h
  have hu : (G2Pubs.sealPoint f).Rep (f.toRepr.toNat • g2Gen) := G2Affine.one_rep.mulFR f.toRepr
  have u0 := G1Pubs.nsmul_ne_of_lt g2Gen_ne_zero r_smul_g2Gen f0 fr
  have ur := G1Pubs.torsion_nsmul r_smul_g2Gen f.toRepr.toNat
  obtain ⟨o, ho, hw⟩ := pairing_spec hs hu S0 ⟨u0, ur⟩
  rw [(G2Pubs.verify_spec hm hp P0 hs hS).1, he, G2Pubs.openMask]
  refine (by rw [show pairing sig.getPoint (G2Pubs.sealPoint f) = some (some o) from ho] :
    _ ↔ some (some o) = some (some e)).trans ?_
  rw [Option.some_inj, Option.some_inj]
  have key : ee (S) (f.toRepr.toNat • g2Gen) = ee (H) (k • g2Gen) ^ f.toRepr.toNat ↔ S = k • H := by
    have t : ee (H) (k • g2Gen) ^ f.toRepr.toNat = ee (k • H) (f.toRepr.toNat • g2Gen) := by
      rw [ee_nsmul_right _ r_smul_g2Gen, ee_nsmul_right _ r_smul_g2Gen, ee_nsmul_left _ r_smul_g2Gen]
    rw [t]
    refine ⟨fun h => ee_left_inj hS (G1Pubs.torsion_nsmul hH k) ur u0 h, fun h => by rw [h]⟩
  rw [← key]
  constructor
  · rintro rfl
    exact GT.ext (hw.out.2.symm.trans hv.out.2)
  · intro h
    rw [h] at hw
    exact hw.inj hv

/-- Different scalars give different masks: the sender's choice determines the mask, and no two choices share it. -/
theorem C80_scalars_g2pubs (sha : List UInt8 → List UInt8) (m : List UInt8) (H : E1) (hm : G2Pubs.HashesTo sha m H)
    (pub : G2Pubs.PublicKey) (P : E2) (hp : pub.p.Denotes P) (P0 : P ≠ 0) (hP : r • P = 0) (f g : FR) (hf : f ∈ blindings)
    (hg : g ∈ blindings) (h : G2Pubs.sealMask sha pub m f = G2Pubs.sealMask sha pub m g) : f = g := by
  have hp := G2Projective.denotes_iff.mp hp
  obtain ⟨e, he, hv⟩ := mask_rep_g2pubs hm hp P0 hP hf
  obtain ⟨e', he', hv'⟩ := mask_rep_g2pubs hm hp P0 hP hg
  obtain ⟨H0, hH⟩ : H ≠ 0 ∧ r • H = 0 := by obtain ⟨_, _, _, h⟩ := hm; exact h
  rw [he, he', Option.some_inj, Option.some_inj] at h
  subst h
  have h1 := GT.ext (hv.out.2.symm.trans hv'.out.2)
  rw [← ee_nsmul_right _ hP, ← ee_nsmul_right _ hP] at h1
  have h2 := ee_right_inj hH (G1Pubs.torsion_nsmul hP _) (G1Pubs.torsion_nsmul hP _) H0 h1
  exact scalar_inj hf hg (G1Pubs.nsmul_inj_of_lt P0 hP (sealScalar hf).2 (sealScalar hg).2 h2)

/-- With one scalar, two pairs of key and message share the mask exactly if each signature of the one opens the other: the
signer of `P` on the message of `H` and the signer of `P'` on the message of `H'` have the same signature. -/
theorem C80_shared_g2pubs (sha : List UInt8 → List UInt8) (m m' : List UInt8) (H H' : E1) (hm : G2Pubs.HashesTo sha m H)
    (hm' : G2Pubs.HashesTo sha m' H') (pub pub' : G2Pubs.PublicKey) (k k' : ℕ) (hp : pub.p.Denotes (k • g2Gen))
    (hp' : pub'.p.Denotes (k' • g2Gen)) (P0 : k • g2Gen ≠ 0) (P0' : k' • g2Gen ≠ 0) (f : FR) (hf : f ∈ blindings) :
    G2Pubs.sealMask sha pub m f = G2Pubs.sealMask sha pub' m' f ↔ k • H = k' • H' := by
  have hp := G2Projective.denotes_iff.mp hp
  have hp' := G2Projective.denotes_iff.mp hp'
  obtain ⟨e, he, hv⟩ := mask_rep_g2pubs hm hp P0 (G1Pubs.torsion_nsmul r_smul_g2Gen k) hf
  obtain ⟨e', he', hv'⟩ := mask_rep_g2pubs hm' hp' P0' (G1Pubs.torsion_nsmul r_smul_g2Gen k') hf
  obtain ⟨f0, fr⟩ := sealScalar hf
  obtain ⟨H0, hH⟩ : H ≠ 0 ∧ r • H = 0 := by obtain ⟨_, _, _, h⟩ := hm; exact h
  obtain ⟨H0', hH'⟩ : H' ≠ 0 ∧ r • H' = 0 := by obtain ⟨_, _, _, h⟩ := hm'; exact h
  have u0 := G1Pubs.nsmul_ne_of_lt g2Gen_ne_zero r_smul_g2Gen f0 fr
  have ur := G1Pubs.torsion_nsmul r_smul_g2Gen f.toRepr.toNat
  have t (k : ℕ) (H : E1) (hH : r • H = 0) : ee (H) (k • g2Gen) ^ f.toRepr.toNat = ee (k • H) (f.toRepr.toNat • g2Gen) := by
    rw [ee_nsmul_right _ r_smul_g2Gen, ee_nsmul_right _ r_smul_g2Gen, ee_nsmul_left _ r_smul_g2Gen]
  rw [t k H hH] at hv
  rw [t k' H' hH'] at hv'
  rw [he, he', Option.some_inj, Option.some_inj]
  constructor
  · rintro rfl
    exact ee_left_inj (G1Pubs.torsion_nsmul hH k) (G1Pubs.torsion_nsmul hH' k') ur u0 (GT.ext (hv.out.2.symm.trans hv'.out.2))
  · intro h
    rw [h] at hv
    exact hv.inj hv'

/-- A case: hash functions, keys, signatures and a scalar. -/
example : (∃ sha H, ∀ m, G1Pubs.HashesTo sha m H) ∧ (∃ sha, ∀ m d, ∃ H, G1Pubs.HashesToIn sha d m H) ∧
    (∃ sha H, ∀ m, G2Pubs.HashesTo sha m H) ∧
    (∃ (pub : G1Pubs.PublicKey) (P : E1), pub.p.Denotes P ∧ P ≠ 0 ∧ r • P = 0) ∧
    (∃ (pub : G2Pubs.PublicKey) (P : E2), pub.p.Denotes P ∧ P ≠ 0 ∧ r • P = 0) ∧
    (∃ (sig : G1Pubs.Signature) (S : E2), sig.s.Denotes S ∧ S ≠ 0 ∧ r • S = 0) ∧
    (∃ (sig : G2Pubs.Signature) (S : E1), sig.s.Denotes S ∧ S ≠ 0 ∧ r • S = 0) ∧
    FR.one ∈ blindings ∧ FR.one.add FR.one ∈ blindings := by
  have c1 : ∃ P : E1, G1Affine.one.toProjective.Denotes P ∧ P ≠ 0 ∧ r • P = 0 :=
    ⟨_, G1Projective.denotes_iff.mpr G1Affine.one_rep.toProjective, g1Gen_ne_zero, r_smul_g1Gen⟩
  have c2 : ∃ P : E2, G2Affine.one.toProjective.Denotes P ∧ P ≠ 0 ∧ r • P = 0 :=
    ⟨_, G2Projective.denotes_iff.mpr G2Affine.one_rep.toProjective, g2Gen_ne_zero, r_smul_g2Gen⟩
  have h2 := FR.one_rep.add FR.one_rep
  have hv : (FR.one.add FR.one).int = 2 := by
    rw [h2.int, one_add_one_eq_two]
    exact ZMod.val_natCast_of_lt (a := 2) (by rw [r_eq]; decide +kernel)
  have hv1 : FR.one.int = 1 := by
    rw [FR.one_rep.int]
    exact ZMod.val_one r
  exact ⟨⟨_, Cases.case2⟩, ⟨_, Cases.case3⟩, ⟨_, Cases.case1⟩, ⟨⟨_⟩, c1⟩, ⟨⟨_⟩, c2⟩, ⟨⟨_⟩, c2⟩, ⟨⟨_⟩, c1⟩,
    ⟨FR.one_rep.isValid, by rw [hv1]; decide⟩, ⟨h2.isValid, by rw [hv]; decide⟩⟩

end Bls.Props
