import Verif.Proof.Threshold
import Verif.Proof.HashCases
import Verif.Proof.Orders
import Verif.Props.SigG1
import Verif.Props.SigG2
import Verif.Spec.Blind
/-
C79: blind signing with the functions of the library gives the signatures of Sign, and the signer learns nothing of the
message.
-/
namespace Bls.Props

theorem blindings_rep {f : FR} (h : f ∈ blindings) : ∃ x : Fr, f.Rep x ∧ x ≠ 0 := by
  refine ⟨f.val, FR.rep_val h.1, fun e => h.2 ?_⟩
  rw [(FR.rep_val h.1).int, e, ZMod.val_zero]

theorem inv_nsmul {A : Type*} [AddCommGroup A] {H : A} (h : r • H = 0) {x : Fr} (hx : x ≠ 0) :
    (x⁻¹).val • x.val • H = H := by
  rw [← mul_nsmul', val_nsmul h (x := 1) (by simp [hx])]
  have : (1 : Fr).val = 1 := ZMod.val_one r
  rw [this, one_nsmul]

theorem inv_nsmul' {A : Type*} [AddCommGroup A] {H : A} (h : r • H = 0) {x : Fr} (hx : x ≠ 0) :
    x.val • (x⁻¹).val • H = H := by
  rw [smul_comm, inv_nsmul h hx]

/-- In a group of order r with the generator `G` every element but 0 is exactly one multiple of every other. -/
theorem one_factor {A : Type*} [AddCommGroup A] {G : A} (hg : r • G = 0) {H B : A} (h0 : H ≠ 0)
    (hr : r • H = 0) (b0 : B ≠ 0) (hH : ∃ k : ℕ, H = k • G) (hB : ∃ k : ℕ, B = k • G) :
    ∃ x : Fr, x ≠ 0 ∧ B = x.val • H ∧ ∀ y : Fr, B = y.val • H → y = x := by
  obtain ⟨j, rfl⟩ := hH
  obtain ⟨k, rfl⟩ := hB
  have hj : (j : Fr) ≠ 0 := by
    intro e
    apply h0
    rw [val_nsmul hg e, ZMod.val_zero, zero_nsmul]
  have hk : (k : Fr) ≠ 0 := by
    intro e
    apply b0
    rw [val_nsmul hg e, ZMod.val_zero, zero_nsmul]
  have e : k • G = ((k : Fr) * (j : Fr)⁻¹).val • j • G := by
    rw [← mul_nsmul', val_nsmul hg (k := k) rfl]
    refine (val_nsmul hg ?_).symm
    simp [hj]
  refine ⟨(k : Fr) * (j : Fr)⁻¹, mul_ne_zero hk (inv_ne_zero hj), e, fun y hy => ?_⟩
  exact ZMod.val_injective r (G1Pubs.nsmul_inj_of_lt h0 hr (ZMod.val_lt _) (ZMod.val_lt _) (hy.symm.trans e))

/-! ## g1pubs -/

private theorem blind_rep_g1pubs {sha : List UInt8 → List UInt8} {m : List UInt8} {H : E2} (hm : G1Pubs.HashesTo sha m H)
    {f : FR} {x : Fr} (hf : f.Rep x) : ∃ b, G1Pubs.blind sha m f = some b ∧ b.Rep (x.val • H) := by
  obtain ⟨h, e, hd, _, _⟩ := hm
  refine ⟨_, by rw [G1Pubs.blind, e]; rfl, ?_⟩
  rw [← hf.toRepr]
  exact ((G2Affine.denotes_iff.mp hd).mulFR f.toRepr).toAffine

private theorem signBlind_rep_g1pubs {sk : G1Pubs.SecretKey} {k : ℕ} (hk : sk.Holds k) {b : G2Affine} {B : E2} (hb : b.Rep B) :
    ∃ s, G1Pubs.signBlind sk b = some s ∧ s.Rep (k • B) := by
  obtain ⟨f, hf, hv, rfl⟩ := hk
  exact ⟨_, by rw [G1Pubs.signBlind, G1Pubs.SecretKey.getFRElement, hf]; rfl, (hb.mulFR f.toRepr).toAffine⟩

theorem unblind_rep_g1pubs {f : FR} {x : Fr} (hf : f.Rep x) (hx : x ≠ 0) {s : G2Affine} {S : E2} (hs : s.Rep S) :
    ∃ sig, G1Pubs.unblind f s = some sig ∧ sig.s.Rep ((x⁻¹).val • S) := by
  obtain ⟨i, hi, hr⟩ := hf.inverse?_ne hx
  refine ⟨_, by rw [G1Pubs.unblind, hi]; rfl, ?_⟩
  rw [← hr.toRepr]
  exact (hs.mulFR i.toRepr).toAffine.toProjective

/-- The steps do not fail, and the signature they give is, when serialized, that of `Sign`. -/
theorem C79_unblind_g1pubs (sha : List UInt8 → List UInt8) (m : List UInt8) (H : E2) (hm : G1Pubs.HashesTo sha m H)
    (f : FR) (hf : f ∈ blindings) (sk : G1Pubs.SecretKey) (k : ℕ) (hk : sk.Holds k) :
    ∃ b s sig sig', G1Pubs.blind sha m f = some b ∧ G1Pubs.signBlind sk b = some s ∧ G1Pubs.unblind f s = some sig ∧
      G1Pubs.sign sha m sk = some sig' ∧ sig.serialize = sig'.serialize := by
  obtain ⟨x, hx, h0⟩ := blindings_rep hf
  have hr : r • H = 0 := by obtain ⟨_, _, _, _, h⟩ := hm; exact h
  obtain ⟨b, hb, hb'⟩ := blind_rep_g1pubs hm hx
  obtain ⟨s, hs, hs'⟩ := signBlind_rep_g1pubs hk hb'
  obtain ⟨sig, hu, hu'⟩ := unblind_rep_g1pubs hx h0 hs'
  obtain ⟨sig', hg, hg'⟩ := hk.sign hm
  rw [smul_comm k, inv_nsmul (G1Pubs.torsion_nsmul hr k) h0] at hu'
  refine ⟨b, s, sig, sig', hb, hs, hu, hg, ?_⟩
  rw [G1Pubs.Signature.serialize, G1Pubs.Signature.serialize, hu'.toAffine.inj hg'.toAffine]

/-- The user can tell whether the signer answered as they should: for every answer in the subgroup, the signature made of
it is accepted exactly if it is the point sent times the key. -/
theorem C79_check_g1pubs (sha : List UInt8 → List UInt8) (m : List UInt8) (H : E2) (hm : G1Pubs.HashesTo sha m H)
    (f : FR) (hf : f ∈ blindings) (sk : G1Pubs.SecretKey) (k : ℕ) (hk : sk.Holds k) (k0 : k ≠ 0) (pub : G1Pubs.PublicKey)
    (hp : G1Pubs.privToPub sk = some pub) (s : G2Affine) (S : E2) (hs : s.Denotes S) (hS : r • S = 0) :
    ∃ sig, G1Pubs.unblind f s = some sig ∧
      (G1Pubs.verify sha m pub sig = some true ↔ (G1Pubs.blind sha m f).bind (G1Pubs.signBlind sk) = some s) := by
  obtain ⟨x, hx, h0⟩ := blindings_rep hf
  have hs := G2Affine.denotes_iff.mp hs
  have hr : r • H = 0 := by obtain ⟨_, _, _, _, h⟩ := hm; exact h
  obtain ⟨b, hb, hb'⟩ := blind_rep_g1pubs hm hx
  obtain ⟨t, ht, ht'⟩ := signBlind_rep_g1pubs hk hb'
  obtain ⟨sig, hu, hu'⟩ := unblind_rep_g1pubs hx h0 hs
  obtain ⟨pub', e, hpub⟩ := hk.toPub
  obtain rfl : pub' = pub := Option.some.inj (e.symm.trans hp)
  refine ⟨sig, hu, ?_⟩
  rw [(G1Pubs.verify_spec hm hpub (G1Pubs.nsmul_ne_of_lt g1Gen_ne_zero r_smul_g1Gen k0 hk.lt) hu' (G1Pubs.torsion_nsmul hS _)).1, hb,
    Option.bind_some, ht, Option.some_inj]
  constructor
  · intro e
    refine ht'.inj ?_
    rw [smul_comm, ← e, inv_nsmul' hS h0]
    exact hs
  · rintro rfl
    rw [hs.fn ht', smul_comm k, inv_nsmul (G1Pubs.torsion_nsmul hr k) h0]

/-- The point the user sends says nothing about the message: for every message and every point that can be sent there is
exactly one blinding factor that leads from the one to the other. -/
theorem C79_blind_g1pubs (sha : List UInt8 → List UInt8) (m : List UInt8) (H : E2) (hm : G1Pubs.HashesTo sha m H)
    (b : G2Affine) (B : E2) (hb : b.Denotes B) (h0 : B ≠ 0) (hr : r • B = 0) :
    ∃! f, f ∈ blindings ∧ G1Pubs.blind sha m f = some b := by
  have hb := G2Affine.denotes_iff.mp hb
  obtain ⟨H0, hH⟩ : H ≠ 0 ∧ r • H = 0 := by obtain ⟨_, _, _, h⟩ := hm; exact h
  obtain ⟨x, x0, e, hu⟩ := one_factor r_smul_g2Gen H0 hH h0 (E2.torsion hH) (E2.torsion hr)
  obtain ⟨f, hf⟩ := FR.exists_rep x
  refine ⟨f, ⟨⟨hf.isValid, fun h => x0 ?_⟩, ?_⟩, fun y hy => ?_⟩
  · rw [hf.int] at h
    exact (ZMod.val_eq_zero x).mp h
  · obtain ⟨c, hc, hc'⟩ := blind_rep_g1pubs hm hf
    rw [hc, hc'.inj (e ▸ hb)]
  · have hy' := FR.rep_val hy.1.1
    obtain ⟨c, hc, hc'⟩ := blind_rep_g1pubs hm hy'
    have ec : c = b := Option.some.inj (hc.symm.trans hy.2)
    subst ec
    have := hu _ (hb.fn hc')
    rw [this] at hy'
    exact hy'.inj hf

/-- What the user sends is never infinity, and is in the subgroup, so that `C79_blind_g1pubs` is about all of it. -/
theorem C79_sent_g1pubs (sha : List UInt8 → List UInt8) (m : List UInt8) (H : E2) (hm : G1Pubs.HashesTo sha m H)
    (f : FR) (hf : f ∈ blindings) : ∃ b B, G1Pubs.blind sha m f = some b ∧ b.Denotes B ∧ B ≠ 0 ∧ r • B = 0 := by
  obtain ⟨x, hx, h0⟩ := blindings_rep hf
  obtain ⟨b, hb, hb'⟩ := blind_rep_g1pubs hm hx
  obtain ⟨H0, hH⟩ : H ≠ 0 ∧ r • H = 0 := by obtain ⟨_, _, _, h⟩ := hm; exact h
  refine ⟨b, _, hb, G2Affine.denotes_iff.mpr hb', ?_, G1Pubs.torsion_nsmul hH _⟩
  exact G1Pubs.nsmul_ne_of_lt H0 hH (fun e => h0 ((ZMod.val_eq_zero x).mp e)) (ZMod.val_lt x)

/-! ## g1pubs, with a domain -/

private theorem blindDomain_rep_g1pubs {sha : List UInt8 → List UInt8} {m d : List UInt8} {H : E2} (hm : G1Pubs.HashesToIn sha d m H)
    {f : FR} {x : Fr} (hf : f.Rep x) : ∃ b, G1Pubs.blindWithDomain sha m f d = some b ∧ b.Rep (x.val • H) := by
  obtain ⟨h, e, hd, _, _⟩ := hm
  refine ⟨_, by rw [G1Pubs.blindWithDomain, e]; rfl, ?_⟩
  rw [← hf.toRepr]
  exact ((G2Projective.denotes_iff.mp hd).toAffine.mulFR f.toRepr).toAffine

/-- The steps do not fail, and the signature they give is, when serialized, that of `SignWithDomain`. -/
theorem C79_unblindDomain_g1pubs (sha : List UInt8 → List UInt8) (m d : List UInt8) (H : E2) (hm : G1Pubs.HashesToIn sha d m H)
    (f : FR) (hf : f ∈ blindings) (sk : G1Pubs.SecretKey) (k : ℕ) (hk : sk.Holds k) :
    ∃ b s sig sig', G1Pubs.blindWithDomain sha m f d = some b ∧ G1Pubs.signBlind sk b = some s ∧ G1Pubs.unblind f s = some sig ∧
      G1Pubs.signWithDomain sha m sk d = some sig' ∧ sig.serialize = sig'.serialize := by
  obtain ⟨x, hx, h0⟩ := blindings_rep hf
  have hr : r • H = 0 := by obtain ⟨_, _, _, _, h⟩ := hm; exact h
  obtain ⟨b, hb, hb'⟩ := blindDomain_rep_g1pubs hm hx
  obtain ⟨s, hs, hs'⟩ := signBlind_rep_g1pubs hk hb'
  obtain ⟨sig, hu, hu'⟩ := unblind_rep_g1pubs hx h0 hs'
  obtain ⟨sig', hg, hg'⟩ := hk.signIn hm
  rw [smul_comm k, inv_nsmul (G1Pubs.torsion_nsmul hr k) h0] at hu'
  refine ⟨b, s, sig, sig', hb, hs, hu, hg, ?_⟩
  rw [G1Pubs.Signature.serialize, G1Pubs.Signature.serialize, hu'.toAffine.inj hg'.toAffine]

/-- The user can tell whether the signer answered as they should: for every answer in the subgroup, the signature made of
it is accepted exactly if it is the point sent times the key. -/
theorem C79_checkDomain_g1pubs (sha : List UInt8 → List UInt8) (m d : List UInt8) (H : E2) (hm : G1Pubs.HashesToIn sha d m H)
    (f : FR) (hf : f ∈ blindings) (sk : G1Pubs.SecretKey) (k : ℕ) (hk : sk.Holds k) (k0 : k ≠ 0) (pub : G1Pubs.PublicKey)
    (hp : G1Pubs.privToPub sk = some pub) (s : G2Affine) (S : E2) (hs : s.Denotes S) (hS : r • S = 0) :
    ∃ sig, G1Pubs.unblind f s = some sig ∧
      (G1Pubs.verifyWithDomain sha m pub sig d = some true ↔ (G1Pubs.blindWithDomain sha m f d).bind (G1Pubs.signBlind sk) = some s) := by
  obtain ⟨x, hx, h0⟩ := blindings_rep hf
  have hs := G2Affine.denotes_iff.mp hs
  have hr : r • H = 0 := by obtain ⟨_, _, _, _, h⟩ := hm; exact h
  obtain ⟨b, hb, hb'⟩ := blindDomain_rep_g1pubs hm hx
  obtain ⟨t, ht, ht'⟩ := signBlind_rep_g1pubs hk hb'
  obtain ⟨sig, hu, hu'⟩ := unblind_rep_g1pubs hx h0 hs
  obtain ⟨pub', e, hpub⟩ := hk.toPub
  obtain rfl : pub' = pub := Option.some.inj (e.symm.trans hp)
  refine ⟨sig, hu, ?_⟩
  rw [(G1Pubs.verifyWithDomain_spec hm hpub (G1Pubs.nsmul_ne_of_lt g1Gen_ne_zero r_smul_g1Gen k0 hk.lt) hu' (G1Pubs.torsion_nsmul hS _)).1, hb,
    Option.bind_some, ht, Option.some_inj]
  constructor
  · intro e
    refine ht'.inj ?_
    rw [smul_comm, ← e, inv_nsmul' hS h0]
    exact hs
  · rintro rfl
    rw [hs.fn ht', smul_comm k, inv_nsmul (G1Pubs.torsion_nsmul hr k) h0]

/-- The point the user sends says nothing about the message: for every message and every point that can be sent there is
exactly one blinding factor that leads from the one to the other. -/
theorem C79_blindDomain_g1pubs (sha : List UInt8 → List UInt8) (m d : List UInt8) (H : E2) (hm : G1Pubs.HashesToIn sha d m H)
    (b : G2Affine) (B : E2) (hb : b.Denotes B) (h0 : B ≠ 0) (hr : r • B = 0) :
    ∃! f, f ∈ blindings ∧ G1Pubs.blindWithDomain sha m f d = some b := by
  have hb := G2Affine.denotes_iff.mp hb
  obtain ⟨H0, hH⟩ : H ≠ 0 ∧ r • H = 0 := by obtain ⟨_, _, _, h⟩ := hm; exact h
  obtain ⟨x, x0, e, hu⟩ := one_factor r_smul_g2Gen H0 hH h0 (E2.torsion hH) (E2.torsion hr)
  obtain ⟨f, hf⟩ := FR.exists_rep x
  refine ⟨f, ⟨⟨hf.isValid, fun h => x0 ?_⟩, ?_⟩, fun y hy => ?_⟩
  · rw [hf.int] at h
    exact (ZMod.val_eq_zero x).mp h
  · obtain ⟨c, hc, hc'⟩ := blindDomain_rep_g1pubs hm hf
    rw [hc, hc'.inj (e ▸ hb)]
  · have hy' := FR.rep_val hy.1.1
    obtain ⟨c, hc, hc'⟩ := blindDomain_rep_g1pubs hm hy'
    have ec : c = b := Option.some.inj (hc.symm.trans hy.2)
    subst ec
    have := hu _ (hb.fn hc')
    rw [this] at hy'
    exact hy'.inj hf

/-- What the user sends is never infinity, and is in the subgroup, so that `C79_blindDomain_g1pubs` is about all of it. -/
theorem C79_sentDomain_g1pubs (sha : List UInt8 → List UInt8) (m d : List UInt8) (H : E2) (hm : G1Pubs.HashesToIn sha d m H)
    (f : FR) (hf : f ∈ blindings) : ∃ b B, G1Pubs.blindWithDomain sha m f d = some b ∧ b.Denotes B ∧ B ≠ 0 ∧ r • B = 0 := by
  obtain ⟨x, hx, h0⟩ := blindings_rep hf
  obtain ⟨b, hb, hb'⟩ := blindDomain_rep_g1pubs hm hx
  obtain ⟨H0, hH⟩ : H ≠ 0 ∧ r • H = 0 := by obtain ⟨_, _, _, h⟩ := hm; exact h
  refine ⟨b, _, hb, G2Affine.denotes_iff.mpr hb', ?_, G1Pubs.torsion_nsmul hH _⟩
  exact G1Pubs.nsmul_ne_of_lt H0 hH (fun e => h0 ((ZMod.val_eq_zero x).mp e)) (ZMod.val_lt x)

/-! ## g2pubs -/

private theorem blind_rep_g2pubs {sha : List UInt8 → List UInt8} {m : List UInt8} {H : E1} (hm : G2Pubs.HashesTo sha m H)
    {f : FR} {x : Fr} (hf : f.Rep x) : ∃ b, G2Pubs.blind sha m f = some b ∧ b.Rep (x.val • H) := by
  obtain ⟨h, e, hd, _, _⟩ := hm
  refine ⟨_, by rw [G2Pubs.blind, e]; rfl, ?_⟩
  rw [← hf.toRepr]
  exact ((G1Affine.denotes_iff.mp hd).mulFR f.toRepr).toAffine

private theorem signBlind_rep_g2pubs {sk : G2Pubs.SecretKey} {k : ℕ} (hk : sk.Holds k) {b : G1Affine} {B : E1} (hb : b.Rep B) :
    ∃ s, G2Pubs.signBlind sk b = some s ∧ s.Rep (k • B) := by
  obtain ⟨f, hf, hv, rfl⟩ := hk
  exact ⟨_, by rw [G2Pubs.signBlind, G2Pubs.SecretKey.getFRElement, hf]; rfl, (hb.mulFR f.toRepr).toAffine⟩

theorem unblind_rep_g2pubs {f : FR} {x : Fr} (hf : f.Rep x) (hx : x ≠ 0) {s : G1Affine} {S : E1} (hs : s.Rep S) :
    ∃ sig, G2Pubs.unblind f s = some sig ∧ sig.s.Rep ((x⁻¹).val • S) := by
  obtain ⟨i, hi, hr⟩ := hf.inverse?_ne hx
  refine ⟨_, by rw [G2Pubs.unblind, hi]; rfl, ?_⟩
  rw [← hr.toRepr]
  exact (hs.mulFR i.toRepr).toAffine.toProjective

/-- The steps do not fail, and the signature they give is, when serialized, that of `Sign`. -/
theorem C79_unblind_g2pubs (sha : List UInt8 → List UInt8) (m : List UInt8) (H : E1) (hm : G2Pubs.HashesTo sha m H)
    (f : FR) (hf : f ∈ blindings) (sk : G2Pubs.SecretKey) (k : ℕ) (hk : sk.Holds k) :
    ∃ b s sig sig', G2Pubs.blind sha m f = some b ∧ G2Pubs.signBlind sk b = some s ∧ G2Pubs.unblind f s = some sig ∧
      G2Pubs.sign sha m sk = some sig' ∧ sig.serialize = sig'.serialize := by
  obtain ⟨x, hx, h0⟩ := blindings_rep hf
  have hr : r • H = 0 := by obtain ⟨_, _, _, _, h⟩ := hm; exact h
  obtain ⟨b, hb, hb'⟩ := blind_rep_g2pubs hm hx
  obtain ⟨s, hs, hs'⟩ := signBlind_rep_g2pubs hk hb'
  obtain ⟨sig, hu, hu'⟩ := unblind_rep_g2pubs hx h0 hs'
  obtain ⟨sig', hg, hg'⟩ := hk.sign hm
  rw [smul_comm k, inv_nsmul (G1Pubs.torsion_nsmul hr k) h0] at hu'
  refine ⟨b, s, sig, sig', hb, hs, hu, hg, ?_⟩
  rw [G2Pubs.Signature.serialize, G2Pubs.Signature.serialize, hu'.toAffine.inj hg'.toAffine]

/-- The user can tell whether the signer answered as they should: for every answer in the subgroup, the signature made of
it is accepted exactly if it is the point sent times the key. -/
theorem C79_check_g2pubs (sha : List UInt8 → List UInt8) (m : List UInt8) (H : E1) (hm : G2Pubs.HashesTo sha m H)
    (f : FR) (hf : f ∈ blindings) (sk : G2Pubs.SecretKey) (k : ℕ) (hk : sk.Holds k) (k0 : k ≠ 0) (pub : G2Pubs.PublicKey)
    (hp : G2Pubs.privToPub sk = some pub) (s : G1Affine) (S : E1) (hs : s.Denotes S) (hS : r • S = 0) :
    ∃ sig, G2Pubs.unblind f s = some sig ∧
      (G2Pubs.verify sha m pub sig = some true ↔ (G2Pubs.blind sha m f).bind (G2Pubs.signBlind sk) = some s) := by
  obtain ⟨x, hx, h0⟩ := blindings_rep hf
  have hs := G1Affine.denotes_iff.mp hs
  have hr : r • H = 0 := by obtain ⟨_, _, _, _, h⟩ := hm; exact h
  obtain ⟨b, hb, hb'⟩ := blind_rep_g2pubs hm hx
  obtain ⟨t, ht, ht'⟩ := signBlind_rep_g2pubs hk hb'
  obtain ⟨sig, hu, hu'⟩ := unblind_rep_g2pubs hx h0 hs
  obtain ⟨pub', e, hpub⟩ := hk.toPub
  obtain rfl : pub' = pub := Option.some.inj (e.symm.trans hp)
  refine ⟨sig, hu, ?_⟩
  rw [(G2Pubs.verify_spec hm hpub (G1Pubs.nsmul_ne_of_lt g2Gen_ne_zero r_smul_g2Gen k0 hk.lt) hu' (G1Pubs.torsion_nsmul hS _)).1, hb,
    Option.bind_some, ht, Option.some_inj]
  constructor
  · intro e
    refine ht'.inj ?_
    rw [smul_comm, ← e, inv_nsmul' hS h0]
    exact hs
  · rintro rfl
    rw [hs.fn ht', smul_comm k, inv_nsmul (G1Pubs.torsion_nsmul hr k) h0]

/-- The point the user sends says nothing about the message: for every message and every point that can be sent there is
exactly one blinding factor that leads from the one to the other. -/
theorem C79_blind_g2pubs (sha : List UInt8 → List UInt8) (m : List UInt8) (H : E1) (hm : G2Pubs.HashesTo sha m H)
    (b : G1Affine) (B : E1) (hb : b.Denotes B) (h0 : B ≠ 0) (hr : r • B = 0) :
    ∃! f, f ∈ blindings ∧ G2Pubs.blind sha m f = some b := by
  have hb := G1Affine.denotes_iff.mp hb
  obtain ⟨H0, hH⟩ : H ≠ 0 ∧ r • H = 0 := by obtain ⟨_, _, _, h⟩ := hm; exact h
  obtain ⟨x, x0, e, hu⟩ := one_factor r_smul_g1Gen H0 hH h0 (E1.torsion hH) (E1.torsion hr)
  obtain ⟨f, hf⟩ := FR.exists_rep x
  refine ⟨f, ⟨⟨hf.isValid, fun h => x0 ?_⟩, ?_⟩, fun y hy => ?_⟩
  · rw [hf.int] at h
    exact (ZMod.val_eq_zero x).mp h
  · obtain ⟨c, hc, hc'⟩ := blind_rep_g2pubs hm hf
    rw [hc, hc'.inj (e ▸ hb)]
  · have hy' := FR.rep_val hy.1.1
    obtain ⟨c, hc, hc'⟩ := blind_rep_g2pubs hm hy'
    have ec : c = b := Option.some.inj (hc.symm.trans hy.2)
    subst ec
    have := hu _ (hb.fn hc')
    rw [this] at hy'
    exact hy'.inj hf

/-- What the user sends is never infinity, and is in the subgroup, so that `C79_blind_g2pubs` is about all of it. -/
theorem C79_sent_g2pubs (sha : List UInt8 → List UInt8) (m : List UInt8) (H : E1) (hm : G2Pubs.HashesTo sha m H)
    (f : FR) (hf : f ∈ blindings) : ∃ b B, G2Pubs.blind sha m f = some b ∧ b.Denotes B ∧ B ≠ 0 ∧ r • B = 0 := by
  obtain ⟨x, hx, h0⟩ := blindings_rep hf
  obtain ⟨b, hb, hb'⟩ := blind_rep_g2pubs hm hx
  obtain ⟨H0, hH⟩ : H ≠ 0 ∧ r • H = 0 := by obtain ⟨_, _, _, h⟩ := hm; exact h
  refine ⟨b, _, hb, G1Affine.denotes_iff.mpr hb', ?_, G1Pubs.torsion_nsmul hH _⟩
  exact G1Pubs.nsmul_ne_of_lt H0 hH (fun e => h0 ((ZMod.val_eq_zero x).mp e)) (ZMod.val_lt x)

/-- A case: hash functions with which every message has a hash, the blinding factor 2, and a key. -/
example : (∃ sha H, ∀ m, G1Pubs.HashesTo sha m H) ∧ (∃ sha H, ∀ m, G2Pubs.HashesTo sha m H) ∧
    (∃ sha, ∀ m d, ∃ H, G1Pubs.HashesToIn sha d m H) ∧ FR.one.add FR.one ∈ blindings ∧
    (∃ sk : G1Pubs.SecretKey, sk.Holds 2) ∧ ∃ sk : G2Pubs.SecretKey, sk.Holds 2 := by
  have h2 := FR.one_rep.add FR.one_rep
  have hv : (FR.one.add FR.one).int = 2 := by
    rw [h2.int, one_add_one_eq_two]
    exact ZMod.val_natCast_of_lt (a := 2) (by rw [r_eq]; decide +kernel)
  exact ⟨⟨_, Cases.case2⟩, ⟨_, Cases.case1⟩, ⟨_, Cases.case3⟩, ⟨h2.isValid, by rw [hv]; decide⟩,
    ⟨⟨some _⟩, _, rfl, h2.isValid, hv⟩, ⟨⟨some _⟩, _, rfl, h2.isValid, hv⟩⟩

end Bls.Props
