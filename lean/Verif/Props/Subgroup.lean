import Verif.Props.SigG1
import Verif.Props.SigG2
import Verif.Props.Encoding
import Verif.Props.Curve
/-
C71: verification does not check that points lie in the subgroup of order r. What is decoded from bytes does (C26), but
`NewSignatureFromG1`, `NewPublicKeyFromG1` and the unchecked and uncompressed decoders let a caller wrap any point of the
curve. A point of the first curve is `A + T` with `r·A = 0` and `h1·T = 0`, where `h1` is the cofactor; this file says
that verification sees `A` only.
-/
namespace Bls.Props

theorem h1_smul_r_smul (P : E1) : h1 • (r • P) = 0 := by
  rw [← mul_nsmul', ← E1.card]
  exact card_nsmul_eq_zero'

theorem h1_coprime : Nat.Coprime h1 r :=
  ((Nat.Prime.coprime_iff_not_dvd r_prime).mpr
    (fun hd => absurd (Nat.mod_eq_zero_of_dvd hd) (by rw [r_eq, h1]; decide +kernel))).symm

/-- Every point of the first curve is a multiple of the generator plus a point of the cofactor part. -/
theorem C71_split (P : E1) : ∃ (k : ℕ) (T : E1), h1 • T = 0 ∧ P = k • g1Gen + T := by
  have hb : (1 : ℤ) = h1 * h1.gcdA r + r * h1.gcdB r := by
    rw [← Nat.gcd_eq_gcd_ab, h1_coprime.gcd_eq_one]; rfl
  have hrP : r • (h1 • P) = 0 := by rw [nsmul_left_comm]; exact h1_smul_r_smul P
  have hA : r • (h1.gcdA r • (h1 • P)) = 0 := by rw [smul_comm, hrP, zsmul_zero]
  obtain ⟨k, hk⟩ := E1.torsion hA
  refine ⟨k, h1.gcdB r • (r • P), by rw [smul_comm, h1_smul_r_smul, zsmul_zero], ?_⟩
  rw [← hk, ← natCast_zsmul P h1, ← natCast_zsmul P r, ← mul_zsmul, ← mul_zsmul, ← add_zsmul, mul_comm,
    mul_comm (h1.gcdB r), ← hb, one_zsmul]

/-- The pairing with a point of order r tells two points apart up to the cofactor part. -/
theorem ee_eq_iff {A B : E1} {Q : E2} (hQ : r • Q = 0) (hQ0 : Q ≠ 0) : ee A Q = ee B Q ↔ h1 • A = h1 • B := by
  have tor : ∀ P : E1, r • (h1 • P) = 0 := fun P => by rw [nsmul_left_comm]; exact h1_smul_r_smul P
  constructor
  · intro h
    exact ee_left_inj (tor A) (tor B) hQ hQ0 (by rw [ee_nsmul_left _ hQ, ee_nsmul_left _ hQ, h])
  · intro h
    have e : (ee A Q * (ee B Q)⁻¹) ^ h1 = 1 := by
      rw [mul_pow, inv_pow, ← ee_nsmul_left _ hQ, ← ee_nsmul_left _ hQ, h, mul_inv_cancel]
    have e' : (ee A Q * (ee B Q)⁻¹) ^ r = 1 := by rw [mul_pow, inv_pow, ee_pow_r, ee_pow_r, inv_one, mul_one]
    exact mul_inv_eq_one.mp ((pow_eq_one_iff_of_coprime h1_coprime).mp ⟨e, e'⟩)

theorem h1_smul_eq_iff {A B : E1} : h1 • A = h1 • B ↔ ∃ T : E1, h1 • T = 0 ∧ A = B + T := by
  constructor
  · intro h
    exact ⟨A - B, by rw [nsmul_sub, h, sub_self], by abel⟩
  · rintro ⟨T, hT, rfl⟩
    rw [nsmul_add, hT, add_zero]

/-- `Verify` of g2pubs for any point of the curve as signature: it accepts the signature of C36 plus any point of the
cofactor part, and nothing else. -/
theorem C71_verify_g2pubs (sha : List UInt8 → List UInt8) (m : List UInt8) (H : E1) (hm : G2Pubs.HashesTo sha m H)
    (k : ℕ) (hk : ¬ r ∣ k) (pub : G2Pubs.PublicKey) (hp : pub.p.Denotes (k • g2Gen)) (sig : G2Pubs.Signature) (S : E1)
    (hs : sig.s.Denotes S) (hS : S ≠ 0) :
    ∃ c, G2Pubs.verify sha m pub sig = some c ∧ (c = true ↔ ∃ T : E1, h1 • T = 0 ∧ S = k • H + T) := by
  obtain ⟨a, ha, hd, H0, hH⟩ := hm
  have hkg : k • g2Gen ≠ 0 := fun e => hk (by
    have := addOrderOf_dvd_of_nsmul_eq_zero e
    rwa [addOrderOf_g2Gen] at this)
  obtain ⟨c, e, hc⟩ := compareTwoPairings_spec (G1Projective.denotes_iff.mp hs) G2Affine.one_rep.toProjective
    (G1Affine.denotes_iff.mp hd).toProjective (G2Projective.denotes_iff.mp hp) hS H0
    ⟨g2Gen_ne_zero, r_smul_g2Gen⟩ ⟨hkg, G1Pubs.torsion_nsmul r_smul_g2Gen k⟩
  refine ⟨c, by rw [G2Pubs.verify, ha, Option.bind_some]; exact e, ?_⟩
  rw [hc, ee_nsmul_right _ r_smul_g2Gen, ← ee_nsmul_left _ r_smul_g2Gen, ee_eq_iff r_smul_g2Gen g2Gen_ne_zero,
    h1_smul_eq_iff]

/-- `VerifyAggregate` of g2pubs in the same way. -/
theorem C71_aggregate_g2pubs (sha : List UInt8 → List UInt8) (batch : List (G2Pubs.PublicKey × List UInt8 × ℕ × E1))
    (h : ∀ b ∈ batch, b.1.p.Denotes (b.2.2.1 • g2Gen) ∧ ¬ r ∣ b.2.2.1 ∧ G2Pubs.HashesTo sha b.2.1 b.2.2.2)
    (hn : (batch.map fun b => b.2.1).Nodup) (he : [] ∉ batch.map fun b => b.2.1) (sig : G2Pubs.Signature) (S : E1)
    (hs : sig.s.Denotes S) (hS : S ≠ 0) :
    ∃ c, sig.verifyAggregate sha (batch.map fun b => b.1) (batch.map fun b => b.2.1) = some c ∧
      (c = true ↔ ∃ T : E1, h1 • T = 0 ∧ S = (batch.map fun b => b.2.2.1 • b.2.2.2).sum + T) := by
  have key : G2Pubs.Entries (G2Pubs.HashesTo sha) (batch.map fun b => b.1) (batch.map fun b => b.2.1)
      (batch.map fun b => b.2.2) := by
    clear hn he
    induction batch with
    | nil => exact .nil
    | cons b l ih =>
      obtain ⟨h1, h2, h3⟩ := h b List.mem_cons_self
      refine .cons ⟨G2Projective.denotes_iff.mp h1, fun e => h2 ?_, h3⟩ (ih fun x hx => h x (List.mem_cons_of_mem _ hx))
      have := addOrderOf_dvd_of_nsmul_eq_zero e
      rwa [addOrderOf_g2Gen] at this
  obtain ⟨e, g1, g2, _⟩ := G2Pubs.pairingProduct_spec key (e := FQ12.one) (a := 1) (by rw [GT.val_one]; exact FQ12.one_rep)
  rw [one_mul] at g2
  obtain ⟨x, h1, h2⟩ := pairing_spec (G1Projective.denotes_iff.mp hs) G2Affine.one_rep.toProjective hS
    ⟨g2Gen_ne_zero, r_smul_g2Gen⟩
  refine ⟨x.equals e, ?_, ?_⟩
  · rw [G2Pubs.Signature.verifyAggregate, if_neg (by rw [bne_iff_ne, not_not]; exact key.length),
      if_neg (by rw [(noRepeat_sort _).mpr ⟨hn, he⟩]; decide), g1, G2Projective.one, h1]
    rfl
  · rw [h2.equals g2, ← h1_smul_eq_iff, ← ee_eq_iff r_smul_g2Gen g2Gen_ne_zero]
    have et : (batch.map fun b => b.2.2.1 • b.2.2.2).sum = G2Pubs.total (batch.map fun b => b.2.2) := by
      rw [G2Pubs.total, List.map_map]; rfl
    rw [et]
    exact ⟨GT.ext, fun e => by rw [e]⟩

/-- `Verify` of g1pubs for any point of the curve as key: a key `k·g1 + T` with `T` in the cofactor part accepts exactly
what the key `k·g1` accepts. -/
theorem C71_verify_g1pubs (sha : List UInt8 → List UInt8) (m : List UInt8) (H : E2) (hm : G1Pubs.HashesTo sha m H)
    (k : ℕ) (T : E1) (hT : h1 • T = 0) (pub : G1Pubs.PublicKey) (hp : pub.p.Denotes (k • g1Gen + T))
    (hne : k • g1Gen + T ≠ 0) (sig : G1Pubs.Signature) (S : E2) (hs : sig.s.Denotes S) (hr : r • S = 0) (hS : S ≠ 0) :
    ∃ c, G1Pubs.verify sha m pub sig = some c ∧ (c = true ↔ S = k • H) := by
  obtain ⟨a, ha, hd, H0, hH⟩ := hm
  obtain ⟨c, e, hc⟩ := compareTwoPairings_spec G1Affine.one_rep.toProjective (G2Projective.denotes_iff.mp hs)
    (G1Projective.denotes_iff.mp hp) (G2Affine.denotes_iff.mp hd).toProjective g1Gen_ne_zero hne ⟨hS, hr⟩ ⟨H0, hH⟩
  refine ⟨c, by rw [G1Pubs.verify, ha, Option.bind_some]; exact e, ?_⟩
  have e1 : ee (k • g1Gen + T) H = ee g1Gen (k • H) := by
    rw [ee_nsmul_right _ hH, ← ee_nsmul_left _ hH, ee_eq_iff hH H0, h1_smul_eq_iff]
    exact ⟨T, hT, rfl⟩
  rw [hc, e1]
  exact ⟨fun e => ee_right_inj r_smul_g1Gen hr (G1Pubs.torsion_nsmul hH k) g1Gen_ne_zero e, fun e => by rw [e]⟩

/-- The bytes 80 00 ... 00 and what `DecompressG1Unchecked` makes of them: the point (0, 2). -/
def cofactorBytes : List UInt8 := 0x80 :: List.replicate 47 0
def cofactorPoint : G1Affine := ⟨.ofRepr (.new 0), .ofRepr (.new 2), false⟩

/-- It is a point of the cofactor part. -/
theorem C71_cofactorPoint : G1Affine.decompressUnchecked cofactorBytes = some cofactorPoint ∧
    G1Affine.decompress cofactorBytes = none ∧
    ∃ T : E1, cofactorPoint.Denotes T ∧ T ≠ 0 ∧ 3 • T = 0 ∧ h1 • T = 0 := by
  obtain ⟨T, hT'⟩ : ∃ T : E1, cofactorPoint.Rep T := by
    have e0 : (FQRepr.new 0).toNat = 0 := by decide +kernel
    have e2 : (FQRepr.new 2).toNat = 2 := by decide +kernel
    have k0 := FQ.ofRepr_rep (o := .new 0) (by rw [e0, q_eq]; decide +kernel)
    have k2 := FQ.ofRepr_rep (o := .new 2) (by rw [e2, q_eq]; decide +kernel)
    rw [e0] at k0
    rw [e2] at k2
    exact ⟨pt ((0 : ℕ) : Fq) ((2 : ℕ) : Fq) (by push_cast; ring), Or.inr ⟨rfl, _, _, k0, k2, pt_isAt _⟩⟩
  have hT := G1Affine.denotes_iff.mpr hT'
  have hd : G1Affine.decompressUnchecked cofactorBytes = some cofactorPoint := by
    rw [show cofactorBytes = cofactorPoint.compress by decide +kernel]
    exact hT'.decompressUnchecked_compress
  have h0 : T ≠ 0 := fun e => absurd (hT'.infinity_iff.mpr e) (by decide)
  have h3 : 3 • T = 0 := by
    have e := (hT'.toProjective.double.equal hT'.neg.toProjective).mp (by decide +kernel)
    rw [succ_nsmul, two_nsmul, e, neg_add_cancel]
  have hh : h1 • T = 0 := by
    have : h1 = 3 * (h1 / 3) := by rw [h1]
    rw [this, mul_nsmul, h3, nsmul_zero]
  refine ⟨hd, ?_, T, hT, h0, h3, hh⟩
  rcases h : G1Affine.decompress cofactorBytes with _ | a
  · rfl
  · obtain ⟨P, hP, hr⟩ := (C26_g1 cofactorBytes rfl a).2 h
    have e : a = cofactorPoint := Option.some_inj.mp ((G1Affine.decompress_iff.mp h).1.symm.trans hd)
    rw [e] at hP
    have hrT : r • T = 0 := (G1Affine.Rep.fn (G1Affine.denotes_iff.mp hP) hT') ▸ hr
    refine absurd ?_ h0
    exact (nsmul_eq_zero_iff_of_coprime h1_coprime).mp ⟨hh, hrT⟩

theorem not_torsion {P T : E1} (hP : r • P = 0) (hT : h1 • T = 0) (h0 : T ≠ 0) : r • (P + T) ≠ 0 := by
  rw [nsmul_add, hP, zero_add]
  intro hr
  exact h0 ((nsmul_eq_zero_iff_of_coprime h1_coprime).mp ⟨hT, hr⟩)

theorem decompress_none {g : G1Projective} {P : E1} (h : g.Rep P) (hr : r • P ≠ 0) :
    G1Affine.decompress g.toAffine.compress = none := by
  rcases hd : G1Affine.decompress g.toAffine.compress with _ | a
  · rfl
  · have := G1Affine.decompress_iff.mp hd
    rw [h.toAffine.decompressUnchecked_compress] at this
    obtain rfl := Option.some_inj.mp this.1
    exact absurd (h.toAffine.isInCorrectSubgroup.mp this.2) hr

/-- So in g2pubs every key and message has two signatures that `Verify` accepts with different bytes; the second, the
first plus the point (0, 2), is refused by `DeserializeSignature`. -/
theorem C71_second_g2pubs (sha : List UInt8 → List UInt8) (m : List UInt8) (H : E1) (hm : G2Pubs.HashesTo sha m H)
    (sk : G2Pubs.SecretKey) (k : ℕ) (hk : sk.Holds k) (h0 : k ≠ 0) :
    ∃ pub sig, G2Pubs.privToPub sk = some pub ∧ G2Pubs.sign sha m sk = some sig ∧
      G2Pubs.verify sha m pub sig = some true ∧
      G2Pubs.verify sha m pub (sig.aggregate (G2Pubs.newSignatureFromG1 cofactorPoint)) = some true ∧
      (sig.aggregate (G2Pubs.newSignatureFromG1 cofactorPoint)).serialize ≠ sig.serialize ∧
      G2Pubs.deserializeSignature (sig.aggregate (G2Pubs.newSignatureFromG1 cofactorPoint)).serialize = none := by
  obtain ⟨_, _, T, hT, T0, _, hTh⟩ := C71_cofactorPoint
  obtain ⟨pub, h1, h2⟩ := hk.toPub
  obtain ⟨sig, h3, h4⟩ := hk.sign hm
  obtain ⟨_, _, _, H0, hH⟩ := id hm
  have hkg := G1Pubs.nsmul_ne_of_lt g2Gen_ne_zero r_smul_g2Gen h0 hk.lt
  have hkr : ¬ r ∣ k := fun hd => absurd (Nat.le_of_dvd (Nat.pos_of_ne_zero h0) hd) (by have := hk.lt; omega)
  have h5 : (sig.aggregate (G2Pubs.newSignatureFromG1 cofactorPoint)).s.Rep (k • H + T) :=
    h4.add (G1Affine.denotes_iff.mp hT).toProjective
  have hnt := not_torsion (G1Pubs.torsion_nsmul hH k) hTh T0
  obtain ⟨c, h6, h7⟩ := C71_verify_g2pubs sha m H hm k hkr pub (G2Projective.denotes_iff.mpr h2) _ _
    (G1Projective.denotes_iff.mpr h5) (fun e => hnt (by rw [e, nsmul_zero]))
  rw [h7.mpr ⟨T, hTh, rfl⟩] at h6
  refine ⟨pub, sig, h1, h3, (G2Pubs.verify_spec hm h2 hkg h4 (G1Pubs.torsion_nsmul hH k)).1.mpr rfl, h6, fun e => ?_, ?_⟩
  · have := ((C23_g1_toAffine _ _ _ _ (G1Projective.denotes_iff.mpr h5) (G1Projective.denotes_iff.mpr h4)).2).mp e
    exact T0 (add_eq_left.mp this)
  · rw [G2Pubs.deserializeSignature, G2Pubs.Signature.serialize, decompress_none h5 hnt]; rfl

/-- And in g1pubs every public key has a second one that accepts the same signatures, with different bytes that
`DeserializePublicKey` refuses. -/
theorem C71_second_g1pubs (sha : List UInt8 → List UInt8) (m : List UInt8) (H : E2) (hm : G1Pubs.HashesTo sha m H)
    (pub : G1Pubs.PublicKey) (k : ℕ) (hp : pub.p.Denotes (k • g1Gen)) (hk : ¬ r ∣ k) :
    (∀ (sig : G1Pubs.Signature) (S : E2), sig.s.Denotes S → r • S = 0 → S ≠ 0 →
      G1Pubs.verify sha m (pub.aggregate (G1Pubs.newPublicKeyFromG1 cofactorPoint)) sig = G1Pubs.verify sha m pub sig) ∧
    (pub.aggregate (G1Pubs.newPublicKeyFromG1 cofactorPoint)).serialize ≠ pub.serialize ∧
    G1Pubs.deserializePublicKey (pub.aggregate (G1Pubs.newPublicKeyFromG1 cofactorPoint)).serialize = none := by
  obtain ⟨_, _, T, hT, T0, _, hTh⟩ := C71_cofactorPoint
  have h2 := G1Projective.denotes_iff.mp hp
  have h5 : (pub.aggregate (G1Pubs.newPublicKeyFromG1 cofactorPoint)).p.Rep (k • g1Gen + T) :=
    h2.add (G1Affine.denotes_iff.mp hT).toProjective
  have hnt := not_torsion (G1Pubs.torsion_nsmul r_smul_g1Gen k) hTh T0
  have hkg : k • g1Gen ≠ 0 := fun e => hk (by
    have := addOrderOf_dvd_of_nsmul_eq_zero e
    rwa [addOrderOf_g1Gen] at this)
  refine ⟨fun sig S hs hr hS => ?_, fun e => ?_, ?_⟩
  · obtain ⟨c, h6, h7⟩ := C71_verify_g1pubs sha m H hm k T hTh _ (G1Projective.denotes_iff.mpr h5)
      (fun e => hnt (by rw [e, nsmul_zero])) sig S hs hr hS
    obtain ⟨c', h6', h7'⟩ := C71_verify_g1pubs sha m H hm k 0 (nsmul_zero _) pub (by rw [add_zero]; exact hp)
      (by rw [add_zero]; exact hkg) sig S hs hr hS
    rw [h6, h6', Bool.eq_iff_iff.mpr (h7.trans h7'.symm)]
  · have := ((C23_g1_toAffine _ _ _ _ (G1Projective.denotes_iff.mpr h5) (G1Projective.denotes_iff.mpr h2)).2).mp e
    exact T0 (add_eq_left.mp this)
  · rw [G1Pubs.deserializePublicKey, G1Pubs.PublicKey.serialize, decompress_none h5 hnt]; rfl

/-- The hypotheses are met, also by points outside the subgroup. -/
example : (∃ sha H, ∀ m, G2Pubs.HashesTo sha m H) ∧ (∃ sha H, ∀ m, G1Pubs.HashesTo sha m H) ∧
    (∃ (sig : G2Pubs.Signature) (S : E1), sig.s.Denotes S ∧ S ≠ 0 ∧ r • S ≠ 0) ∧
    ∃ (pub : G1Pubs.PublicKey) (T : E1), h1 • T = 0 ∧ pub.p.Denotes (1 • g1Gen + T) ∧ 1 • g1Gen + T ≠ 0 ∧ T ≠ 0 := by
  obtain ⟨H1, hH1⟩ := Cases.case1
  obtain ⟨H2, hH2⟩ := Cases.case2
  obtain ⟨_, _, T, hT, T0, _, hTh⟩ := C71_cofactorPoint
  have hnt := not_torsion (G1Pubs.torsion_nsmul r_smul_g1Gen 1) hTh T0
  have h5 := (G1Affine.one_rep.toProjective).add (G1Affine.denotes_iff.mp hT).toProjective
  rw [← one_nsmul g1Gen] at h5
  have hne : 1 • g1Gen + T ≠ 0 := fun e => hnt (by rw [e, nsmul_zero])
  exact ⟨⟨_, H1, hH1⟩, ⟨_, H2, hH2⟩, ⟨⟨_⟩, _, G1Projective.denotes_iff.mpr h5, hne, hnt⟩, ⟨_⟩, T, hTh,
    G1Projective.denotes_iff.mpr h5, hne, T0⟩

end Bls.Props
