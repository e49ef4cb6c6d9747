import Verif.Proof.UsesLib
import Verif.Proof.G2Pubs
/-
The functions of g2pubs agree with the ideal signature scheme.
-/
namespace Bls.Uses

open Classical
open Groups (rel_bind rel_map bool_eq nsmul_val)

/-! ## g2pubs -/

variable {sha : List UInt8 → List UInt8}

/-- The hash function's points, and the library's encodings. -/
noncomputable def choice2 (sha : List UInt8 → List UInt8) : Choice E1 where
  hash m := if h : ∃ H, G2Pubs.HashesTo sha m H then h.choose else 0
  hashIn _ _ := 0
  encKey := Groups.choice.encF
  encPub x := Groups.choice.enc2 (x.val • g2Gen)
  encSig := Groups.choice.enc1
  decPub b := (Groups.choice.dec2 b).map (log g2Gen)
  decSig := Groups.choice.dec1

theorem hash2 {m : List UInt8} (h : ∃ H, G2Pubs.HashesTo sha m H) : G2Pubs.HashesTo sha m ((choice2 sha).hash m) := by
  unfold choice2; dsimp only; rw [dif_pos h]; exact h.choose_spec

theorem decPub2 (x : ZMod r) : (choice2 sha).decPub ((choice2 sha).encPub x) = some x := by
  show (Groups.choice.dec2 (Groups.choice.enc2 (x.val • g2Gen))).map (log g2Gen) = some x
  rw [Groups.lawful.dec2 _ (nsmul_val _ r_smul_g2Gen), Option.map_some, log_eq g2Gen_ne_zero r_smul_g2Gen]

theorem decSig2 {b : List UInt8} (hb : b.length = 48) {S : E1} (h : (choice2 sha).decSig b = some S) :
    b = (choice2 sha).encSig S := ((Groups.lawful.dec1 b S hb).mp h).2

theorem lawful2 : (choice2 sha).Lawful (setting2 sha) (G2Pubs.HashesTo sha) fun _ _ _ => True where
  hash _ h := hash2 h
  hashIn _ _ _ := trivial
  encKey := Groups.lawful.encF
  encPub x := ⟨Groups.lawful.enc2 _, decPub2 x⟩
  encSig S h := ⟨Groups.lawful.enc1 _, (Groups.lawful.dec1 _ S (Groups.lawful.enc1 _)).mpr ⟨h, rfl⟩⟩
  decSig b S hb h := ((Groups.lawful.dec1 b S hb).mp h).1

theorem pub_rep2 {p : G2Pubs.PublicKey} {x : ZMod r} : Pub2 g2Gen p x ↔ p.p.Rep (x.val • g2Gen) := G2Projective.denotes_iff

theorem sig_rep2 {g : G2Pubs.Signature} {S : E1} : Sig2 g S ↔ g.s.Rep S ∧ r • S = 0 := by
  rw [Sig2, G1Projective.denotes_iff]

theorem pubs_rep2 {l : List G2Pubs.PublicKey} {xs : List (ZMod r)} (h : List.Forall₂ (Pub2 g2Gen) l xs) :
    List.Forall₂ (fun p P => p.p.Rep P) l (xs.map fun x => x.val • g2Gen) := by
  induction h with
  | nil => exact .nil
  | cons h _ ih => exact .cons (pub_rep2.mp h) ih

theorem sumPub2 {l : List G2Pubs.PublicKey} {xs : List (ZMod r)} (h : List.Forall₂ (Pub2 g2Gen) l xs) :
    Pub2 g2Gen (G2Pubs.aggregatePublicKeys l) xs.sum := by
  rw [pub_rep2, sum_val r_smul_g2Gen]
  exact G2Pubs.aggregatePublicKeys_spec (pubs_rep2 h)

theorem sumSig2 {l : List G2Pubs.Signature} {Ss : List E1} (h : List.Forall₂ Sig2 l Ss) :
    Sig2 (G2Pubs.aggregateSignatures l) Ss.sum := by
  rw [sig_rep2]
  refine ⟨G2Pubs.aggregateSignatures_spec (h.imp fun _ _ h => (sig_rep2.mp h).1), ?_⟩
  induction h with
  | nil => exact nsmul_zero _
  | cons h _ ih => rw [List.sum_cons, nsmul_add, h.2, ih, add_zero]

theorem verify2 {m : List UInt8} (hm : ∃ H, G2Pubs.HashesTo sha m H) {p : G2Pubs.PublicKey} {x : ZMod r}
    (hp : Pub2 g2Gen p x) {g : G2Pubs.Signature} {S : E1} (hg : Sig2 g S) :
    G2Pubs.verify sha m p g = (ideal sha (choice2 sha)).verify m x S := by
  unfold ideal; dsimp only
  have hh := hash2 hm
  have hp' := pub_rep2.mp hp
  obtain ⟨hs, hS⟩ := sig_rep2.mp hg
  by_cases h : x = 0 ∨ S = 0
  · rw [if_pos h]
    obtain ⟨a, ha, hd, -⟩ := hh
    rw [G2Pubs.verify, ha, Option.bind_some]
    refine compareTwoPairings_none hs G2Affine.one_rep.toProjective (G1Affine.denotes_iff.mp hd).toProjective hp' ?_
    rcases h with rfl | rfl
    · exact Or.inr (Or.inr (Or.inr (zero_val _)))
    · exact Or.inl rfl
  · rw [if_neg h]
    push Not at h
    have := G2Pubs.verify_spec hh hp' (mt (val_smul_eq_zero g2Gen_ne_zero r_smul_g2Gen).mp h.1) hs hS
    exact some_decide this.1 (this.2 h.2)

theorem product_none2 {l : List G2Pubs.PublicKey} {xs : List (ZMod r)} (h : List.Forall₂ (Pub2 g2Gen) l xs)
    {ms : List (List UInt8)} (hl : l.length = ms.length) (hm : ∀ m ∈ ms, ∃ H, G2Pubs.HashesTo sha m H) (h0 : 0 ∈ xs)
    (e : FQ12) : G2Pubs.pairingProduct sha l ms e = none := by
  induction h generalizing ms e with
  | nil => cases h0
  | @cons p x l xs hp _ ih =>
    cases ms with
    | nil => cases hl
    | cons m ms =>
      obtain ⟨H, a, ha, hd, -⟩ := hm m List.mem_cons_self
      rw [G2Pubs.pairingProduct, ha, Option.bind_some]
      rcases List.mem_cons.mp h0 with h0 | h0
      · rw [pairing_none (G1Affine.denotes_iff.mp hd).toProjective (pub_rep2.mp hp)
          (Or.inr (by rw [← h0]; exact zero_val _))]
        rfl
      · cases (pairing a.toProjective p.p).join with
        | none => rfl
        | some e' => exact ih (Nat.succ.inj hl) (fun m h => hm m (List.mem_cons_of_mem _ h)) h0 _

theorem entries2 {Hash : List UInt8 → E1 → Prop} {hf : List UInt8 → E1} {l : List G2Pubs.PublicKey} {xs : List (ZMod r)}
    (h : List.Forall₂ (Pub2 g2Gen) l xs) {ms : List (List UInt8)} (hl : l.length = ms.length)
    (hm : ∀ m ∈ ms, Hash m (hf m)) (h0 : 0 ∉ xs) :
    ∃ ds, G2Pubs.Entries Hash l ms ds ∧ G2Pubs.total ds = total hf ms xs := by
  induction h generalizing ms with
  | nil =>
    cases ms with
    | nil => exact ⟨[], .nil, rfl⟩
    | cons => cases hl
  | @cons p x l xs hp _ ih =>
    cases ms with
    | nil => cases hl
    | cons m ms =>
      obtain ⟨ds, hd, ht⟩ := ih (Nat.succ.inj hl) (fun m h => hm m (List.mem_cons_of_mem _ h))
        fun h => h0 (List.mem_cons_of_mem _ h)
      refine ⟨(x.val, hf m) :: ds, .cons ⟨pub_rep2.mp hp, ?_, hm m List.mem_cons_self⟩ hd, ?_⟩
      · exact mt (val_smul_eq_zero g2Gen_ne_zero r_smul_g2Gen).mp fun e => h0 (by rw [e]; exact List.mem_cons_self)
      · unfold total
        rw [← ht]; rfl

theorem verifyAggregate2 {ms : List (List UInt8)} (hm : ∀ m ∈ ms, ∃ H, G2Pubs.HashesTo sha m H)
    {l : List G2Pubs.PublicKey} {xs : List (ZMod r)} (h : List.Forall₂ (Pub2 g2Gen) l xs) {g : G2Pubs.Signature} {S : E1}
    (hg : Sig2 g S) : g.verifyAggregate sha l ms = (ideal sha (choice2 sha)).verifyAggregate ms xs S := by
  unfold ideal; dsimp only
  obtain ⟨hs, hS⟩ := sig_rep2.mp hg
  have hlen := h.length_eq
  by_cases h1 : xs.length = ms.length
  swap
  · rw [if_pos (Or.inl h1), G2Pubs.Signature.verifyAggregate, if_pos (by rw [bne_iff_ne, hlen]; exact h1)]
  by_cases h2 : ms.Nodup ∧ [] ∉ ms
  swap
  · rw [if_pos (Or.inr (by tauto)), G2Pubs.Signature.verifyAggregate, if_neg (by rw [bne_iff_ne, hlen, not_not]; exact h1),
      if_pos (by rw [Bool.not_eq_true', ← Bool.not_eq_true, noRepeat_sort]; exact h2)]
  rw [if_neg (by tauto)]
  by_cases h3 : 0 ∈ xs ∨ S = 0
  · rw [if_pos h3, G2Pubs.Signature.verifyAggregate, if_neg (by rw [bne_iff_ne, hlen, not_not]; exact h1),
      if_neg (by rw [(noRepeat_sort ms).mpr h2]; decide)]
    rcases h3 with h3 | rfl
    · rw [product_none2 h (hlen.trans h1) hm h3]
      cases pairing g.s G2Projective.one <;> rfl
    · exact G2Pubs.final_none hs
  · rw [if_neg h3]
    push Not at h3
    obtain ⟨ds, hd, ht⟩ := entries2 h (hlen.trans h1) (fun m h => hash2 (hm m h)) h3.1
    obtain ⟨c, e, hc⟩ := G2Pubs.verifyAggregate_spec hd hs hS h3.2 h2.1 h2.2
    rw [ht] at hc
    rw [e]; exact congrArg some (decide_of hc)

theorem related2 : Related (setting2 sha) (g2pubs sha) (ideal sha (choice2 sha)) Key2 (Pub2 g2Gen) Sig2 where
  readKey b hb := by
    show Key2 (G2Pubs.deserializeSecretKey b) (if beNat b < r then some (beNat b : ZMod r) else none)
    by_cases h : beNat b < r
    · rw [if_pos h]
      rw [← FRRepr.fromBytes_toNat hb] at h ⊢
      obtain ⟨a, e, ha⟩ := FR.ofRepr?_lt h
      exact ⟨a, e, fr_key ha⟩
    · rw [if_neg h]
      rw [← FRRepr.fromBytes_toNat hb] at h
      exact FR.ofRepr?_of_le (not_lt.mp h)
  derive b := by
    obtain ⟨f, e, hf⟩ := hashSecretKey_spec sha b
    show Option.Rel _ (G2Pubs.deriveSecretKey sha b) (some _)
    rw [G2Pubs.deriveSecretKey, e]
    exact .some ⟨f, rfl, fr_key hf⟩
  writeKey {k k'} h := by
    show k.serialize = k'.map Groups.choice.encF
    cases k' with
    | none => rw [G2Pubs.SecretKey.serialize, show k.f = none from h]; rfl
    | some x =>
      obtain ⟨f, e, hv, hi⟩ := h
      rw [G2Pubs.SecretKey.serialize, e]
      exact congrArg some (Groups.encF_eq (fr_of_key hv hi)).symm
  privToPub {k k'} h := by
    show Option.Rel _ (G2Pubs.privToPub k) k'
    cases k' with
    | none => rw [G2Pubs.privToPub, show k.f = none from h]; exact .none
    | some x =>
      obtain ⟨p, e, hp⟩ := G2Pubs.SecretKey.Holds.toPub h
      rw [e]; exact .some (pub_rep2.mpr hp)
  readPub b hb := by
    show Option.Rel _ ((G2Affine.decompress b).map fun a => (⟨a.toProjective⟩ : G2Pubs.PublicKey)) ((Groups.choice.dec2 b).map (log g2Gen))
    rcases hd : G2Affine.decompress b with _ | a
    · rw [Groups.dec2_none hd]; exact .none
    · obtain ⟨P, hP, h0⟩ := Groups.g2_decompress_rep hb hd
      rw [Groups.dec2_some hd hP]
      obtain ⟨k, rfl⟩ := E2.torsion h0
      rw [← natCast_val r_smul_g2Gen] at hP ⊢
      refine .some ?_
      rw [log_eq g2Gen_ne_zero r_smul_g2Gen]
      exact pub_rep2.mpr hP.toProjective
  writePub h := (Groups.enc2_eq (pub_rep2.mp h).toAffine).symm
  equalPub {x x' y y'} h h' := by
    refine bool_eq (((pub_rep2.mp h).equal (pub_rep2.mp h')).trans ?_)
    exact ⟨val_smul_inj g2Gen_ne_zero r_smul_g2Gen, fun e => by rw [e]⟩
  newPub := pub_rep2.mpr (by
    show G2Projective.zero.Rep ((0 : ZMod r).val • g2Gen)
    rw [zero_val]; exact .zero)
  addPub {x x' y y'} h h' := pub_rep2.mpr (by
    show (x.p.add y.p).Rep ((x' + y').val • g2Gen)
    rw [add_val r_smul_g2Gen]
    exact (pub_rep2.mp h).add (pub_rep2.mp h'))
  sumPub h := sumPub2 h
  readSig b hb := by
    show Option.Rel _ ((G1Affine.decompress b).map fun a => (⟨a.toProjective⟩ : G2Pubs.Signature)) (Groups.choice.dec1 b)
    rcases hd : G1Affine.decompress b with _ | a
    · rw [Groups.dec1_none hd]; exact .none
    · obtain ⟨P, hP, h0⟩ := Groups.g1_decompress_rep hb hd
      rw [Groups.dec1_some hd hP]
      exact .some (sig_rep2.mpr ⟨hP.toProjective, h0⟩)
  writeSig h := (Groups.enc1_eq (sig_rep2.mp h).1.toAffine).symm
  newSig := sig_rep2.mpr ⟨.zero, nsmul_zero _⟩
  addSig {x x' y y'} h h' := sig_rep2.mpr ⟨(sig_rep2.mp h).1.add (sig_rep2.mp h').1, by
    show r • (x' + y') = 0
    rw [nsmul_add, h.2, h'.2, add_zero]⟩
  sumSig h := sumSig2 h
  sign {m k k'} hm h := by
    show Option.Rel _ (G2Pubs.sign sha m k) (k'.map fun x => x.val • (choice2 sha).hash m)
    have hh := hash2 hm
    cases k' with
    | none =>
      obtain ⟨a, ha, -⟩ := hh
      rw [G2Pubs.sign, ha, show k.f = none from h]; exact .none
    | some x =>
      obtain ⟨g, e, hg⟩ := G2Pubs.SecretKey.Holds.sign h hh
      rw [e]
      obtain ⟨-, -, -, -, h0⟩ := hh
      exact .some (sig_rep2.mpr ⟨hg, nsmul_val _ h0⟩)
  verify hm hp hg := verify2 hm hp hg
  verifyCommon hm hl hg := verify2 hm (sumPub2 hl) hg
  verifyAggregate hm hl hg := verifyAggregate2 hm hl hg
  signIn hm _ := hm.elim
  verifyIn hm _ _ := hm.elim
  verifyCommonIn hm _ _ := hm.elim
  verifyAggregateIn hd _ _ _ := hd.elim

end Bls.Uses
