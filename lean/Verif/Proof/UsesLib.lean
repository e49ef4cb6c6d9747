import Verif.Proof.Uses
import Verif.Proof.GroupsLib
import Verif.Proof.SwEncode
/-
The functions of g1pubs agree with the ideal signature scheme.
-/
namespace Bls.Uses

open Classical
open Groups (rel_bind rel_map bool_eq nsmul_val)

/-! ## Multiples by scalars -/

section
variable {A : Type} [AddCommGroup A]

theorem add_val {P : A} (h : r • P = 0) (x y : ZMod r) : (x + y).val • P = x.val • P + y.val • P := by
  rw [ZMod.val_add, ← add_nsmul]
  conv_rhs => rw [← Nat.mod_add_div (x.val + y.val) r, add_nsmul, mul_nsmul, h, nsmul_zero, add_zero]

theorem zero_val (P : A) : (0 : ZMod r).val • P = 0 := by rw [ZMod.val_zero, zero_nsmul]

theorem sum_val {P : A} (h : r • P = 0) (l : List (ZMod r)) : l.sum.val • P = (l.map fun x => x.val • P).sum := by
  induction l with
  | nil => rw [List.sum_nil, List.map_nil, List.sum_nil, zero_val]
  | cons x l ih => rw [List.sum_cons, List.map_cons, List.sum_cons, add_val h, ih]

theorem val_smul_inj {P : A} (h0 : P ≠ 0) (h : r • P = 0) {x y : ZMod r} (e : x.val • P = y.val • P) : x = y :=
  ZMod.val_injective r (G1Pubs.nsmul_inj_of_lt h0 h (ZMod.val_lt x) (ZMod.val_lt y) e)

theorem val_smul_eq_zero {P : A} (h0 : P ≠ 0) (h : r • P = 0) {x : ZMod r} : x.val • P = 0 ↔ x = 0 :=
  ⟨fun e => val_smul_inj h0 h (e.trans (zero_val P).symm), fun e => by rw [e, zero_val]⟩

theorem natCast_val {P : A} (h : r • P = 0) (k : ℕ) : (k : ZMod r).val • P = k • P := by
  rw [ZMod.val_natCast]
  conv_rhs => rw [← Nat.mod_add_div k r, add_nsmul, mul_nsmul, h, nsmul_zero, add_zero]

theorem total_order {h : List UInt8 → A} (hr : ∀ m, r • h m = 0) (ms : List (List UInt8)) (xs : List (ZMod r)) :
    r • total h ms xs = 0 := by
  induction ms generalizing xs with
  | nil => exact nsmul_zero _
  | cons m ms ih =>
    cases xs with
    | nil => exact nsmul_zero _
    | cons x xs =>
      unfold total
      rw [nsmul_add, ih, add_zero]; exact nsmul_val _ (hr m)

/-- Which x a multiple x·P is. -/
noncomputable def log (P Q : A) : ZMod r := if h : ∃ x : ZMod r, Q = x.val • P then h.choose else 0

theorem log_eq {P : A} (h0 : P ≠ 0) (h : r • P = 0) (x : ZMod r) : log P (x.val • P) = x := by
  have hx : ∃ y : ZMod r, x.val • P = y.val • P := ⟨x, rfl⟩
  rw [log, dif_pos hx]
  exact (val_smul_inj h0 h hx.choose_spec).symm
end

theorem decide_of {b : Bool} {p : Prop} {_ : Decidable p} (h : b = true ↔ p) : b = decide p := bool_eq h

theorem some_decide {o : Option Bool} {p : Prop} {_ : Decidable p} (h : o = some true ↔ p) (hn : o ≠ none) : o = some (decide p) := by
  cases o with
  | none => exact (hn rfl).elim
  | some b => rw [bool_eq (b := b) (p := p) (by rw [← h, Option.some.injEq])]

theorem fr_key {f : FR} {x : ZMod r} (h : f.Rep x) : f.isValid = true ∧ f.int = x.val :=
  ⟨FR.isValid_iff.mpr h.valid, h.int⟩

theorem fr_of_key {f : FR} {k : ZMod r} (hv : f.isValid = true) (e : f.int = k.val) : f.Rep k := by
  have h := FR.rep_int hv
  rw [e, ZMod.natCast_zmod_val] at h
  exact h

/-! ## g1pubs -/

variable {sha : List UInt8 → List UInt8}

/-- The hash function's points, and the library's encodings. -/
noncomputable def choice1 (sha : List UInt8 → List UInt8) : Choice E2 where
  hash m := if h : ∃ H, G1Pubs.HashesTo sha m H then h.choose else 0
  hashIn d m := if h : ∃ H, G1Pubs.HashesToIn sha d m H then h.choose else 0
  encKey := Groups.choice.encF
  encPub x := Groups.choice.enc1 (x.val • g1Gen)
  encSig := Groups.choice.enc2
  decPub b := (Groups.choice.dec1 b).map (log g1Gen)
  decSig := Groups.choice.dec2

theorem hash1 {m : List UInt8} (h : ∃ H, G1Pubs.HashesTo sha m H) : G1Pubs.HashesTo sha m ((choice1 sha).hash m) := by
  unfold choice1; dsimp only; rw [dif_pos h]; exact h.choose_spec

theorem hashIn1 {d m : List UInt8} (h : ∃ H, G1Pubs.HashesToIn sha d m H) :
    G1Pubs.HashesToIn sha d m ((choice1 sha).hashIn d m) := by
  unfold choice1; dsimp only; rw [dif_pos h]; exact h.choose_spec

theorem decPub1 {b : List UInt8} (hb : b.length = 48) (x : ZMod r) :
    (choice1 sha).decPub b = some x ↔ b = (choice1 sha).encPub x := by
  show (Groups.choice.dec1 b).map (log g1Gen) = some x ↔ b = Groups.choice.enc1 (x.val • g1Gen)
  constructor
  · intro h
    obtain ⟨P, hP, rfl⟩ := Option.map_eq_some_iff.mp h
    obtain ⟨h0, rfl⟩ := (Groups.lawful.dec1 b P hb).mp hP
    obtain ⟨k, rfl⟩ := E1.torsion h0
    rw [← natCast_val r_smul_g1Gen, log_eq g1Gen_ne_zero r_smul_g1Gen]
  · rintro rfl
    rw [(Groups.lawful.dec1 _ _ hb).mpr ⟨nsmul_val _ r_smul_g1Gen, rfl⟩, Option.map_some,
      log_eq g1Gen_ne_zero r_smul_g1Gen]

theorem lawful1 : (choice1 sha).Lawful (setting1 sha) (G1Pubs.HashesTo sha) (G1Pubs.HashesToIn sha) where
  hash _ h := hash1 h
  hashIn _ _ h := hashIn1 h
  encKey := Groups.lawful.encF
  encPub x := ⟨Groups.lawful.enc1 _, (decPub1 (Groups.lawful.enc1 _) x).mpr rfl⟩
  encSig S h := ⟨Groups.lawful.enc2 _, Groups.lawful.dec2 S h⟩
  decSig b S hb h := Groups.lawful.order2 b S hb h

theorem pub_rep {p : G1Pubs.PublicKey} {x : ZMod r} : Pub1 g1Gen p x ↔ p.p.Rep (x.val • g1Gen) := G1Projective.denotes_iff

theorem sig_rep {g : G1Pubs.Signature} {S : E2} : Sig1 g S ↔ g.s.Rep S ∧ r • S = 0 := by
  rw [Sig1, G2Projective.denotes_iff]

theorem pubs_rep {l : List G1Pubs.PublicKey} {xs : List (ZMod r)} (h : List.Forall₂ (Pub1 g1Gen) l xs) :
    List.Forall₂ (fun p P => p.p.Rep P) l (xs.map fun x => x.val • g1Gen) := by
  induction h with
  | nil => exact .nil
  | cons h _ ih => exact .cons (pub_rep.mp h) ih

theorem sumPub1 {l : List G1Pubs.PublicKey} {xs : List (ZMod r)} (h : List.Forall₂ (Pub1 g1Gen) l xs) :
    Pub1 g1Gen (G1Pubs.aggregatePublicKeys l) xs.sum := by
  rw [pub_rep, sum_val r_smul_g1Gen]
  exact G1Pubs.aggregatePublicKeys_spec (pubs_rep h)

theorem sumSig1 {l : List G1Pubs.Signature} {Ss : List E2} (h : List.Forall₂ Sig1 l Ss) :
    Sig1 (G1Pubs.aggregateSignatures l) Ss.sum := by
  rw [sig_rep]
  refine ⟨G1Pubs.aggregateSignatures_spec (h.imp fun _ _ h => (sig_rep.mp h).1), ?_⟩
  induction h with
  | nil => exact nsmul_zero _
  | cons h _ ih => rw [List.sum_cons, nsmul_add, h.2, ih, add_zero]

theorem verify1 {m : List UInt8} (hm : ∃ H, G1Pubs.HashesTo sha m H) {p : G1Pubs.PublicKey} {x : ZMod r}
    (hp : Pub1 g1Gen p x) {g : G1Pubs.Signature} {S : E2} (hg : Sig1 g S) :
    G1Pubs.verify sha m p g = (ideal sha (choice1 sha)).verify m x S := by
  unfold ideal; dsimp only
  have hh := hash1 hm
  have hp' := pub_rep.mp hp
  obtain ⟨hs, hS⟩ := sig_rep.mp hg
  by_cases h : x = 0 ∨ S = 0
  · rw [if_pos h]
    obtain ⟨a, ha, hd, -⟩ := hh
    rw [G1Pubs.verify, ha, Option.bind_some]
    refine compareTwoPairings_none G1Affine.one_rep.toProjective hs hp' (G2Affine.denotes_iff.mp hd).toProjective ?_
    rcases h with rfl | rfl
    · exact Or.inr (Or.inl (zero_val _))
    · exact Or.inr (Or.inr (Or.inl rfl))
  · rw [if_neg h]
    push Not at h
    have := G1Pubs.verify_spec hh hp' (mt (val_smul_eq_zero g1Gen_ne_zero r_smul_g1Gen).mp h.1) hs hS
    exact some_decide this.1 (this.2 h.2)

theorem verifyIn1 {d m : List UInt8} (hm : ∃ H, G1Pubs.HashesToIn sha d m H) {p : G1Pubs.PublicKey} {x : ZMod r}
    (hp : Pub1 g1Gen p x) {g : G1Pubs.Signature} {S : E2} (hg : Sig1 g S) :
    G1Pubs.verifyWithDomain sha m p g d = (ideal sha (choice1 sha)).verifyIn d m x S := by
  unfold ideal; dsimp only
  have hh := hashIn1 hm
  have hp' := pub_rep.mp hp
  obtain ⟨hs, hS⟩ := sig_rep.mp hg
  by_cases h : x = 0 ∨ S = 0
  · rw [if_pos h]
    obtain ⟨a, ha, hd, -⟩ := hh
    rw [G1Pubs.verifyWithDomain, ha, Option.bind_some]
    refine compareTwoPairings_none G1Affine.one_rep.toProjective hs hp'
      (G2Projective.denotes_iff.mp hd).toAffine.toProjective ?_
    rcases h with rfl | rfl
    · exact Or.inr (Or.inl (zero_val _))
    · exact Or.inr (Or.inr (Or.inl rfl))
  · rw [if_neg h]
    push Not at h
    have := G1Pubs.verifyWithDomain_spec hh hp' (mt (val_smul_eq_zero g1Gen_ne_zero r_smul_g1Gen).mp h.1) hs hS
    exact some_decide this.1 (this.2 h.2)

theorem product_none1 {l : List G1Pubs.PublicKey} {xs : List (ZMod r)} (h : List.Forall₂ (Pub1 g1Gen) l xs)
    {ms : List (List UInt8)} (hl : l.length = ms.length) (hm : ∀ m ∈ ms, ∃ H, G1Pubs.HashesTo sha m H) (h0 : 0 ∈ xs)
    (e : FQ12) : G1Pubs.pairingProduct sha l ms e = none := by
  induction h generalizing ms e with
  | nil => cases h0
  | @cons p x l xs hp _ ih =>
    cases ms with
    | nil => cases hl
    | cons m ms =>
      obtain ⟨H, a, ha, hd, -⟩ := hm m List.mem_cons_self
      rw [G1Pubs.pairingProduct, ha, Option.bind_some]
      rcases List.mem_cons.mp h0 with h0 | h0
      · rw [pairing_none (pub_rep.mp hp) (G2Affine.denotes_iff.mp hd).toProjective
          (Or.inl (by rw [← h0]; exact zero_val _))]
        rfl
      · cases (pairing p.p a.toProjective).join with
        | none => rfl
        | some e' => exact ih (Nat.succ.inj hl) (fun m h => hm m (List.mem_cons_of_mem _ h)) h0 _

theorem productIn_none1 {d : List UInt8} {l : List G1Pubs.PublicKey} {xs : List (ZMod r)}
    (h : List.Forall₂ (Pub1 g1Gen) l xs) {ms : List (List UInt8)} (hl : l.length = ms.length)
    (hm : ∀ m ∈ ms, ∃ H, G1Pubs.HashesToIn sha d m H) (h0 : 0 ∈ xs) (e : FQ12) :
    G1Pubs.pairingProductWithDomain sha d l ms e = none := by
  induction h generalizing ms e with
  | nil => cases h0
  | @cons p x l xs hp _ ih =>
    cases ms with
    | nil => cases hl
    | cons m ms =>
      obtain ⟨H, a, ha, hd, -⟩ := hm m List.mem_cons_self
      rw [G1Pubs.pairingProductWithDomain, ha, Option.bind_some]
      rcases List.mem_cons.mp h0 with h0 | h0
      · rw [pairing_none (pub_rep.mp hp) (G2Projective.denotes_iff.mp hd).toAffine.toProjective
          (Or.inl (by rw [← h0]; exact zero_val _))]
        rfl
      · cases (pairing p.p a.toAffine.toProjective).join with
        | none => rfl
        | some e' => exact ih (Nat.succ.inj hl) (fun m h => hm m (List.mem_cons_of_mem _ h)) h0 _

theorem entries1 {Hash : List UInt8 → E2 → Prop} {hf : List UInt8 → E2} {l : List G1Pubs.PublicKey} {xs : List (ZMod r)}
    (h : List.Forall₂ (Pub1 g1Gen) l xs) {ms : List (List UInt8)} (hl : l.length = ms.length)
    (hm : ∀ m ∈ ms, Hash m (hf m)) (h0 : 0 ∉ xs) :
    ∃ ds, G1Pubs.Entries Hash l ms ds ∧ G1Pubs.total ds = total hf ms xs := by
  induction h generalizing ms with
  | nil =>
    cases ms with
    | nil => exact ⟨[], .nil, rfl⟩
    | cons => cases hl
  | @cons p x l xs hp _ ih =>
    cases ms with
    | nil => cases hl
    | cons m ms =>
      obtain ⟨ds, hd, ht⟩ := ih (Nat.succ.inj hl) (fun m h => hm m (List.mem_cons_of_mem _ h))
        fun h => h0 (List.mem_cons_of_mem _ h)
      refine ⟨(x.val, hf m) :: ds, .cons ⟨pub_rep.mp hp, ?_, hm m List.mem_cons_self⟩ hd, ?_⟩
      · exact mt (val_smul_eq_zero g1Gen_ne_zero r_smul_g1Gen).mp fun e => h0 (by rw [e]; exact List.mem_cons_self)
      · unfold total
        rw [← ht]; rfl

theorem verifyAggregate1 {ms : List (List UInt8)} (hm : ∀ m ∈ ms, ∃ H, G1Pubs.HashesTo sha m H)
    {l : List G1Pubs.PublicKey} {xs : List (ZMod r)} (h : List.Forall₂ (Pub1 g1Gen) l xs) {g : G1Pubs.Signature} {S : E2}
    (hg : Sig1 g S) : g.verifyAggregate sha l ms = (ideal sha (choice1 sha)).verifyAggregate ms xs S := by
  unfold ideal; dsimp only
  obtain ⟨hs, hS⟩ := sig_rep.mp hg
  have hlen := h.length_eq
  by_cases h1 : xs.length = ms.length
  swap
  · rw [if_pos (Or.inl h1), G1Pubs.Signature.verifyAggregate, if_pos (by rw [bne_iff_ne, hlen]; exact h1)]
  by_cases h2 : ms.Nodup ∧ [] ∉ ms
  swap
  · rw [if_pos (Or.inr (by tauto)), G1Pubs.Signature.verifyAggregate, if_neg (by rw [bne_iff_ne, hlen, not_not]; exact h1),
      if_pos (by rw [Bool.not_eq_true', ← Bool.not_eq_true, noRepeat_sort]; exact h2)]
  rw [if_neg (by tauto)]
  by_cases h3 : 0 ∈ xs ∨ S = 0
  · rw [if_pos h3, G1Pubs.Signature.verifyAggregate, if_neg (by rw [bne_iff_ne, hlen, not_not]; exact h1),
      if_neg (by rw [(noRepeat_sort ms).mpr h2]; decide)]
    rcases h3 with h3 | rfl
    · rw [product_none1 h (hlen.trans h1) hm h3]
      cases pairing G1Projective.one g.s <;> rfl
    · exact G1Pubs.final_none hs
  · rw [if_neg h3]
    push Not at h3
    obtain ⟨ds, hd, ht⟩ := entries1 h (hlen.trans h1) (fun m h => hash1 (hm m h)) h3.1
    obtain ⟨c, e, hc⟩ := G1Pubs.verifyAggregate_spec hd hs hS h3.2 h2.1 h2.2
    rw [ht] at hc
    rw [e]; exact congrArg some (decide_of hc)

theorem verifyAggregateIn1 {d : List UInt8} {ms : List (List UInt8)} (hm : ∀ m ∈ ms, ∃ H, G1Pubs.HashesToIn sha d m H)
    {l : List G1Pubs.PublicKey} {xs : List (ZMod r)} (h : List.Forall₂ (Pub1 g1Gen) l xs) {g : G1Pubs.Signature} {S : E2}
    (hg : Sig1 g S) : g.verifyAggregateWithDomain sha l ms d = (ideal sha (choice1 sha)).verifyAggregateIn d ms xs S := by
  unfold ideal; dsimp only
  obtain ⟨hs, hS⟩ := sig_rep.mp hg
  have hlen := h.length_eq
  by_cases h1 : xs.length = ms.length
  swap
  · rw [if_pos h1, G1Pubs.Signature.verifyAggregateWithDomain, if_pos (by rw [bne_iff_ne, hlen]; exact h1)]
  rw [if_neg (by tauto)]
  by_cases h3 : 0 ∈ xs ∨ S = 0
  · rw [if_pos h3, G1Pubs.Signature.verifyAggregateWithDomain, if_neg (by rw [bne_iff_ne, hlen, not_not]; exact h1)]
    rcases h3 with h3 | rfl
    · rw [productIn_none1 h (hlen.trans h1) hm h3]
      cases pairing G1Projective.one g.s <;> rfl
    · exact G1Pubs.final_none hs
  · rw [if_neg h3]
    push Not at h3
    obtain ⟨ds, hd, ht⟩ := entries1 h (hlen.trans h1) (fun m h => hashIn1 (hm m h)) h3.1
    obtain ⟨c, e, hc⟩ := G1Pubs.verifyAggregateWithDomain_spec hd hs hS h3.2
    rw [ht] at hc
    rw [e]; exact congrArg some (decide_of hc)

theorem related1 : Related (setting1 sha) (g1pubs sha) (ideal sha (choice1 sha)) Key1 (Pub1 g1Gen) Sig1 where
  readKey b hb := by
    show Key1 (G1Pubs.deserializeSecretKey b) (if beNat b < r then some (beNat b : ZMod r) else none)
    by_cases h : beNat b < r
    · rw [if_pos h]
      rw [← FRRepr.fromBytes_toNat hb] at h ⊢
      obtain ⟨a, e, ha⟩ := FR.ofRepr?_lt h
      exact ⟨a, e, fr_key ha⟩
    · rw [if_neg h]
      rw [← FRRepr.fromBytes_toNat hb] at h
      exact FR.ofRepr?_of_le (not_lt.mp h)
  derive b := by
    obtain ⟨f, e, hf⟩ := hashSecretKey_spec sha b
    show Option.Rel _ (G1Pubs.deriveSecretKey sha b) (some _)
    rw [G1Pubs.deriveSecretKey, e]
    exact .some ⟨f, rfl, fr_key hf⟩
  writeKey {k k'} h := by
    show k.serialize = k'.map Groups.choice.encF
    cases k' with
    | none => rw [G1Pubs.SecretKey.serialize, show k.f = none from h]; rfl
    | some x =>
      obtain ⟨f, e, hv, hi⟩ := h
      rw [G1Pubs.SecretKey.serialize, e]
      exact congrArg some (Groups.encF_eq (fr_of_key hv hi)).symm
  privToPub {k k'} h := by
    show Option.Rel _ (G1Pubs.privToPub k) k'
    cases k' with
    | none => rw [G1Pubs.privToPub, show k.f = none from h]; exact .none
    | some x =>
      obtain ⟨p, e, hp⟩ := G1Pubs.SecretKey.Holds.toPub h
      rw [e]; exact .some (pub_rep.mpr hp)
  readPub b hb := by
    show Option.Rel _ ((G1Affine.decompress b).map fun a => (⟨a.toProjective⟩ : G1Pubs.PublicKey)) ((Groups.choice.dec1 b).map (log g1Gen))
    rcases hd : G1Affine.decompress b with _ | a
    · rw [Groups.dec1_none hd]; exact .none
    · obtain ⟨P, hP, h0⟩ := Groups.g1_decompress_rep hb hd
      rw [Groups.dec1_some hd hP]
      obtain ⟨k, rfl⟩ := E1.torsion h0
      rw [← natCast_val r_smul_g1Gen] at hP ⊢
      refine .some ?_
      rw [log_eq g1Gen_ne_zero r_smul_g1Gen]
      exact pub_rep.mpr hP.toProjective
  writePub h := (Groups.enc1_eq (pub_rep.mp h).toAffine).symm
  equalPub {x x' y y'} h h' := by
    refine bool_eq (((pub_rep.mp h).equal (pub_rep.mp h')).trans ?_)
    exact ⟨val_smul_inj g1Gen_ne_zero r_smul_g1Gen, fun e => by rw [e]⟩
  newPub := pub_rep.mpr (by
    show G1Projective.zero.Rep ((0 : ZMod r).val • g1Gen)
    rw [zero_val]; exact .zero)
  addPub {x x' y y'} h h' := pub_rep.mpr (by
    show (x.p.add y.p).Rep ((x' + y').val • g1Gen)
    rw [add_val r_smul_g1Gen]
    exact (pub_rep.mp h).add (pub_rep.mp h'))
  sumPub h := sumPub1 h
  readSig b hb := by
    show Option.Rel _ ((G2Affine.decompress b).map fun a => (⟨a.toProjective⟩ : G1Pubs.Signature)) (Groups.choice.dec2 b)
    rcases hd : G2Affine.decompress b with _ | a
    · rw [Groups.dec2_none hd]; exact .none
    · obtain ⟨P, hP, h0⟩ := Groups.g2_decompress_rep hb hd
      rw [Groups.dec2_some hd hP]
      exact .some (sig_rep.mpr ⟨hP.toProjective, h0⟩)
  writeSig h := (Groups.enc2_eq (sig_rep.mp h).1.toAffine).symm
  newSig := sig_rep.mpr ⟨.zero, nsmul_zero _⟩
  addSig {x x' y y'} h h' := sig_rep.mpr ⟨(sig_rep.mp h).1.add (sig_rep.mp h').1, by
    show r • (x' + y') = 0
    rw [nsmul_add, h.2, h'.2, add_zero]⟩
  sumSig h := sumSig1 h
  sign {m k k'} hm h := by
    show Option.Rel _ (G1Pubs.sign sha m k) (k'.map fun x => x.val • (choice1 sha).hash m)
    have hh := hash1 hm
    cases k' with
    | none =>
      obtain ⟨a, ha, -⟩ := hh
      rw [G1Pubs.sign, ha, show k.f = none from h]; exact .none
    | some x =>
      obtain ⟨g, e, hg⟩ := G1Pubs.SecretKey.Holds.sign h hh
      rw [e]
      obtain ⟨-, -, -, -, h0⟩ := hh
      exact .some (sig_rep.mpr ⟨hg, nsmul_val _ h0⟩)
  verify hm hp hg := verify1 hm hp hg
  verifyCommon hm hl hg := verify1 hm (sumPub1 hl) hg
  verifyAggregate hm hl hg := verifyAggregate1 hm hl hg
  signIn {d m k k'} hm h := by
    show Option.Rel _ (G1Pubs.signWithDomain sha m k d) (k'.map fun x => x.val • (choice1 sha).hashIn d m)
    have hh := hashIn1 hm
    cases k' with
    | none =>
      obtain ⟨a, ha, -⟩ := hh
      rw [G1Pubs.signWithDomain, ha, show k.f = none from h]; exact .none
    | some x =>
      obtain ⟨g, e, hg⟩ := G1Pubs.SecretKey.Holds.signIn h hh
      rw [e]
      obtain ⟨-, -, -, -, h0⟩ := hh
      exact .some (sig_rep.mpr ⟨hg, nsmul_val _ h0⟩)
  verifyIn hm hp hg := verifyIn1 hm hp hg
  verifyCommonIn hm hl hg := verifyIn1 hm (sumPub1 hl) hg
  verifyAggregateIn _ hm hl hg := verifyAggregateIn1 hm hl hg

end Bls.Uses
