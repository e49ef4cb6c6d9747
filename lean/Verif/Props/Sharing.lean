import Verif.Spec.Sharing
import Verif.Props.Threshold
/-
C74: verifiable sharing and distributed key generation (Verif/Spec/Sharing.lean).
-/
set_option exponentiation.threshold 1000
namespace Bls.Props

/-! Sums of polynomials -/

private def padd : List FR → List FR → List FR
  | [], bs => bs
  | a :: as, [] => a :: as
  | a :: as, b :: bs => a.add b :: padd as bs

private theorem padd_valid : ∀ {as bs : List FR}, (∀ d ∈ as, d.isValid) → (∀ d ∈ bs, d.isValid) →
    ∀ d ∈ padd as bs, d.isValid
  | [], bs, _, hb => hb
  | a :: as, [], ha, _ => ha
  | a :: as, b :: bs, ha, hb => by
    intro d hd
    rw [padd] at hd
    rcases List.mem_cons.mp hd with rfl | hd
    · exact ((FR.rep_val (ha a List.mem_cons_self)).add (FR.rep_val (hb b List.mem_cons_self))).isValid
    · exact padd_valid (fun d m => ha d (List.mem_cons_of_mem _ m)) (fun d m => hb d (List.mem_cons_of_mem _ m)) d hd

private theorem padd_length : ∀ {as bs : List FR} {n : ℕ}, as.length < n → bs.length < n → (padd as bs).length < n
  | [], bs, _, _, hb => hb
  | a :: as, [], _, ha, _ => ha
  | a :: as, b :: bs, 0, ha, _ => absurd ha (Nat.not_lt_zero _)
  | a :: as, b :: bs, n + 1, ha, hb => by
    rw [padd, List.length_cons]
    exact Nat.succ_lt_succ (padd_length (Nat.lt_of_succ_lt_succ ha) (Nat.lt_of_succ_lt_succ hb))

private theorem padd_value (x : Fr) : ∀ {as bs : List FR}, (∀ d ∈ as, d.isValid) → (∀ d ∈ bs, d.isValid) →
    valueAt x ((padd as bs).map FR.val) = valueAt x (as.map FR.val) + valueAt x (bs.map FR.val)
  | [], bs, _, _ => (zero_add _).symm
  | a :: as, [], _, _ => (add_zero _).symm
  | a :: as, b :: bs, ha, hb => by
    have ih := padd_value x (as := as) (bs := bs) (fun d m => ha d (List.mem_cons_of_mem _ m))
      (fun d m => hb d (List.mem_cons_of_mem _ m))
    rw [padd, List.map_cons, List.map_cons, List.map_cons, valueAt, valueAt, valueAt, ih,
      ((FR.rep_val (ha a List.mem_cons_self)).add (FR.rep_val (hb b List.mem_cons_self))).eq]
    ring

private theorem sumScalars_rep {l : List FR} (h : ∀ d ∈ l, d.isValid) : (sumScalars l).Rep (l.map FR.val).sum := by
  have := foldl_add_rep (l := l) (vs := l.map FR.val) (by
    rw [List.forall₂_map_right_iff, List.forall₂_same]
    exact fun d m => FR.rep_val (h d m)) FR.zero_rep
  rwa [zero_add] at this

private theorem share_valid {x : FR} (hx : x.isValid) {cs : List FR} (hc : ∀ c ∈ cs, c.isValid) : (shareAt x cs).isValid :=
  (shareAt_rep hx hc).isValid

private theorem valid_cons' {c : FR} (hc : c.isValid) {cs : List FR} (hcs : ∀ d ∈ cs, d.isValid) :
    ∀ d ∈ c :: cs, d.isValid := fun d hd => by
  rcases List.mem_cons.mp hd with rfl | hd
  · exact hc
  · exact hcs d hd

/-- The dealers' polynomials have a sum, and the parties' keys are its shares. -/
private theorem sum_dealers {n : ℕ} (hn : 0 < n) {dealers : List (FR × List FR)}
    (hd : ∀ d ∈ dealers, d.1.isValid ∧ (∀ a ∈ d.2, a.isValid) ∧ d.2.length < n) :
    ∃ cs : List FR, (∀ a ∈ cs, a.isValid) ∧ cs.length < n ∧
      ∀ x : FR, x.isValid → dealtKey dealers x = shareAt x (sumScalars (dealers.map Prod.fst) :: cs) := by
  have key : ∃ cs : List FR, (∀ a ∈ cs, a.isValid) ∧ cs.length < n ∧ ∀ x : FR, x.isValid →
      ((dealers.map fun d => shareAt x (d.1 :: d.2)).map FR.val).sum =
        valueAt x.val (cs.map FR.val) * x.val + ((dealers.map Prod.fst).map FR.val).sum := by
    induction dealers with
    | nil => exact ⟨[], fun _ m => absurd m List.not_mem_nil, hn, fun x _ => by simp [valueAt]⟩
    | cons d ds ih =>
      obtain ⟨cs, h1, h2, h3⟩ := ih fun e m => hd e (List.mem_cons_of_mem _ m)
      obtain ⟨g1, g2, g3⟩ := hd d List.mem_cons_self
      refine ⟨padd d.2 cs, padd_valid g2 h1, padd_length g3 h2, fun x hx => ?_⟩
      rw [List.map_cons, List.map_cons, List.sum_cons, h3 x hx, padd_value _ g2 h1, List.map_cons, List.map_cons,
        List.sum_cons, (shareAt_rep hx (valid_cons' g1 g2)).eq, List.map_cons, valueAt]
      ring
  obtain ⟨cs, h1, h2, h3⟩ := key
  have hv : ∀ d ∈ dealers.map Prod.fst, d.isValid := fun a m => by
    obtain ⟨d, md, rfl⟩ := List.mem_map.mp m
    exact (hd d md).1
  refine ⟨cs, h1, h2, fun x hx => ?_⟩
  have hs := sumScalars_rep hv
  have e1 := sumScalars_rep (l := dealers.map fun d => shareAt x (d.1 :: d.2)) fun a m => by
    obtain ⟨d, md, rfl⟩ := List.mem_map.mp m
    exact share_valid hx (valid_cons' (hd d md).1 (hd d md).2.1)
  have e2 := shareAt_rep hx (valid_cons' hs.isValid h1)
  rw [List.map_cons, valueAt, hs.eq, ← h3 x hx] at e2
  exact e1.inj e2

private theorem forall₂_mem' {α β : Type} {R R' : α → β → Prop} {l : List α} {m : List β} (h : List.Forall₂ R l m)
    (k : ∀ a b, a ∈ l → R a b → R' a b) : List.Forall₂ R' l m := by
  induction h with
  | nil => exact .nil
  | cons h _ ih => exact .cons (k _ _ List.mem_cons_self h) (ih fun a b m => k a b (List.mem_cons_of_mem _ m))

/-! ## g1pubs -/

private theorem holds1' {f : FR} {x : Fr} (h : f.Rep x) : (G1Pubs.keyOf f).Holds x.val := by
  have := (C13_keyFromFQRepr_g1pubs f.toRepr).1 (by rw [h.toRepr]; exact ZMod.val_lt x)
  rwa [h.toRepr] at this

private theorem committedAt_rep1 {x : FR} (hx : x.isValid) {cs : List FR} {Cs : List G1Pubs.PublicKey}
    (h : List.Forall₂ (fun c C => c.isValid = true ∧ G1Projective.Rep (G1Pubs.PublicKey.p C) (c.val.val • g1Gen)) cs Cs) :
    (G1Pubs.committedAt x Cs).p.Rep ((valueAt x.val (cs.map FR.val)).val • g1Gen) := by
  induction h with
  | nil =>
    rw [List.map_nil, valueAt, ZMod.val_zero, zero_nsmul]
    exact G1Projective.Rep.zero
  | @cons c C cs Cs h _ ih =>
    have h1 : G1Projective.Rep (G1Pubs.newPublicKeyFromG1 ((G1Pubs.committedAt x Cs).getPoint.mulFR x.toRepr).toAffine).p _ :=
      G1Affine.Rep.toProjective (G1Projective.Rep.toAffine (G1Projective.Rep.mulFR ih x.toRepr))
    have h2 := G1Pubs.aggregatePublicKeys_spec (l := [_, C]) (.cons h1 (.cons h.2 .nil))
    rw [G1Pubs.committedAt, List.map_cons, valueAt]
    rw [List.sum_cons, List.sum_singleton, (FR.rep_val hx).toRepr, ← mul_nsmul, ← add_nsmul] at h2
    rw [val_nsmul r_smul_g1Gen (x := valueAt x.val (cs.map FR.val) * x.val + c.val) (by
      push_cast
      rw [ZMod.natCast_zmod_val, ZMod.natCast_zmod_val, ZMod.natCast_zmod_val])] at h2
    exact h2

private theorem check1 {x s : FR} (hx : x.isValid) (hs : s.isValid) {cs : List FR} {Cs : List G1Pubs.PublicKey}
    (h : List.Forall₂ (fun c C => c.isValid = true ∧ G1Projective.Rep (G1Pubs.PublicKey.p C) (c.val.val • g1Gen)) cs Cs) :
    ∃ p, G1Pubs.privToPub (G1Pubs.keyOf s) = some p ∧
      (p.equals (G1Pubs.committedAt x Cs) = true ↔ s = shareAt x cs) := by
  obtain ⟨p, p1, p2⟩ := (holds1' (FR.rep_val hs)).toPub
  refine ⟨p, p1, ?_⟩
  have hv : ∀ d ∈ cs, d.isValid := by
    clear p1 p2 hs
    induction h with
    | nil => exact fun _ m => absurd m List.not_mem_nil
    | cons h _ ih => exact valid_cons' h.1 ih
  rw [G1Pubs.PublicKey.equals, p2.equal (committedAt_rep1 hx h)]
  constructor
  · intro e
    have := G1Pubs.nsmul_inj_of_lt g1Gen_ne_zero r_smul_g1Gen (ZMod.val_lt _) (ZMod.val_lt _) e
    have := ZMod.val_injective r this
    exact (FR.rep_val hs).inj (this ▸ shareAt_rep hx hv)
  · rintro rfl
    rw [(shareAt_rep hx hv).eq]

/-- A party checks its share against the dealer's commitments, the public keys of the coefficients: a scalar passes
exactly if it is the share. -/
theorem C74_check_g1pubs (cs : List FR) (hc : ∀ c ∈ cs, c.isValid) (Cs : List G1Pubs.PublicKey)
    (hC : List.Forall₂ (fun c C => G1Pubs.privToPub (G1Pubs.keyOf c) = some C) cs Cs) (x s : FR) (hx : x.isValid)
    (hs : s.isValid) :
    ∃ p, G1Pubs.privToPub (G1Pubs.keyOf s) = some p ∧
      (p.equals (G1Pubs.committedAt x Cs) = true ↔ s = shareAt x cs) := by
  refine check1 hx hs ?_
  induction hC with
  | nil => exact .nil
  | @cons c C cs Cs h _ ih =>
    have hv := hc c List.mem_cons_self
    obtain ⟨p, p1, p2⟩ := (holds1' (FR.rep_val hv)).toPub
    rw [h, Option.some_inj] at p1
    exact .cons ⟨hv, p1 ▸ p2⟩ (ih fun c m => hc c (List.mem_cons_of_mem _ m))

/-- Commitments bind whoever made them: any keys in the subgroup are commitments to the coefficients of some polynomial,
and only its shares pass. -/
theorem C74_binding_g1pubs (Cs : List G1Pubs.PublicKey) (Ps : List E1)
    (hC : List.Forall₂ (fun (C : G1Pubs.PublicKey) P => C.p.Denotes P) Cs Ps) (hr : ∀ P ∈ Ps, r • P = 0) :
    ∃ cs : List FR, (∀ c ∈ cs, c.isValid) ∧
      List.Forall₂ (fun c C => ∃ p, G1Pubs.privToPub (G1Pubs.keyOf c) = some p ∧ p.equals C = true) cs Cs ∧
      ∀ x s : FR, x.isValid → s.isValid → ∃ p, G1Pubs.privToPub (G1Pubs.keyOf s) = some p ∧
        (p.equals (G1Pubs.committedAt x Cs) = true ↔ s = shareAt x cs) := by
  have key : ∃ cs : List FR, (∀ c ∈ cs, c.isValid) ∧
      List.Forall₂ (fun c C => ∃ p, G1Pubs.privToPub (G1Pubs.keyOf c) = some p ∧ p.equals C = true) cs Cs ∧
      List.Forall₂ (fun c C => c.isValid = true ∧ G1Projective.Rep (G1Pubs.PublicKey.p C) (c.val.val • g1Gen)) cs Cs := by
    induction hC with
    | nil => exact ⟨[], fun _ m => absurd m List.not_mem_nil, .nil, .nil⟩
    | @cons C P Cs Ps h _ ih =>
      obtain ⟨cs, h1, h2, h3⟩ := ih fun P m => hr P (List.mem_cons_of_mem _ m)
      obtain ⟨k, rfl⟩ := E1.torsion (hr P List.mem_cons_self)
      obtain ⟨c, hc⟩ := FR.exists_rep (k : Fr)
      have hg := G1Projective.denotes_iff.mp h
      rw [val_nsmul r_smul_g1Gen (k := k) rfl] at hg
      obtain ⟨p, p1, p2⟩ := (holds1' hc).toPub
      refine ⟨c :: cs, valid_cons' hc.isValid h1, .cons ⟨p, p1, (p2.equal hg).mpr rfl⟩ h2, .cons ⟨hc.isValid, ?_⟩ h3⟩
      rw [hc.eq]
      exact hg
  obtain ⟨cs, h1, h2, h3⟩ := key
  exact ⟨cs, h1, h2, fun x s hx hs => check1 hx hs h3⟩

/-- Several dealers, each with a secret of its own: every party adds up the shares it receives and signs with the sum. The
signatures of enough parties combine to the signature made with the sum of the secrets, which nobody has, and it verifies
under the aggregate of the dealers' public keys. -/
theorem C74_dkg_g1pubs (sha : List UInt8 → List UInt8) (m : List UInt8) (H : E2) (hm : G1Pubs.HashesTo sha m H)
    (dealers : List (FR × List FR)) (xs : List FR) (hx : ∀ x ∈ xs, x.isValid) (hn : xs.Nodup) (h0 : xs ≠ [])
    (hd : ∀ d ∈ dealers, d.1.isValid ∧ (∀ a ∈ d.2, a.isValid) ∧ d.2.length < xs.length) :
    ∃ sigs keys sig key whole pubs,
      List.Forall₂ (fun x s => G1Pubs.sign sha m (G1Pubs.keyOf (dealtKey dealers x)) = some s) xs sigs ∧
      List.Forall₂ (fun x p => G1Pubs.privToPub (G1Pubs.keyOf (dealtKey dealers x)) = some p) xs keys ∧
      List.Forall₂ (fun d p => G1Pubs.privToPub (G1Pubs.keyOf d.1) = some p) dealers pubs ∧
      G1Pubs.combineSignatures (xs.zip sigs) = some sig ∧ G1Pubs.combineKeys (xs.zip keys) = some key ∧
      G1Pubs.sign sha m (G1Pubs.keyOf (sumScalars (dealers.map Prod.fst))) = some whole ∧
      sig.serialize = whole.serialize ∧ key.serialize = (G1Pubs.aggregatePublicKeys pubs).serialize ∧
      ((sumScalars (dealers.map Prod.fst)).int ≠ 0 →
        G1Pubs.verify sha m (G1Pubs.aggregatePublicKeys pubs) sig = some true) := by
  obtain ⟨cs, h1, h2, h3⟩ := sum_dealers (List.length_pos_iff.mpr h0) hd
  have hv : ∀ d ∈ dealers.map Prod.fst, d.isValid := fun a m => by
    obtain ⟨d, md, rfl⟩ := List.mem_map.mp m
    exact (hd d md).1
  have hs := sumScalars_rep hv
  obtain ⟨sigs, keys, sig, key, whole, pub, k1, k2, k3, k4, k5, k6, k7, k8, _, k10⟩ :=
    C72_g1pubs sha m H hm _ hs.isValid cs h1 xs hx hn h2
  obtain ⟨pubs, hp⟩ := forall₂_of_forall (l := dealers) (R := fun d p =>
      G1Pubs.privToPub (G1Pubs.keyOf d.1) = some p ∧ G1Projective.Rep (G1Pubs.PublicKey.p p) (d.1.val.val • g1Gen)) fun d m =>
    (holds1' (FR.rep_val (hd d m).1)).toPub
  have ha := G1Pubs.aggregatePublicKeys_spec (l := pubs) (Ps := dealers.map fun d => d.1.val.val • g1Gen) (by
    rw [List.forall₂_map_right_iff]
    exact hp.flip.imp fun _ _ h => h.2)
  have hsum : (dealers.map fun d => d.1.val.val • g1Gen).sum = ((dealers.map Prod.fst).map FR.val).sum.val • g1Gen := by
    clear hp ha k1 k2 k3 k4 k5 k6 k7 k8 k10 h3 hs hv
    induction dealers with
    | nil => rw [List.map_nil, List.map_nil, List.map_nil, List.sum_nil, List.sum_nil, ZMod.val_zero, zero_nsmul]
    | cons d ds ih =>
      rw [List.map_cons, List.sum_cons, ih fun e m => hd e (List.mem_cons_of_mem _ m), ← add_nsmul, List.map_cons,
        List.map_cons, List.sum_cons]
      exact val_nsmul r_smul_g1Gen (by push_cast; rw [ZMod.natCast_zmod_val, ZMod.natCast_zmod_val])
  rw [hsum] at ha
  obtain ⟨pub', p1, p2⟩ := (holds1' hs).toPub
  rw [k6, Option.some_inj] at p1
  subst p1
  have e : pub.p.toAffine = (G1Pubs.aggregatePublicKeys pubs).p.toAffine := p2.toAffine.inj ha.toAffine
  refine ⟨sigs, keys, sig, key, whole, pubs, ?_, ?_, hp.imp fun _ _ h => h.1, k3, k4, k5, k7, ?_, fun h0 => ?_⟩
  · exact forall₂_mem' k1 fun x s m h => by rw [h3 x (hx x m)]; exact h
  · exact forall₂_mem' k2 fun x s m h => by rw [h3 x (hx x m)]; exact h
  · rw [k8, G1Pubs.PublicKey.serialize, G1Pubs.PublicKey.serialize, e]
  · have k := (k10 h0).1
    unfold G1Pubs.verify compareTwoPairings at k ⊢
    have en : pub.p.neg.toAffine = (G1Pubs.aggregatePublicKeys pubs).p.neg.toAffine := p2.neg.toAffine.inj ha.neg.toAffine
    simpa only [en, e] using k

/-- The same in a domain. -/
theorem C74_dkgDomain_g1pubs (sha : List UInt8 → List UInt8) (m dom : List UInt8) (H : E2) (hm : G1Pubs.HashesToIn sha dom m H)
    (dealers : List (FR × List FR)) (xs : List FR) (hx : ∀ x ∈ xs, x.isValid) (hn : xs.Nodup) (h0 : xs ≠ [])
    (hd : ∀ d ∈ dealers, d.1.isValid ∧ (∀ a ∈ d.2, a.isValid) ∧ d.2.length < xs.length) :
    ∃ sigs keys sig key whole pubs,
      List.Forall₂ (fun x s => G1Pubs.signWithDomain sha m (G1Pubs.keyOf (dealtKey dealers x)) dom = some s) xs sigs ∧
      List.Forall₂ (fun x p => G1Pubs.privToPub (G1Pubs.keyOf (dealtKey dealers x)) = some p) xs keys ∧
      List.Forall₂ (fun d p => G1Pubs.privToPub (G1Pubs.keyOf d.1) = some p) dealers pubs ∧
      G1Pubs.combineSignatures (xs.zip sigs) = some sig ∧ G1Pubs.combineKeys (xs.zip keys) = some key ∧
      G1Pubs.signWithDomain sha m (G1Pubs.keyOf (sumScalars (dealers.map Prod.fst))) dom = some whole ∧
      sig.serialize = whole.serialize ∧ key.serialize = (G1Pubs.aggregatePublicKeys pubs).serialize ∧
      ((sumScalars (dealers.map Prod.fst)).int ≠ 0 →
        G1Pubs.verifyWithDomain sha m (G1Pubs.aggregatePublicKeys pubs) sig dom = some true) := by
  obtain ⟨cs, h1, h2, h3⟩ := sum_dealers (List.length_pos_iff.mpr h0) hd
  have hv : ∀ d ∈ dealers.map Prod.fst, d.isValid := fun a m => by
    obtain ⟨d, md, rfl⟩ := List.mem_map.mp m
    exact (hd d md).1
  have hs := sumScalars_rep hv
  obtain ⟨sigs, keys, sig, key, whole, pub, k1, k2, k3, k4, k5, k6, k7, k8, _, k10⟩ :=
    C72_domain_g1pubs sha m dom H hm _ hs.isValid cs h1 xs hx hn h2
  obtain ⟨pubs, hp⟩ := forall₂_of_forall (l := dealers) (R := fun d p =>
      G1Pubs.privToPub (G1Pubs.keyOf d.1) = some p ∧ G1Projective.Rep (G1Pubs.PublicKey.p p) (d.1.val.val • g1Gen)) fun d m =>
    (holds1' (FR.rep_val (hd d m).1)).toPub
  have ha := G1Pubs.aggregatePublicKeys_spec (l := pubs) (Ps := dealers.map fun d => d.1.val.val • g1Gen) (by
    rw [List.forall₂_map_right_iff]
    exact hp.flip.imp fun _ _ h => h.2)
  have hsum : (dealers.map fun d => d.1.val.val • g1Gen).sum = ((dealers.map Prod.fst).map FR.val).sum.val • g1Gen := by
    clear hp ha k1 k2 k3 k4 k5 k6 k7 k8 k10 h3 hs hv
    induction dealers with
    | nil => rw [List.map_nil, List.map_nil, List.map_nil, List.sum_nil, List.sum_nil, ZMod.val_zero, zero_nsmul]
    | cons d ds ih =>
      rw [List.map_cons, List.sum_cons, ih fun e m => hd e (List.mem_cons_of_mem _ m), ← add_nsmul, List.map_cons,
        List.map_cons, List.sum_cons]
      exact val_nsmul r_smul_g1Gen (by push_cast; rw [ZMod.natCast_zmod_val, ZMod.natCast_zmod_val])
  rw [hsum] at ha
  obtain ⟨pub', p1, p2⟩ := (holds1' hs).toPub
  rw [k6, Option.some_inj] at p1
  subst p1
  have e : pub.p.toAffine = (G1Pubs.aggregatePublicKeys pubs).p.toAffine := p2.toAffine.inj ha.toAffine
  refine ⟨sigs, keys, sig, key, whole, pubs, ?_, ?_, hp.imp fun _ _ h => h.1, k3, k4, k5, k7, ?_, fun h0 => ?_⟩
  · exact forall₂_mem' k1 fun x s m h => by rw [h3 x (hx x m)]; exact h
  · exact forall₂_mem' k2 fun x s m h => by rw [h3 x (hx x m)]; exact h
  · rw [k8, G1Pubs.PublicKey.serialize, G1Pubs.PublicKey.serialize, e]
  · have k := (k10 h0).1
    unfold G1Pubs.verifyWithDomain compareTwoPairings at k ⊢
    have en : pub.p.neg.toAffine = (G1Pubs.aggregatePublicKeys pubs).p.neg.toAffine := p2.neg.toAffine.inj ha.neg.toAffine
    simpa only [en, e] using k

/-! ## g2pubs -/

private theorem holds2' {f : FR} {x : Fr} (h : f.Rep x) : (G2Pubs.keyOf f).Holds x.val := by
  have := (C13_keyFromFQRepr_g2pubs f.toRepr).1 (by rw [h.toRepr]; exact ZMod.val_lt x)
  rwa [h.toRepr] at this

private theorem committedAt_rep2 {x : FR} (hx : x.isValid) {cs : List FR} {Cs : List G2Pubs.PublicKey}
    (h : List.Forall₂ (fun c C => c.isValid = true ∧ G2Projective.Rep (G2Pubs.PublicKey.p C) (c.val.val • g2Gen)) cs Cs) :
    (G2Pubs.committedAt x Cs).p.Rep ((valueAt x.val (cs.map FR.val)).val • g2Gen) := by
  induction h with
  | nil =>
    rw [List.map_nil, valueAt, ZMod.val_zero, zero_nsmul]
    exact G2Projective.Rep.zero
  | @cons c C cs Cs h _ ih =>
    have h1 : G2Projective.Rep (G2Pubs.newPublicKeyFromG2 ((G2Pubs.committedAt x Cs).getPoint.mulFR x.toRepr).toAffine).p _ :=
      G2Affine.Rep.toProjective (G2Projective.Rep.toAffine (G2Projective.Rep.mulFR ih x.toRepr))
    have h2 := G2Pubs.aggregatePublicKeys_spec (l := [_, C]) (.cons h1 (.cons h.2 .nil))
    rw [G2Pubs.committedAt, List.map_cons, valueAt]
    rw [List.sum_cons, List.sum_singleton, (FR.rep_val hx).toRepr, ← mul_nsmul, ← add_nsmul] at h2
    rw [val_nsmul r_smul_g2Gen (x := valueAt x.val (cs.map FR.val) * x.val + c.val) (by
      push_cast
      rw [ZMod.natCast_zmod_val, ZMod.natCast_zmod_val, ZMod.natCast_zmod_val])] at h2
    exact h2

private theorem check2 {x s : FR} (hx : x.isValid) (hs : s.isValid) {cs : List FR} {Cs : List G2Pubs.PublicKey}
    (h : List.Forall₂ (fun c C => c.isValid = true ∧ G2Projective.Rep (G2Pubs.PublicKey.p C) (c.val.val • g2Gen)) cs Cs) :
    ∃ p, G2Pubs.privToPub (G2Pubs.keyOf s) = some p ∧
      (p.equals (G2Pubs.committedAt x Cs) = true ↔ s = shareAt x cs) := by
  obtain ⟨p, p1, p2⟩ := (holds2' (FR.rep_val hs)).toPub
  refine ⟨p, p1, ?_⟩
  have hv : ∀ d ∈ cs, d.isValid := by
    clear p1 p2 hs
    induction h with
    | nil => exact fun _ m => absurd m List.not_mem_nil
    | cons h _ ih => exact valid_cons' h.1 ih
  rw [G2Pubs.PublicKey.equals, p2.equal (committedAt_rep2 hx h)]
  constructor
  · intro e
    have := G1Pubs.nsmul_inj_of_lt g2Gen_ne_zero r_smul_g2Gen (ZMod.val_lt _) (ZMod.val_lt _) e
    have := ZMod.val_injective r this
    exact (FR.rep_val hs).inj (this ▸ shareAt_rep hx hv)
  · rintro rfl
    rw [(shareAt_rep hx hv).eq]

/-- A party checks its share against the dealer's commitments, the public keys of the coefficients: a scalar passes
exactly if it is the share. -/
theorem C74_check_g2pubs (cs : List FR) (hc : ∀ c ∈ cs, c.isValid) (Cs : List G2Pubs.PublicKey)
    (hC : List.Forall₂ (fun c C => G2Pubs.privToPub (G2Pubs.keyOf c) = some C) cs Cs) (x s : FR) (hx : x.isValid)
    (hs : s.isValid) :
    ∃ p, G2Pubs.privToPub (G2Pubs.keyOf s) = some p ∧
      (p.equals (G2Pubs.committedAt x Cs) = true ↔ s = shareAt x cs) := by
  refine check2 hx hs ?_
  induction hC with
  | nil => exact .nil
  | @cons c C cs Cs h _ ih =>
    have hv := hc c List.mem_cons_self
    obtain ⟨p, p1, p2⟩ := (holds2' (FR.rep_val hv)).toPub
    rw [h, Option.some_inj] at p1
    exact .cons ⟨hv, p1 ▸ p2⟩ (ih fun c m => hc c (List.mem_cons_of_mem _ m))

/-- Commitments bind whoever made them: any keys in the subgroup are commitments to the coefficients of some polynomial,
and only its shares pass. -/
theorem C74_binding_g2pubs (Cs : List G2Pubs.PublicKey) (Ps : List E2)
    (hC : List.Forall₂ (fun (C : G2Pubs.PublicKey) P => C.p.Denotes P) Cs Ps) (hr : ∀ P ∈ Ps, r • P = 0) :
    ∃ cs : List FR, (∀ c ∈ cs, c.isValid) ∧
      List.Forall₂ (fun c C => ∃ p, G2Pubs.privToPub (G2Pubs.keyOf c) = some p ∧ p.equals C = true) cs Cs ∧
      ∀ x s : FR, x.isValid → s.isValid → ∃ p, G2Pubs.privToPub (G2Pubs.keyOf s) = some p ∧
        (p.equals (G2Pubs.committedAt x Cs) = true ↔ s = shareAt x cs) := by
  have key : ∃ cs : List FR, (∀ c ∈ cs, c.isValid) ∧
      List.Forall₂ (fun c C => ∃ p, G2Pubs.privToPub (G2Pubs.keyOf c) = some p ∧ p.equals C = true) cs Cs ∧
      List.Forall₂ (fun c C => c.isValid = true ∧ G2Projective.Rep (G2Pubs.PublicKey.p C) (c.val.val • g2Gen)) cs Cs := by
    induction hC with
    | nil => exact ⟨[], fun _ m => absurd m List.not_mem_nil, .nil, .nil⟩
    | @cons C P Cs Ps h _ ih =>
      obtain ⟨cs, h1, h2, h3⟩ := ih fun P m => hr P (List.mem_cons_of_mem _ m)
      obtain ⟨k, rfl⟩ := E2.torsion (hr P List.mem_cons_self)
      obtain ⟨c, hc⟩ := FR.exists_rep (k : Fr)
      have hg := G2Projective.denotes_iff.mp h
      rw [val_nsmul r_smul_g2Gen (k := k) rfl] at hg
      obtain ⟨p, p1, p2⟩ := (holds2' hc).toPub
      refine ⟨c :: cs, valid_cons' hc.isValid h1, .cons ⟨p, p1, (p2.equal hg).mpr rfl⟩ h2, .cons ⟨hc.isValid, ?_⟩ h3⟩
      rw [hc.eq]
      exact hg
  obtain ⟨cs, h1, h2, h3⟩ := key
  exact ⟨cs, h1, h2, fun x s hx hs => check2 hx hs h3⟩

/-- Several dealers, each with a secret of its own: every party adds up the shares it receives and signs with the sum. The
signatures of enough parties combine to the signature made with the sum of the secrets, which nobody has, and it verifies
under the aggregate of the dealers' public keys. -/
theorem C74_dkg_g2pubs (sha : List UInt8 → List UInt8) (m : List UInt8) (H : E1) (hm : G2Pubs.HashesTo sha m H)
    (dealers : List (FR × List FR)) (xs : List FR) (hx : ∀ x ∈ xs, x.isValid) (hn : xs.Nodup) (h0 : xs ≠ [])
    (hd : ∀ d ∈ dealers, d.1.isValid ∧ (∀ a ∈ d.2, a.isValid) ∧ d.2.length < xs.length) :
    ∃ sigs keys sig key whole pubs,
      List.Forall₂ (fun x s => G2Pubs.sign sha m (G2Pubs.keyOf (dealtKey dealers x)) = some s) xs sigs ∧
      List.Forall₂ (fun x p => G2Pubs.privToPub (G2Pubs.keyOf (dealtKey dealers x)) = some p) xs keys ∧
      List.Forall₂ (fun d p => G2Pubs.privToPub (G2Pubs.keyOf d.1) = some p) dealers pubs ∧
      G2Pubs.combineSignatures (xs.zip sigs) = some sig ∧ G2Pubs.combineKeys (xs.zip keys) = some key ∧
      G2Pubs.sign sha m (G2Pubs.keyOf (sumScalars (dealers.map Prod.fst))) = some whole ∧
      sig.serialize = whole.serialize ∧ key.serialize = (G2Pubs.aggregatePublicKeys pubs).serialize ∧
      ((sumScalars (dealers.map Prod.fst)).int ≠ 0 →
        G2Pubs.verify sha m (G2Pubs.aggregatePublicKeys pubs) sig = some true) := by
  obtain ⟨cs, h1, h2, h3⟩ := sum_dealers (List.length_pos_iff.mpr h0) hd
  have hv : ∀ d ∈ dealers.map Prod.fst, d.isValid := fun a m => by
    obtain ⟨d, md, rfl⟩ := List.mem_map.mp m
    exact (hd d md).1
  have hs := sumScalars_rep hv
  obtain ⟨sigs, keys, sig, key, whole, pub, k1, k2, k3, k4, k5, k6, k7, k8, _, k10⟩ :=
    C72_g2pubs sha m H hm _ hs.isValid cs h1 xs hx hn h2
  obtain ⟨pubs, hp⟩ := forall₂_of_forall (l := dealers) (R := fun d p =>
      G2Pubs.privToPub (G2Pubs.keyOf d.1) = some p ∧ G2Projective.Rep (G2Pubs.PublicKey.p p) (d.1.val.val • g2Gen)) fun d m =>
    (holds2' (FR.rep_val (hd d m).1)).toPub
  have ha := G2Pubs.aggregatePublicKeys_spec (l := pubs) (Ps := dealers.map fun d => d.1.val.val • g2Gen) (by
    rw [List.forall₂_map_right_iff]
    exact hp.flip.imp fun _ _ h => h.2)
  have hsum : (dealers.map fun d => d.1.val.val • g2Gen).sum = ((dealers.map Prod.fst).map FR.val).sum.val • g2Gen := by
    clear hp ha k1 k2 k3 k4 k5 k6 k7 k8 k10 h3 hs hv
    induction dealers with
    | nil => rw [List.map_nil, List.map_nil, List.map_nil, List.sum_nil, List.sum_nil, ZMod.val_zero, zero_nsmul]
    | cons d ds ih =>
      rw [List.map_cons, List.sum_cons, ih fun e m => hd e (List.mem_cons_of_mem _ m), ← add_nsmul, List.map_cons,
        List.map_cons, List.sum_cons]
      exact val_nsmul r_smul_g2Gen (by push_cast; rw [ZMod.natCast_zmod_val, ZMod.natCast_zmod_val])
  rw [hsum] at ha
  obtain ⟨pub', p1, p2⟩ := (holds2' hs).toPub
  rw [k6, Option.some_inj] at p1
  subst p1
  have e : pub.p.toAffine = (G2Pubs.aggregatePublicKeys pubs).p.toAffine := p2.toAffine.inj ha.toAffine
  refine ⟨sigs, keys, sig, key, whole, pubs, ?_, ?_, hp.imp fun _ _ h => h.1, k3, k4, k5, k7, ?_, fun h0 => ?_⟩
  · exact forall₂_mem' k1 fun x s m h => by rw [h3 x (hx x m)]; exact h
  · exact forall₂_mem' k2 fun x s m h => by rw [h3 x (hx x m)]; exact h
  · rw [k8, G2Pubs.PublicKey.serialize, G2Pubs.PublicKey.serialize, e]
  · have k := (k10 h0).1
    unfold G2Pubs.verify compareTwoPairings at k ⊢
    simpa only [e] using k

/-- The hypotheses of C74_dkg and C74_check are met: two dealers, two parties, one of two coefficients each. -/
example : ∃ a b x y : FR, (∀ d ∈ [(a, [b]), (b, [a])], d.1.isValid ∧ (∀ e ∈ d.2, e.isValid) ∧ d.2.length < [x, y].length) ∧
    (∀ z ∈ [x, y], z.isValid) ∧ [x, y].Nodup ∧ (sumScalars ([(a, [b]), (b, [a])].map Prod.fst)).int ≠ 0 ∧
    dealtKey [(a, [b]), (b, [a])] x ≠ dealtKey [(a, [b]), (b, [a])] y :=
  ⟨FR.mul ⟨.new 7⟩ ⟨frR2⟩, FR.mul ⟨.new 5⟩ ⟨frR2⟩, FR.one, FR.mul ⟨.new 2⟩ ⟨frR2⟩, by decide +kernel⟩

end Bls.Props
