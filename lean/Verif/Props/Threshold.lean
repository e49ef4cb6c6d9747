import Verif.Proof.Threshold
import Verif.Props.FR
import Verif.Props.SigG1
import Verif.Props.SigG2
/-
C72: threshold signing with the library's scalars, signatures and keys (Verif/Spec/Threshold.lean). `c` is the secret,
`cs` are the other coefficients of the dealer's polynomial and `xs` the indices of the parties.
-/
set_option exponentiation.threshold 1000
namespace Bls.Props

private theorem holds1 {f : FR} {x : Fr} (h : f.Rep x) : (G1Pubs.keyOf f).Holds x.val := by
  have := (C13_keyFromFQRepr_g1pubs f.toRepr).1 (by rw [h.toRepr]; exact ZMod.val_lt x)
  rwa [h.toRepr] at this

private theorem holds2 {f : FR} {x : Fr} (h : f.Rep x) : (G2Pubs.keyOf f).Holds x.val := by
  have := (C13_keyFromFQRepr_g2pubs f.toRepr).1 (by rw [h.toRepr]; exact ZMod.val_lt x)
  rwa [h.toRepr] at this

private theorem valid_cons {c : FR} (hc : c.isValid) {cs : List FR} (hcs : ∀ d ∈ cs, d.isValid) :
    ∀ d ∈ c :: cs, d.isValid := fun d hd => by
  rcases List.mem_cons.mp hd with rfl | hd
  · exact hc
  · exact hcs d hd

private theorem forall₂_map_self {α β : Type} {R : α → β → Prop} {f : α → β} {l : List α} (h : ∀ a ∈ l, R a (f a)) :
    List.Forall₂ R l (l.map f) := by
  rw [List.forall₂_map_right_iff, List.forall₂_same]
  exact h

private theorem forall₂_mem {α β : Type} {R : α → β → Prop} {l : List α} {m : List β} (h : List.Forall₂ R l m) {a : α}
    (ha : a ∈ l) : ∃ b, R a b := by
  induction h with
  | nil => exact absurd ha List.not_mem_nil
  | cons h _ ih =>
    rcases List.mem_cons.mp ha with rfl | ha
    · exact ⟨_, h⟩
    · exact ih ha

private theorem reps_map {l : List FR} {vs : List Fr} (h : List.Forall₂ FR.Rep l vs) : l.map FR.val = vs := by
  induction h with
  | nil => rfl
  | cons h _ ih => rw [List.map_cons, ih, h.eq]

private theorem reps_inj {l l' : List FR} {vs : List Fr} (h : List.Forall₂ FR.Rep l vs) (h' : List.Forall₂ FR.Rep l' vs) :
    l = l' := by
  induction h generalizing l' with
  | nil => cases h'; rfl
  | cons h _ ih =>
    cases h' with
    | cons h1 h2 => rw [h.inj h1, ih h2]

private theorem reps_of_valid {l : List FR} (h : ∀ d ∈ l, d.isValid) : List.Forall₂ FR.Rep l (l.map FR.val) :=
  forall₂_map_self fun d m => FR.rep_val (h d m)

private theorem shift_rep {k : FR} {y : Fr} (hk : k.Rep y) {ds : List Fr} {es : List FR}
    (hes : List.Forall₂ (fun x a => FR.Rep a x) ds es) {cs : List FR} (h : cs.length = ds.length)
    (hv : ∀ d ∈ cs, d.isValid) :
    List.Forall₂ FR.Rep (List.zipWith (fun a e => a.add (k.mul e)) cs es)
      (List.zipWith (fun a e => a + y * e) (cs.map FR.val) ds) := by
  induction hes generalizing cs with
  | nil => rw [List.length_nil, List.length_eq_zero_iff] at h; subst h; exact .nil
  | cons he _ ih =>
    cases cs with
    | nil => simp at h
    | cons c cs =>
      exact .cons ((FR.rep_val (hv c List.mem_cons_self)).add (hk.mul he))
        (ih (by simpa using h) fun d m => hv d (List.mem_cons_of_mem _ m))

private theorem shift_back {y : Fr} {as ds : List Fr} (h : as.length = ds.length) :
    List.zipWith (fun a e => a + -y * e) (List.zipWith (fun a e => a + y * e) as ds) ds = as := by
  induction as generalizing ds with
  | nil => rfl
  | cons a as ih =>
    cases ds with
    | nil => simp at h
    | cons d ds =>
      rw [List.zipWith_cons_cons, List.zipWith_cons_cons, ih (by simpa using h)]
      congr 1
      ring

/-! ## The secret -/

/-- Enough shares give the secret back. -/
theorem C72_shares (c : FR) (hc : c.isValid) (cs : List FR) (hcs : ∀ d ∈ cs, d.isValid) (xs : List FR)
    (hx : ∀ x ∈ xs, x.isValid) (hn : xs.Nodup) (hl : cs.length < xs.length) :
    combineShares (xs.zip (xs.map fun x => shareAt x (c :: cs))) = some c := by
  have hv := valid_cons hc hcs
  obtain ⟨l, h1, h2⟩ := combine_parts (is := FR.Rep) (is' := FR.Rep) (scale := fun b w => w.mul b) (H := (1 : Fr))
    (v := fun x => valueAt x ((c :: cs).map FR.val)) (ps := xs.map fun x => shareAt x (c :: cs))
    (fun b S w x hw hb => by
      have := hw.mul hb
      rwa [nsmul_eq_mul, ZMod.natCast_zmod_val]) hx
    (forall₂_map_self fun x m => by
      rw [nsmul_eq_mul, ZMod.natCast_zmod_val, mul_one]
      exact shareAt_rep (hx x m) hv)
  have h3 := foldl_add_rep h2 FR.zero_rep
  rw [interpolate_points (by rw [nsmul_eq_mul, CharP.cast_eq_zero, zero_mul]) (map_val_nodup hx hn) (by simpa using hl),
    List.map_cons, List.headD_cons, nsmul_eq_mul, ZMod.natCast_zmod_val, mul_one, zero_add] at h3
  rw [combineShares, h1, Option.map_some, h3.inj (FR.rep_val hc)]

/-- One share fewer than that says nothing about the secret: whatever the shares of these parties (their indices are not
0), the polynomials that give them are equally many for any two secrets. -/
theorem C72_secrecy (n : ℕ) (xs : List FR) (hx : ∀ x ∈ xs, x.isValid ∧ x.int ≠ 0) (hl : xs.length ≤ n)
    (c c' : FR) (hc : c.isValid) (hc' : c'.isValid) :
    ∃ f : List FR → List FR, Set.BijOn f (coefficients n) (coefficients n) ∧
      ∀ cs ∈ coefficients n, ∀ x ∈ xs, shareAt x (c' :: f cs) = shareAt x (c :: cs) := by
  obtain ⟨ds, d1, d2, d3⟩ := exists_vanishing (xs := xs.map FR.val) (n := n + 1) (fun x m => by
    obtain ⟨a, ha, rfl⟩ := List.mem_map.mp m
    intro e
    apply (hx a ha).2
    rw [(FR.rep_val (hx a ha).1).int, e, ZMod.val_zero]) (by rw [List.length_map]; omega)
  obtain ⟨d, ds, rfl⟩ : ∃ d ds', ds = d :: ds' := by
    cases ds with
    | nil => simp at d1
    | cons d ds => exact ⟨d, ds, rfl⟩
  rw [List.headD_cons] at d2
  subst d2
  rw [List.length_cons, Nat.add_right_cancel_iff] at d1
  obtain ⟨es, hes⟩ := forall₂_of_forall (R := fun x a => FR.Rep a x) (l := ds) fun x _ => FR.exists_rep x
  have shift : ∀ (k : FR) (y : Fr), k.Rep y → ∀ cs : List FR, cs.length = n ∧ (∀ d ∈ cs, d.isValid) →
      List.Forall₂ FR.Rep (List.zipWith (fun a e => a.add (k.mul e)) cs es)
        (List.zipWith (fun a e => a + y * e) (cs.map FR.val) ds) :=
    fun k y hk cs h => shift_rep hk hes (h.1.trans d1.symm) h.2
  have maps : ∀ (k : FR) (y : Fr), k.Rep y → ∀ cs : List FR, cs.length = n ∧ (∀ d ∈ cs, d.isValid) →
      (List.zipWith (fun a e => a.add (k.mul e)) cs es).length = n ∧
      ∀ d ∈ List.zipWith (fun a e => a.add (k.mul e)) cs es, d.isValid := fun k y hk cs h => by
    refine ⟨?_, fun d hd => ?_⟩
    · rw [List.length_zipWith, h.1, ← hes.length_eq, d1, min_self]
    · obtain ⟨x, hx⟩ := forall₂_mem (shift k y hk cs h) hd
      exact hx.isValid
  have back : ∀ (k k' : FR) (y : Fr), k.Rep y → k'.Rep (-y) → ∀ cs : List FR, cs.length = n ∧ (∀ d ∈ cs, d.isValid) →
      List.zipWith (fun a e => a.add (k'.mul e)) (List.zipWith (fun a e => a.add (k.mul e)) cs es) es = cs := by
    intro k k' y hk hk' cs h
    have h1 := shift k' (-y) hk' _ (maps k y hk cs h)
    rw [reps_map (shift k y hk cs h), shift_back (by rw [List.length_map, h.1, d1])] at h1
    exact reps_inj h1 (reps_of_valid h.2)
  have r1 := (FR.rep_val hc').sub (FR.rep_val hc)
  have r2 := (FR.rep_val hc).sub (FR.rep_val hc')
  rw [← neg_sub] at r2
  refine ⟨fun cs => List.zipWith (fun a e => FR.add a ((c'.sub c).mul e)) cs es,
    ⟨fun cs h => maps _ _ r1 cs h, fun cs h ds h' e => ?_, fun cs h =>
      ⟨_, maps _ _ r2 cs h, back _ _ _ r2 (by rwa [neg_neg]) cs h⟩⟩, fun cs ⟨h1, h2⟩ x hxm => ?_⟩
  · rw [← back _ _ _ r1 r2 cs h, ← back _ _ _ r1 r2 ds h']
    exact congrArg (fun l => List.zipWith (fun a e => FR.add a ((c.sub c').mul e)) l es) e
  · have hs := shareAt_rep (hx x hxm).1 (valid_cons hc h2)
    have hs' := shareAt_rep (hx x hxm).1 (valid_cons hc' (maps _ _ r1 cs ⟨h1, h2⟩).2)
    rw [List.map_cons, reps_map (shift _ _ r1 cs ⟨h1, h2⟩)] at hs'
    refine hs'.inj ?_
    convert hs using 1
    have h3 := d3 x.val (List.mem_map.mpr ⟨x, hxm, rfl⟩)
    have h4 := valueAt_zipWith x.val (c'.val - c.val) (cs := cs.map FR.val) (ds := ds) (by rw [List.length_map, h1, d1])
    rw [valueAt] at h3
    rw [valueAt, h4, List.map_cons, valueAt]
    linear_combination (c'.val - c.val) * h3

/-! ## Signatures and keys, g1pubs -/

/-- Combining the signatures of enough parties gives the signature made with the secret, and it verifies under the
secret's public key; combining their public keys gives that public key. -/
theorem C72_g1pubs (sha : List UInt8 → List UInt8) (m : List UInt8) (H : E2) (hm : G1Pubs.HashesTo sha m H)
    (c : FR) (hc : c.isValid) (cs : List FR) (hcs : ∀ d ∈ cs, d.isValid) (xs : List FR) (hx : ∀ x ∈ xs, x.isValid)
    (hn : xs.Nodup) (hl : cs.length < xs.length) :
    ∃ sigs keys sig key whole pub,
      List.Forall₂ (fun x s => G1Pubs.sign sha m (G1Pubs.keyOf (shareAt x (c :: cs))) = some s) xs sigs ∧
      List.Forall₂ (fun x p => G1Pubs.privToPub (G1Pubs.keyOf (shareAt x (c :: cs))) = some p) xs keys ∧
      G1Pubs.combineSignatures (xs.zip sigs) = some sig ∧ G1Pubs.combineKeys (xs.zip keys) = some key ∧
      G1Pubs.sign sha m (G1Pubs.keyOf c) = some whole ∧ G1Pubs.privToPub (G1Pubs.keyOf c) = some pub ∧
      sig.serialize = whole.serialize ∧ key.serialize = pub.serialize ∧ key.equals pub = true ∧
      (c.int ≠ 0 → G1Pubs.verify sha m pub sig = some true ∧ G1Pubs.verify sha m key sig = some true) := by
  have hv := valid_cons hc hcs
  obtain ⟨_, _, _, H0, hr⟩ := id hm
  have hc' := holds1 (FR.rep_val hc)
  obtain ⟨whole, w1, w2⟩ := hc'.sign hm
  obtain ⟨pub, p1, p2⟩ := hc'.toPub
  obtain ⟨sigs, hs⟩ := forall₂_of_forall (l := xs) (R := fun x s =>
      G1Pubs.sign sha m (G1Pubs.keyOf (shareAt x (c :: cs))) = some s ∧
        s.s.Rep ((valueAt x.val ((c :: cs).map FR.val)).val • H)) fun x hxm =>
    (holds1 (shareAt_rep (hx x hxm) hv)).sign hm
  obtain ⟨keys, hk⟩ := forall₂_of_forall (l := xs) (R := fun x p =>
      G1Pubs.privToPub (G1Pubs.keyOf (shareAt x (c :: cs))) = some p ∧
        p.p.Rep ((valueAt x.val ((c :: cs).map FR.val)).val • g1Gen)) fun x hxm =>
    (holds1 (shareAt_rep (hx x hxm) hv)).toPub
  obtain ⟨l, s1, s2⟩ := combine_parts (is := fun (s : G1Pubs.Signature) S => s.s.Rep S)
    (is' := fun (s : G1Pubs.Signature) S => s.s.Rep S)
    (scale := fun b w => G1Pubs.newSignatureFromG2 (b.getPoint.mulFR w.toRepr).toAffine) (H := H)
    (v := fun x => valueAt x ((c :: cs).map FR.val)) (ps := sigs)
    (fun b S w x hw hb => by
      have : G2Projective.Rep _ _ :=
        G2Affine.Rep.toProjective (G2Projective.Rep.toAffine (G2Projective.Rep.mulFR hb w.toRepr))
      rwa [hw.toRepr] at this) hx (hs.imp fun _ _ h => h.2)
  obtain ⟨l', k1, k2⟩ := combine_parts (is := fun (s : G1Pubs.PublicKey) S => s.p.Rep S)
    (is' := fun (s : G1Pubs.PublicKey) S => s.p.Rep S)
    (scale := fun b w => G1Pubs.newPublicKeyFromG1 (b.getPoint.mulFR w.toRepr).toAffine) (H := g1Gen)
    (v := fun x => valueAt x ((c :: cs).map FR.val)) (ps := keys)
    (fun b S w x hw hb => by
      have : G1Projective.Rep _ _ :=
        G1Affine.Rep.toProjective (G1Projective.Rep.toAffine (G1Projective.Rep.mulFR hb w.toRepr))
      rwa [hw.toRepr] at this) hx (hk.imp fun _ _ h => h.2)
  have e1 := G1Pubs.aggregateSignatures_spec s2
  have e2 := G1Pubs.aggregatePublicKeys_spec k2
  rw [interpolate_points hr (map_val_nodup hx hn) (by simpa using hl), List.map_cons, List.headD_cons] at e1
  rw [interpolate_points r_smul_g1Gen (map_val_nodup hx hn) (by simpa using hl), List.map_cons, List.headD_cons] at e2
  refine ⟨sigs, keys, _, _, whole, pub, hs.imp fun _ _ h => h.1, hk.imp fun _ _ h => h.1,
    by rw [G1Pubs.combineSignatures, s1]; rfl, by rw [G1Pubs.combineKeys, k1]; rfl, w1, p1, ?_, ?_, ?_, fun h0 => ?_⟩
  · rw [G1Pubs.Signature.serialize, G1Pubs.Signature.serialize, (G2Projective.Rep.toAffine e1).inj w2.toAffine]
  · rw [G1Pubs.PublicKey.serialize, G1Pubs.PublicKey.serialize, (G1Projective.Rep.toAffine e2).inj p2.toAffine]
  · exact (G1Projective.Rep.equal e2 p2).mpr rfl
  · rw [(FR.rep_val hc).int] at h0
    have hg := G1Pubs.nsmul_ne_of_lt g1Gen_ne_zero r_smul_g1Gen h0 (ZMod.val_lt _)
    exact ⟨(G1Pubs.verify_spec hm p2 hg e1 (G1Pubs.torsion_nsmul hr _)).1.mpr rfl,
      (G1Pubs.verify_spec hm e2 hg e1 (G1Pubs.torsion_nsmul hr _)).1.mpr rfl⟩

/-- The same in a domain: combining the signatures of enough parties gives the signature made with the secret, and it
verifies under the secret's public key; combining their public keys gives that public key. -/
theorem C72_domain_g1pubs (sha : List UInt8 → List UInt8) (m dom : List UInt8) (H : E2)
    (hm : G1Pubs.HashesToIn sha dom m H)
    (c : FR) (hc : c.isValid) (cs : List FR) (hcs : ∀ d ∈ cs, d.isValid) (xs : List FR) (hx : ∀ x ∈ xs, x.isValid)
    (hn : xs.Nodup) (hl : cs.length < xs.length) :
    ∃ sigs keys sig key whole pub,
      List.Forall₂ (fun x s => G1Pubs.signWithDomain sha m (G1Pubs.keyOf (shareAt x (c :: cs))) dom = some s) xs sigs ∧
      List.Forall₂ (fun x p => G1Pubs.privToPub (G1Pubs.keyOf (shareAt x (c :: cs))) = some p) xs keys ∧
      G1Pubs.combineSignatures (xs.zip sigs) = some sig ∧ G1Pubs.combineKeys (xs.zip keys) = some key ∧
      G1Pubs.signWithDomain sha m (G1Pubs.keyOf c) dom = some whole ∧ G1Pubs.privToPub (G1Pubs.keyOf c) = some pub ∧
      sig.serialize = whole.serialize ∧ key.serialize = pub.serialize ∧ key.equals pub = true ∧
      (c.int ≠ 0 → G1Pubs.verifyWithDomain sha m pub sig dom = some true ∧
        G1Pubs.verifyWithDomain sha m key sig dom = some true) := by
  have hv := valid_cons hc hcs
  obtain ⟨_, _, _, H0, hr⟩ := id hm
  have hc' := holds1 (FR.rep_val hc)
  obtain ⟨whole, w1, w2⟩ := hc'.signIn hm
  obtain ⟨pub, p1, p2⟩ := hc'.toPub
  obtain ⟨sigs, hs⟩ := forall₂_of_forall (l := xs) (R := fun x s =>
      G1Pubs.signWithDomain sha m (G1Pubs.keyOf (shareAt x (c :: cs))) dom = some s ∧
        s.s.Rep ((valueAt x.val ((c :: cs).map FR.val)).val • H)) fun x hxm =>
    (holds1 (shareAt_rep (hx x hxm) hv)).signIn hm
  obtain ⟨keys, hk⟩ := forall₂_of_forall (l := xs) (R := fun x p =>
      G1Pubs.privToPub (G1Pubs.keyOf (shareAt x (c :: cs))) = some p ∧
        p.p.Rep ((valueAt x.val ((c :: cs).map FR.val)).val • g1Gen)) fun x hxm =>
    (holds1 (shareAt_rep (hx x hxm) hv)).toPub
  obtain ⟨l, s1, s2⟩ := combine_parts (is := fun (s : G1Pubs.Signature) S => s.s.Rep S)
    (is' := fun (s : G1Pubs.Signature) S => s.s.Rep S)
    (scale := fun b w => G1Pubs.newSignatureFromG2 (b.getPoint.mulFR w.toRepr).toAffine) (H := H)
    (v := fun x => valueAt x ((c :: cs).map FR.val)) (ps := sigs)
    (fun b S w x hw hb => by
      have : G2Projective.Rep _ _ :=
        G2Affine.Rep.toProjective (G2Projective.Rep.toAffine (G2Projective.Rep.mulFR hb w.toRepr))
      rwa [hw.toRepr] at this) hx (hs.imp fun _ _ h => h.2)
  obtain ⟨l', k1, k2⟩ := combine_parts (is := fun (s : G1Pubs.PublicKey) S => s.p.Rep S)
    (is' := fun (s : G1Pubs.PublicKey) S => s.p.Rep S)
    (scale := fun b w => G1Pubs.newPublicKeyFromG1 (b.getPoint.mulFR w.toRepr).toAffine) (H := g1Gen)
    (v := fun x => valueAt x ((c :: cs).map FR.val)) (ps := keys)
    (fun b S w x hw hb => by
      have : G1Projective.Rep _ _ :=
        G1Affine.Rep.toProjective (G1Projective.Rep.toAffine (G1Projective.Rep.mulFR hb w.toRepr))
      rwa [hw.toRepr] at this) hx (hk.imp fun _ _ h => h.2)
  have e1 := G1Pubs.aggregateSignatures_spec s2
  have e2 := G1Pubs.aggregatePublicKeys_spec k2
  rw [interpolate_points hr (map_val_nodup hx hn) (by simpa using hl), List.map_cons, List.headD_cons] at e1
  rw [interpolate_points r_smul_g1Gen (map_val_nodup hx hn) (by simpa using hl), List.map_cons, List.headD_cons] at e2
  refine ⟨sigs, keys, _, _, whole, pub, hs.imp fun _ _ h => h.1, hk.imp fun _ _ h => h.1,
    by rw [G1Pubs.combineSignatures, s1]; rfl, by rw [G1Pubs.combineKeys, k1]; rfl, w1, p1, ?_, ?_, ?_, fun h0 => ?_⟩
  · rw [G1Pubs.Signature.serialize, G1Pubs.Signature.serialize, (G2Projective.Rep.toAffine e1).inj w2.toAffine]
  · rw [G1Pubs.PublicKey.serialize, G1Pubs.PublicKey.serialize, (G1Projective.Rep.toAffine e2).inj p2.toAffine]
  · exact (G1Projective.Rep.equal e2 p2).mpr rfl
  · rw [(FR.rep_val hc).int] at h0
    have hg := G1Pubs.nsmul_ne_of_lt g1Gen_ne_zero r_smul_g1Gen h0 (ZMod.val_lt _)
    exact ⟨(G1Pubs.verifyWithDomain_spec hm p2 hg e1 (G1Pubs.torsion_nsmul hr _)).1.mpr rfl,
      (G1Pubs.verifyWithDomain_spec hm e2 hg e1 (G1Pubs.torsion_nsmul hr _)).1.mpr rfl⟩

/-! ## Signatures and keys, g2pubs -/

/-- Combining the signatures of enough parties gives the signature made with the secret, and it verifies under the
secret's public key; combining their public keys gives that public key. -/
theorem C72_g2pubs (sha : List UInt8 → List UInt8) (m : List UInt8) (H : E1) (hm : G2Pubs.HashesTo sha m H)
    (c : FR) (hc : c.isValid) (cs : List FR) (hcs : ∀ d ∈ cs, d.isValid) (xs : List FR) (hx : ∀ x ∈ xs, x.isValid)
    (hn : xs.Nodup) (hl : cs.length < xs.length) :
    ∃ sigs keys sig key whole pub,
      List.Forall₂ (fun x s => G2Pubs.sign sha m (G2Pubs.keyOf (shareAt x (c :: cs))) = some s) xs sigs ∧
      List.Forall₂ (fun x p => G2Pubs.privToPub (G2Pubs.keyOf (shareAt x (c :: cs))) = some p) xs keys ∧
      G2Pubs.combineSignatures (xs.zip sigs) = some sig ∧ G2Pubs.combineKeys (xs.zip keys) = some key ∧
      G2Pubs.sign sha m (G2Pubs.keyOf c) = some whole ∧ G2Pubs.privToPub (G2Pubs.keyOf c) = some pub ∧
      sig.serialize = whole.serialize ∧ key.serialize = pub.serialize ∧ key.equals pub = true ∧
      (c.int ≠ 0 → G2Pubs.verify sha m pub sig = some true ∧ G2Pubs.verify sha m key sig = some true) := by
  have hv := valid_cons hc hcs
  obtain ⟨_, _, _, H0, hr⟩ := id hm
  have hc' := holds2 (FR.rep_val hc)
  obtain ⟨whole, w1, w2⟩ := hc'.sign hm
  obtain ⟨pub, p1, p2⟩ := hc'.toPub
  obtain ⟨sigs, hs⟩ := forall₂_of_forall (l := xs) (R := fun x s =>
      G2Pubs.sign sha m (G2Pubs.keyOf (shareAt x (c :: cs))) = some s ∧
        s.s.Rep ((valueAt x.val ((c :: cs).map FR.val)).val • H)) fun x hxm =>
    (holds2 (shareAt_rep (hx x hxm) hv)).sign hm
  obtain ⟨keys, hk⟩ := forall₂_of_forall (l := xs) (R := fun x p =>
      G2Pubs.privToPub (G2Pubs.keyOf (shareAt x (c :: cs))) = some p ∧
        p.p.Rep ((valueAt x.val ((c :: cs).map FR.val)).val • g2Gen)) fun x hxm =>
    (holds2 (shareAt_rep (hx x hxm) hv)).toPub
  obtain ⟨l, s1, s2⟩ := combine_parts (is := fun (s : G2Pubs.Signature) S => s.s.Rep S)
    (is' := fun (s : G2Pubs.Signature) S => s.s.Rep S)
    (scale := fun b w => G2Pubs.newSignatureFromG1 (b.getPoint.mulFR w.toRepr).toAffine) (H := H)
    (v := fun x => valueAt x ((c :: cs).map FR.val)) (ps := sigs)
    (fun b S w x hw hb => by
      have : G1Projective.Rep _ _ :=
        G1Affine.Rep.toProjective (G1Projective.Rep.toAffine (G1Projective.Rep.mulFR hb w.toRepr))
      rwa [hw.toRepr] at this) hx (hs.imp fun _ _ h => h.2)
  obtain ⟨l', k1, k2⟩ := combine_parts (is := fun (s : G2Pubs.PublicKey) S => s.p.Rep S)
    (is' := fun (s : G2Pubs.PublicKey) S => s.p.Rep S)
    (scale := fun b w => G2Pubs.newPublicKeyFromG2 (b.getPoint.mulFR w.toRepr).toAffine) (H := g2Gen)
    (v := fun x => valueAt x ((c :: cs).map FR.val)) (ps := keys)
    (fun b S w x hw hb => by
      have : G2Projective.Rep _ _ :=
        G2Affine.Rep.toProjective (G2Projective.Rep.toAffine (G2Projective.Rep.mulFR hb w.toRepr))
      rwa [hw.toRepr] at this) hx (hk.imp fun _ _ h => h.2)
  have e1 := G2Pubs.aggregateSignatures_spec s2
  have e2 := G2Pubs.aggregatePublicKeys_spec k2
  rw [interpolate_points hr (map_val_nodup hx hn) (by simpa using hl), List.map_cons, List.headD_cons] at e1
  rw [interpolate_points r_smul_g2Gen (map_val_nodup hx hn) (by simpa using hl), List.map_cons, List.headD_cons] at e2
  refine ⟨sigs, keys, _, _, whole, pub, hs.imp fun _ _ h => h.1, hk.imp fun _ _ h => h.1,
    by rw [G2Pubs.combineSignatures, s1]; rfl, by rw [G2Pubs.combineKeys, k1]; rfl, w1, p1, ?_, ?_, ?_, fun h0 => ?_⟩
  · rw [G2Pubs.Signature.serialize, G2Pubs.Signature.serialize, (G1Projective.Rep.toAffine e1).inj w2.toAffine]
  · rw [G2Pubs.PublicKey.serialize, G2Pubs.PublicKey.serialize, (G2Projective.Rep.toAffine e2).inj p2.toAffine]
  · exact (G2Projective.Rep.equal e2 p2).mpr rfl
  · rw [(FR.rep_val hc).int] at h0
    have hg := G1Pubs.nsmul_ne_of_lt g2Gen_ne_zero r_smul_g2Gen h0 (ZMod.val_lt _)
    exact ⟨(G2Pubs.verify_spec hm p2 hg e1 (G1Pubs.torsion_nsmul hr _)).1.mpr rfl,
      (G2Pubs.verify_spec hm e2 hg e1 (G1Pubs.torsion_nsmul hr _)).1.mpr rfl⟩

/-- A concrete case: two of the parties 1, 2, 5 with a polynomial of degree 1. -/
example : ∃ c x y z : FR, c.isValid ∧ c.int ≠ 0 ∧ (∀ d ∈ [fiveR], d.isValid) ∧
    (∀ a ∈ [x, y, z], a.isValid ∧ a.int ≠ 0) ∧ [x, y, z].Nodup ∧ [fiveR].length < [x, z].length ∧
    shareAt z [c, fiveR] = FR.mul ⟨.new 32⟩ ⟨frR2⟩ ∧
    combineShares [(x, shareAt x [c, fiveR]), (z, shareAt z [c, fiveR])] = some c :=
  ⟨FR.mul ⟨.new 7⟩ ⟨frR2⟩, FR.one, FR.mul ⟨.new 2⟩ ⟨frR2⟩, fiveR, by decide +kernel⟩

end Bls.Props
