import Verif.Spec.Reduce
import Verif.Props.Blind
import Verif.Props.Panics
/-
C88: whoever forges a signature, or an aggregate in spite of proofs of possession, solves the Diffie-Hellman problem.
-/
set_option exponentiation.threshold 1000
namespace Bls.Props

theorem mapM_some {α β γ : Type} {f : α → Option β} {R : β → γ → Prop} {g : α → γ} : ∀ {l : List α},
    (∀ a ∈ l, ∃ b, f a = some b ∧ R b (g a)) → ∃ l', l.mapM f = some l' ∧ List.Forall₂ R l' (l.map g)
  | [], _ => ⟨[], rfl, .nil⟩
  | a :: l, h => by
    obtain ⟨b, hb, hr⟩ := h a (List.mem_cons_self ..)
    obtain ⟨l', hl, hr'⟩ := mapM_some (l := l) fun x hx => h x (List.mem_cons_of_mem _ hx)
    refine ⟨b :: l', ?_, .cons hr hr'⟩
    rw [List.mapM_cons, hb, hl]; rfl

/-- A run does not depend on the answers to questions it does not ask. -/
theorem run_congr {α ω : Type} {h h' : List UInt8 → Option α} {s s' : List UInt8 → Option (List UInt8)} 
    {T : List UInt8 → Prop} (hh : ∀ m, h' m = h m) (hs : ∀ m, ¬ T m → s' m = s m) : ∀ (F : Forger α ω) {l o},
    F.run h s = some (l, o) → (∀ m ∈ l, ¬ T m) → F.run h' s' = some (l, o)
  | .hash m next, l, o, e, hl => by
    rw [Forger.run] at e ⊢
    rw [hh]
    obtain ⟨a, ha, e⟩ := Option.bind_eq_some_iff.mp e
    rw [ha, Option.bind_some]
    exact run_congr hh hs (next a) e hl
  | .sign m next, l, o, e, hl => by
    rw [Forger.run] at e ⊢
    obtain ⟨a, ha, e⟩ := Option.bind_eq_some_iff.mp e
    obtain ⟨⟨l', o'⟩, e', e''⟩ := Option.map_eq_some_iff.mp e
    simp only [Prod.mk.injEq] at e''
    obtain ⟨rfl, rfl⟩ := e''
    rw [hs m (hl m (List.mem_cons_self ..)), ha, Option.bind_some,
      run_congr hh hs (next a) e' fun m c => hl m (List.mem_cons_of_mem _ c)]
    rfl
  | .forge o, l, o', e, _ => by
    rw [Forger.run] at e ⊢; exact e

/-! ## g1pubs -/

/-- The answers made without the key are those of the functions. -/
theorem answers_g1pubs {ω : Type} {c : G1Pubs.Challenge} {k : ℕ} {Q : E2} (hK : c.key.Denotes (k • g2Gen)) (hQ : c.point.Denotes Q)
    {e : List UInt8 → FR} {t : List UInt8}
    {hash : List UInt8 → Option G2Affine} {sign : List UInt8 → Option (List UInt8)}
    (hh : ∀ m, ∃ a, hash m = some a ∧ a.Rep ((e m).int • if m = t then Q else g2Gen))
    (hs : ∀ m, ∃ g : G1Pubs.Signature, sign m = some g.serialize ∧ g.s.Rep (k • (e m).int • if m = t then Q else g2Gen))
    {F : Forger G2Affine ω} {l : List (List UInt8)} {o : ω} (hF : F.run hash sign = some (l, o)) (hl : t ∉ l) :
    F.run (c.hash e t) (c.sign e t) = some (l, o) := by
  have hK := G2Affine.denotes_iff.mp hK
  have hQ := G2Affine.denotes_iff.mp hQ
  exact run_congr (h' := c.hash e t) (s' := c.sign e t) (T := fun m => m = t) (fun m => by
    obtain ⟨a, ha, hr⟩ := hh m
    rw [ha, G1Pubs.Challenge.hash]
    refine congrArg some (G2Affine.Rep.inj (P := (e m).int • if m = t then Q else g2Gen) ?_ hr)
    split
    · exact (hQ.mulFR _).toAffine
    · exact (G2Affine.one_rep.mulFR _).toAffine) (fun m hm => by
    obtain ⟨g, hg, hr⟩ := hs m
    rw [if_neg hm] at hr
    rw [hg, G1Pubs.Challenge.sign, if_neg hm, G1Pubs.Signature.serialize, G1Pubs.Signature.serialize]
    have hr' := (hK.mulFR (e m).toRepr).toAffine.toProjective.toAffine
    have e1 : (e m).toRepr.toNat • k • g2Gen = k • (e m).int • g2Gen := smul_comm _ _ _
    rw [e1] at hr'
    rw [← hr'.inj hr.toAffine]
    rfl) F hF fun m hm h => hl (h ▸ hm)

theorem solve_g1pubs {c : G1Pubs.Challenge} {k : ℕ} {Q : E2} (hK : c.key.Denotes (k • g2Gen)) (hQ : c.point.Denotes Q)
    (rQ : r • Q = 0) {e : List UInt8 → FR} (he : ∀ m, e m ∈ blindings) {t : List UInt8}
    {hash : List UInt8 → Option G2Affine} {sign : List UInt8 → Option (List UInt8)}
    (hh : ∀ m, ∃ a, hash m = some a ∧ a.Rep ((e m).int • if m = t then Q else g2Gen))
    (hs : ∀ m, ∃ g : G1Pubs.Signature, sign m = some g.serialize ∧ g.s.Rep (k • (e m).int • if m = t then Q else g2Gen))
    {F : Forger G2Affine Forgery} {l : List (List UInt8)} {s : List UInt8} (hF : F.run hash sign = some (l, t, s)) (hl : t ∉ l)
    {sig : G1Pubs.Signature} {S : E2} (hd : G1Pubs.deserializeSignature s = some sig) (hS : sig.s.Rep S)
    (hv : S = k • (e t).int • Q) : ∃ a, c.solve e t F = some a ∧ a.Denotes (k • Q) := by
  have run := answers_g1pubs (e := e) hK hQ hh hs hF hl
  obtain ⟨x, hx, x0⟩ := blindings_rep (he t)
  obtain ⟨u, hu, hu'⟩ := unblind_rep_g1pubs hx x0 hS.toAffine
  refine ⟨u.s.toAffine, ?_, ?_⟩
  · rw [G1Pubs.Challenge.solve, run, Option.bind_some, if_pos rfl, hd, Option.bind_some, hu]; rfl
  · rw [G2Affine.denotes_iff]
    rw [hv, hx.int, smul_comm k, inv_nsmul (G1Pubs.torsion_nsmul rQ k) x0] at hu'
    exact hu'.toAffine

/-- If a forger that may have any messages signed forges a signature of another message `t`, then the reduction, which knows
only k times the generator, Q and the scalars `e`, computes k times Q. `e` are the scalars that belong to the hash function. -/
theorem C88_forgery_g1pubs (sha : List UInt8 → List UInt8) (c : G1Pubs.Challenge) (sk : G1Pubs.SecretKey) (k : ℕ)
    (hk : sk.Holds k) (k0 : k ≠ 0) (Q : E2) (hK : c.key.Denotes (k • g2Gen)) (hQ : c.point.Denotes Q) (rQ : r • Q = 0)
    (t : List UInt8) (e : List UInt8 → FR) (he : ∀ m, e m ∈ blindings)
    (hh : ∀ m, G1Pubs.HashesTo sha m ((e m).int • if m = t then Q else g2Gen))
    (F : Forger G2Affine Forgery) (l : List (List UInt8)) (s : List UInt8)
    (hF : F.run (hashG2 sha) (fun m => (G1Pubs.sign sha m sk).map G1Pubs.Signature.serialize) = some (l, t, s)) (hl : t ∉ l)
    (h96 : s.length = 96) (pub : G1Pubs.PublicKey) (hp : G1Pubs.privToPub sk = some pub)
    (hv : (G1Pubs.deserializeSignature s).bind (G1Pubs.verify sha t pub) = some true) :
    ∃ a, c.solve e t F = some a ∧ a.Denotes (k • Q) := by
  obtain ⟨sig, hd, hv⟩ := Option.bind_eq_some_iff.mp hv
  obtain ⟨S, hS, rS⟩ := C26_signature_g1pubs s h96 sig hd
  obtain ⟨pub', ep, hpub⟩ := hk.toPub
  obtain rfl : pub' = pub := Option.some.inj (ep.symm.trans hp)
  have hS := G2Projective.denotes_iff.mp hS
  have ht := hh t
  rw [if_pos rfl] at ht
  refine solve_g1pubs hK hQ rQ he (fun m => ?_) (fun m => ?_) hF hl hd hS
    ((G1Pubs.verify_spec ht hpub (G1Pubs.nsmul_ne_of_lt g1Gen_ne_zero r_smul_g1Gen k0 hk.lt) hS rS).1.mp hv)
  · obtain ⟨a, ha, hd, _⟩ := hh m
    exact ⟨a, ha, G2Affine.denotes_iff.mp hd⟩
  · obtain ⟨g, hg, hr⟩ := hk.sign (hh m)
    exact ⟨g, by rw [hg]; rfl, hr⟩

/-- For every hash function there is exactly one choice of scalars as in `C88_forgery_g1pubs`: the hashes are evenly distributed
if the scalars are. -/
theorem C88_scalars_g1pubs (sha : List UInt8 → List UInt8) (hs : ∀ m, ∃ H, G1Pubs.HashesTo sha m H) (Q : E2) (Q0 : Q ≠ 0)
    (rQ : r • Q = 0) (t : List UInt8) :
    ∃! e : List UInt8 → FR, (∀ m, e m ∈ blindings) ∧
      ∀ m, G1Pubs.HashesTo sha m ((e m).int • if m = t then Q else g2Gen) := by
  have key : ∀ m, ∃ f, (f ∈ blindings ∧ G1Pubs.HashesTo sha m (f.int • if m = t then Q else g2Gen)) ∧
      ∀ f', f' ∈ blindings ∧ G1Pubs.HashesTo sha m (f'.int • if m = t then Q else g2Gen) → f' = f := by
    intro m
    obtain ⟨H, a, ha, hd, H0, rH⟩ := hs m
    have B0 : (if m = t then Q else g2Gen) ≠ 0 := by split; exacts [Q0, g2Gen_ne_zero]
    have rB : r • (if m = t then Q else g2Gen) = 0 := by split; exacts [rQ, r_smul_g2Gen]
    obtain ⟨x, x0, e, hu⟩ := one_factor r_smul_g2Gen B0 rB H0 (E2.torsion rB) (E2.torsion rH)
    obtain ⟨f, hf⟩ := FR.exists_rep x
    have hi : f.int = x.val := hf.int
    refine ⟨f, ⟨⟨hf.isValid, fun h => x0 ?_⟩, a, ha, by rw [hi, ← e]; exact hd, by rw [hi, ← e]; exact H0,
      by rw [hi, ← e]; exact rH⟩, fun f' h' => ?_⟩
    · rw [hi] at h
      exact (ZMod.val_eq_zero x).mp h
    · obtain ⟨hb, a', ha', hd', _⟩ := h'
      obtain rfl : a = a' := Option.some.inj (ha.symm.trans ha')
      have hy := FR.rep_val hb.1
      rw [hy.int] at hd'
      have := hu _ ((G2Affine.denotes_iff.mp hd).fn (G2Affine.denotes_iff.mp hd'))
      rw [this] at hy
      exact hy.inj hf
  choose e he hu using key
  exact ⟨e, ⟨fun m => (he m).1, fun m => (he m).2⟩, fun e' h => funext fun m => hu m (e' m) ⟨h.1 m, h.2 m⟩⟩

theorem common_g1pubs {k : ℕ} {Q : E2} (rQ : r • Q = 0) {e : FR} (he : e ∈ blindings)
    {ι : Type} {os : List ι} {pf : ι → FR × G1Pubs.Signature} {f : ι → ℕ}
    (hp : ∀ o ∈ os, (pf o).1 ∈ blindings ∧ (pf o).2.s.Rep (f o • (pf o).1.int • Q))
    {agg : G1Pubs.Signature} (ha : agg.s.Rep ((k + (os.map f).sum) • e.int • Q)) :
    ∃ a, G1Pubs.solveCommon e agg (os.map pf) = some a ∧ a.Denotes (k • Q) := by
  obtain ⟨x, hx, x0⟩ := blindings_rep he
  obtain ⟨u, hu, hu'⟩ := unblind_rep_g1pubs hx x0 ha.toAffine
  rw [hx.int, smul_comm _ x.val, inv_nsmul (G1Pubs.torsion_nsmul rQ _) x0] at hu'
  obtain ⟨l, hl, hr⟩ := mapM_some (f := fun o => G1Pubs.unblind (pf o).1 (pf o).2.s.toAffine)
    (R := fun (s : G1Pubs.Signature) (S : E2) => s.s.Rep S) (g := fun p => f p • Q) (l := os) fun p h => by
      obtain ⟨hb, hs⟩ := hp p h
      obtain ⟨y, hy, y0⟩ := blindings_rep hb
      obtain ⟨v, hv, hv'⟩ := unblind_rep_g1pubs hy y0 hs.toAffine
      rw [hy.int, smul_comm (f p) y.val, inv_nsmul (G1Pubs.torsion_nsmul rQ _) y0] at hv'
      exact ⟨v, hv, hv'⟩
  have hl' : (os.map pf).mapM (fun p => G1Pubs.unblind p.1 p.2.s.toAffine) = some l := by rw [List.mapM_map]; exact hl
  refine ⟨_, by rw [G1Pubs.solveCommon, hu, Option.bind_some, hl', Option.map_some], ?_⟩
  rw [G2Affine.denotes_iff]
  have hsum := G1Pubs.aggregateSignatures_spec hr
  have es : (os.map fun p => f p • Q).sum = (os.map f).sum • Q := by
    clear hp ha hu hu' hl hl' hr hsum
    induction os with
    | nil => simp
    | cons p l ih => simp [add_nsmul, ih]
  rw [es] at hsum
  have := (hu'.add hsum.toAffine.neg.toProjective).toAffine
  rwa [add_nsmul, add_neg_cancel_right] at this

/-- If every key but one comes with a signature of some message under that key (a proof of possession), then whoever makes an
aggregate of a common message that is accepted for all keys solves the problem for the one key: all hashes being known
multiples of Q, the reduction computes k times Q from the aggregate and the proofs. -/
theorem C88_possession_g1pubs (sha : List UInt8 → List UInt8) (Q : E2) (rQ : r • Q = 0) (k : ℕ) (pub : G1Pubs.PublicKey)
    (hp : pub.p.Denotes (k • g1Gen)) (others : List (G1Pubs.PublicKey × List UInt8 × FR × G1Pubs.Signature))
    (ho : ∀ o ∈ others, (∃ P, o.1.p.Denotes P ∧ r • P = 0) ∧ o.2.2.1 ∈ blindings ∧
      G1Pubs.HashesTo sha o.2.1 (o.2.2.1.int • Q) ∧ (∃ S, o.2.2.2.s.Denotes S ∧ r • S = 0) ∧
      G1Pubs.verify sha o.2.1 o.1 o.2.2.2 = some true)
    (m : List UInt8) (e : FR) (he : e ∈ blindings) (hm : G1Pubs.HashesTo sha m (e.int • Q)) (agg : G1Pubs.Signature) (S : E2)
    (hs : agg.s.Denotes S) (rS : r • S = 0)
    (hv : agg.verifyAggregateCommon sha (pub :: others.map fun o => o.1) m = some true) :
    ∃ a, G1Pubs.solveCommon e agg (others.map fun o => (o.2.2.1, o.2.2.2)) = some a ∧ a.Denotes (k • Q) := by
  have key : ∀ o ∈ others, ∃ j : ℕ, o.1.p.Denotes (j • g1Gen) ∧ o.2.2.2.s.Rep (j • o.2.2.1.int • Q) := by
    intro o h
    obtain ⟨⟨P, hP, rP⟩, hb, hh, ⟨T, hT, rT⟩, hv⟩ := ho o h
    obtain ⟨j, rfl⟩ := E1.torsion rP
    obtain ⟨a, ha, hd, _, rH⟩ := id hh
    have P0 : j • g1Gen ≠ 0 := fun e => by
      rw [(C64_verify_g1pubs sha _ a _ ha hd rH _ _ hP _ _ hT).mpr (Or.inl e)] at hv
      cases hv
    have := (G1Pubs.verify_spec hh (G1Projective.denotes_iff.mp hP) P0 (G2Projective.denotes_iff.mp hT) rT).1.mp hv
    exact ⟨j, hP, this ▸ G2Projective.denotes_iff.mp hT⟩
  choose! j hj1 hj2 using key
  have hks : List.Forall₂ (fun (p : G1Pubs.PublicKey) i => p.p.Denotes (i • g1Gen)) (pub :: others.map fun o => o.1)
      (k :: others.map j) := .cons hp (List.forall₂_map_left_iff.mpr (List.forall₂_map_right_iff.mpr
        (List.forall₂_same.mpr hj1)))
  have h0 : ¬r ∣ (k :: others.map j).sum := fun h => by
    obtain ⟨a, ha, hd, _, rH⟩ := id hm
    have ha' := G1Pubs.aggregatePublicKeys_spec (forall₂_map (fun _ _ h => G1Projective.denotes_iff.mp h) hks)
    rw [← sum_nsmul_eq] at ha'
    obtain ⟨c, hc⟩ := h
    rw [hc, mul_nsmul, r_smul_g1Gen, nsmul_zero] at ha'
    rw [G1Pubs.Signature.verifyAggregateCommon,
      (C64_verify_g1pubs sha _ a _ ha hd rH _ _ (G1Projective.denotes_iff.mpr ha') _ _ hs).mpr (Or.inl rfl)] at hv
    cases hv
  have hagg := (C37_common_g1pubs sha m _ hm _ _ hks h0 agg S hs rS).1.mp hv
  rw [← sum_nsmul_eq, List.sum_cons] at hagg
  have ha := G2Projective.denotes_iff.mp hs
  rw [hagg] at ha
  exact common_g1pubs rQ he (fun o h => ⟨(ho o h).2.1, hj2 o h⟩) ha


/-- Non-vacuity: under a function that hashes all messages to one point, the forger that has the empty message signed and
gives the signature out as one of the message 1 meets the hypotheses. -/
example : ∃ (sha : List UInt8 → List UInt8) (c : G1Pubs.Challenge) (sk : G1Pubs.SecretKey) (Q : E2) (e : List UInt8 → FR)
    (F : Forger G2Affine Forgery) (l : List (List UInt8)) (s : List UInt8) (pub : G1Pubs.PublicKey),
    sk.Holds 2 ∧ c.key.Denotes (2 • g2Gen) ∧ c.point.Denotes Q ∧ Q ≠ 0 ∧ r • Q = 0 ∧ (∀ m, e m ∈ blindings) ∧
    (∀ m, G1Pubs.HashesTo sha m ((e m).int • if m = [1] then Q else g2Gen)) ∧
    F.run (hashG2 sha) (fun m => (G1Pubs.sign sha m sk).map G1Pubs.Signature.serialize) = some (l, [1], s) ∧ [1] ∉ l ∧ l ≠ [] ∧
    s.length = 96 ∧ G1Pubs.privToPub sk = some pub ∧
    (G1Pubs.deserializeSignature s).bind (G1Pubs.verify sha [1] pub) = some true := by
  obtain ⟨H, hH⟩ := Cases.case2
  have h2 := FR.one_rep.add FR.one_rep
  have hv : (FR.one.add FR.one).int = 2 := by
    rw [h2.int, one_add_one_eq_two]
    exact ZMod.val_natCast_of_lt (a := 2) (by rw [r_eq]; decide +kernel)
  have hk : (G1Pubs.SecretKey.mk (some (FR.one.add FR.one))).Holds 2 := ⟨_, rfl, h2.isValid, hv⟩
  obtain ⟨e, ⟨he1, he2⟩, -⟩ := C88_scalars_g1pubs Cases.sha2 (fun m => ⟨H, hH m⟩) g2Gen g2Gen_ne_zero r_smul_g2Gen [1]
  obtain ⟨sig, hs, hr⟩ := hk.sign (hH [])
  obtain ⟨pub, hp, hp'⟩ := hk.toPub
  obtain ⟨_, _, _, H0, rH⟩ := hH []
  have rS := G1Pubs.torsion_nsmul rH 2
  obtain ⟨h96, sig', hd, hr'⟩ := C25_signature_g1pubs sig _ (G2Projective.denotes_iff.mpr hr) rS
  obtain ⟨K, hK⟩ := G2Affine.exists_rep (2 • g2Gen)
  refine ⟨Cases.sha2, ⟨K, G2Affine.one⟩, _, g2Gen, e, .sign [] fun s => .forge ([1], s), [[]], sig.serialize, pub, hk,
    G2Affine.denotes_iff.mpr hK, G2Affine.denotes_iff.mpr G2Affine.one_rep, g2Gen_ne_zero, r_smul_g2Gen, he1, he2, ?_, by decide,
    by decide, h96, hp, ?_⟩
  · rw [Forger.run, hs]; rfl
  · rw [hd, Option.bind_some]
    exact (G1Pubs.verify_spec (hH [1]) hp' (G1Pubs.nsmul_ne_of_lt g1Gen_ne_zero r_smul_g1Gen (by decide) hk.lt)
      (G2Projective.denotes_iff.mp hr') rS).1.mpr rfl

/-- Non-vacuity: two keys, 1 and 2, a proof of possession of the second and the aggregate of both signatures. -/
example : ∃ (sha : List UInt8 → List UInt8) (Q : E2) (e : FR) (pub pub' : G1Pubs.PublicKey) (pop agg : G1Pubs.Signature),
    Q ≠ 0 ∧ r • Q = 0 ∧ e ∈ blindings ∧ pub.p.Denotes (1 • g1Gen) ∧ pub'.p.Denotes (2 • g1Gen) ∧
    (∀ m, G1Pubs.HashesTo sha m (e.int • Q)) ∧ (∃ S, pop.s.Denotes S ∧ r • S = 0) ∧
    G1Pubs.verify sha [7] pub' pop = some true ∧ (∃ S, agg.s.Denotes S ∧ r • S = 0) ∧
    agg.verifyAggregateCommon sha [pub, pub'] [8] = some true := by
  obtain ⟨H, hH⟩ := Cases.case2
  have h1 : FR.one.int = 1 := by rw [FR.one_rep.int]; exact ZMod.val_one r
  obtain ⟨_, _, _, H0, rH⟩ := hH []
  have lt : ∀ {n : ℕ}, n < 10 → n < r := fun h => h.trans (by rw [r_eq]; decide +kernel)
  obtain ⟨a, ha⟩ := G2Affine.exists_rep (2 • H)
  obtain ⟨b, hb⟩ := G2Affine.exists_rep (3 • H)
  obtain ⟨x, hx⟩ := G1Affine.exists_rep (1 • g1Gen)
  obtain ⟨y, hy⟩ := G1Affine.exists_rep (2 • g1Gen)
  have ha' := G2Projective.denotes_iff.mpr ha.toProjective
  have hb' := G2Projective.denotes_iff.mpr hb.toProjective
  have hx' := G1Projective.denotes_iff.mpr hx.toProjective
  have hy' := G1Projective.denotes_iff.mpr hy.toProjective
  have ra := G1Pubs.torsion_nsmul rH 2
  have rb := G1Pubs.torsion_nsmul rH 3
  refine ⟨Cases.sha2, H, FR.one, ⟨x.toProjective⟩, ⟨y.toProjective⟩, ⟨a.toProjective⟩, ⟨b.toProjective⟩, H0, rH,
    ⟨FR.one_rep.isValid, by rw [h1]; decide⟩, hx', hy', fun m => by rw [h1, one_nsmul]; exact hH m, ⟨_, ha', ra⟩,
    (G1Pubs.verify_spec (hH [7]) hy.toProjective (G1Pubs.nsmul_ne_of_lt g1Gen_ne_zero r_smul_g1Gen (by decide)
      (lt (by decide))) ha.toProjective ra).1.mpr rfl, ⟨_, hb', rb⟩,
    (C37_common_g1pubs Cases.sha2 [8] H (hH [8]) [⟨x.toProjective⟩, ⟨y.toProjective⟩] [1, 2]
      (.cons hx' (.cons hy' .nil)) (fun h => ?_) _ _ hb' rb).1.mpr ?_⟩
  · exact absurd (Nat.le_of_dvd (by decide) h) (Nat.not_le.mpr (lt (by decide)))
  · simp only [List.map_cons, List.map_nil, List.sum_cons, List.sum_nil, add_zero]
    rw [← add_nsmul]

/-! ## g1pubs, with domains -/

/-- In a domain: if a forger that may have any messages signed forges a signature of another message `t`, then the
reduction, which knows only k times the generator, Q and the scalars `e`, computes k times Q. `e` are the scalars that belong to the hash function. -/
theorem C88_forgeryDomain_g1pubs (sha : List UInt8 → List UInt8) (d : List UInt8) (c : G1Pubs.Challenge)
    (sk : G1Pubs.SecretKey) (k : ℕ)
    (hk : sk.Holds k) (k0 : k ≠ 0) (Q : E2) (hK : c.key.Denotes (k • g2Gen)) (hQ : c.point.Denotes Q) (rQ : r • Q = 0)
    (t : List UInt8) (e : List UInt8 → FR) (he : ∀ m, e m ∈ blindings)
    (hh : ∀ m, G1Pubs.HashesToIn sha d m ((e m).int • if m = t then Q else g2Gen))
    (F : Forger G2Affine Forgery) (l : List (List UInt8)) (s : List UInt8)
    (hF : F.run (fun m => (hashG2WithDomain sha m d).map G2Projective.toAffine)
      (fun m => (G1Pubs.signWithDomain sha m sk d).map G1Pubs.Signature.serialize) = some (l, t, s)) (hl : t ∉ l)
    (h96 : s.length = 96) (pub : G1Pubs.PublicKey) (hp : G1Pubs.privToPub sk = some pub)
    (hv : (G1Pubs.deserializeSignature s).bind (fun sig => G1Pubs.verifyWithDomain sha t pub sig d) = some true) :
    ∃ a, c.solve e t F = some a ∧ a.Denotes (k • Q) := by
  obtain ⟨sig, hd, hv⟩ := Option.bind_eq_some_iff.mp hv
  obtain ⟨S, hS, rS⟩ := C26_signature_g1pubs s h96 sig hd
  obtain ⟨pub', ep, hpub⟩ := hk.toPub
  obtain rfl : pub' = pub := Option.some.inj (ep.symm.trans hp)
  have hS := G2Projective.denotes_iff.mp hS
  have ht := hh t
  rw [if_pos rfl] at ht
  refine solve_g1pubs hK hQ rQ he (fun m => ?_) (fun m => ?_) hF hl hd hS
    ((G1Pubs.verifyWithDomain_spec ht hpub (G1Pubs.nsmul_ne_of_lt g1Gen_ne_zero r_smul_g1Gen k0 hk.lt) hS rS).1.mp hv)
  · obtain ⟨a, ha, hd, _⟩ := hh m
    exact ⟨_, by rw [ha]; rfl, (G2Projective.denotes_iff.mp hd).toAffine⟩
  · obtain ⟨g, hg, hr⟩ := hk.signIn (hh m)
    exact ⟨g, by rw [hg]; rfl, hr⟩

/-- For every hash function there is exactly one choice of scalars as in `C88_forgeryDomain_g1pubs`: the hashes are evenly
distributed if the scalars are. -/
theorem C88_scalarsDomain_g1pubs (sha : List UInt8 → List UInt8) (d : List UInt8) (hs : ∀ m, ∃ H, G1Pubs.HashesToIn sha d m H)
    (Q : E2) (Q0 : Q ≠ 0)
    (rQ : r • Q = 0) (t : List UInt8) :
    ∃! e : List UInt8 → FR, (∀ m, e m ∈ blindings) ∧
      ∀ m, G1Pubs.HashesToIn sha d m ((e m).int • if m = t then Q else g2Gen) := by
  have key : ∀ m, ∃ f, (f ∈ blindings ∧ G1Pubs.HashesToIn sha d m (f.int • if m = t then Q else g2Gen)) ∧
      ∀ f', f' ∈ blindings ∧ G1Pubs.HashesToIn sha d m (f'.int • if m = t then Q else g2Gen) → f' = f := by
    intro m
    obtain ⟨H, a, ha, hd, H0, rH⟩ := hs m
    have B0 : (if m = t then Q else g2Gen) ≠ 0 := by split; exacts [Q0, g2Gen_ne_zero]
    have rB : r • (if m = t then Q else g2Gen) = 0 := by split; exacts [rQ, r_smul_g2Gen]
    obtain ⟨x, x0, e, hu⟩ := one_factor r_smul_g2Gen B0 rB H0 (E2.torsion rB) (E2.torsion rH)
    obtain ⟨f, hf⟩ := FR.exists_rep x
    have hi : f.int = x.val := hf.int
    refine ⟨f, ⟨⟨hf.isValid, fun h => x0 ?_⟩, a, ha, by rw [hi, ← e]; exact hd, by rw [hi, ← e]; exact H0,
      by rw [hi, ← e]; exact rH⟩, fun f' h' => ?_⟩
    · rw [hi] at h
      exact (ZMod.val_eq_zero x).mp h
    · obtain ⟨hb, a', ha', hd', _⟩ := h'
      obtain rfl : a = a' := Option.some.inj (ha.symm.trans ha')
      have hy := FR.rep_val hb.1
      rw [hy.int] at hd'
      have := hu _ ((G2Projective.denotes_iff.mp hd).fn (G2Projective.denotes_iff.mp hd'))
      rw [this] at hy
      exact hy.inj hf
  choose e he hu using key
  exact ⟨e, ⟨fun m => (he m).1, fun m => (he m).2⟩, fun e' h => funext fun m => hu m (e' m) ⟨h.1 m, h.2 m⟩⟩

/-- If every key but one comes with a signature of some message under that key (a proof of possession), then whoever makes an
aggregate of a common message that is accepted for all keys solves the problem for the one key: all hashes being known
multiples of Q, the reduction computes k times Q from the aggregate and the proofs. -/
theorem C88_possessionDomain_g1pubs (sha : List UInt8 → List UInt8) (d : List UInt8) (Q : E2) (rQ : r • Q = 0) (k : ℕ)
    (pub : G1Pubs.PublicKey)
    (hp : pub.p.Denotes (k • g1Gen)) (others : List (G1Pubs.PublicKey × List UInt8 × FR × G1Pubs.Signature))
    (ho : ∀ o ∈ others, (∃ P, o.1.p.Denotes P ∧ r • P = 0) ∧ o.2.2.1 ∈ blindings ∧
      G1Pubs.HashesToIn sha d o.2.1 (o.2.2.1.int • Q) ∧ (∃ S, o.2.2.2.s.Denotes S ∧ r • S = 0) ∧
      G1Pubs.verifyWithDomain sha o.2.1 o.1 o.2.2.2 d = some true)
    (m : List UInt8) (e : FR) (he : e ∈ blindings) (hm : G1Pubs.HashesToIn sha d m (e.int • Q)) (agg : G1Pubs.Signature) (S : E2)
    (hs : agg.s.Denotes S) (rS : r • S = 0)
    (hv : agg.verifyAggregateCommonWithDomain sha (pub :: others.map fun o => o.1) m d = some true) :
    ∃ a, G1Pubs.solveCommon e agg (others.map fun o => (o.2.2.1, o.2.2.2)) = some a ∧ a.Denotes (k • Q) := by
  have key : ∀ o ∈ others, ∃ j : ℕ, o.1.p.Denotes (j • g1Gen) ∧ o.2.2.2.s.Rep (j • o.2.2.1.int • Q) := by
    intro o h
    obtain ⟨⟨P, hP, rP⟩, hb, hh, ⟨T, hT, rT⟩, hv⟩ := ho o h
    obtain ⟨j, rfl⟩ := E1.torsion rP
    obtain ⟨a, ha, hd, _, rH⟩ := id hh
    have P0 : j • g1Gen ≠ 0 := fun e => by
      rw [(C64_verifyWithDomain_g1pubs sha _ _ a _ ha hd rH _ _ hP _ _ hT).mpr (Or.inl e)] at hv
      cases hv
    have := (G1Pubs.verifyWithDomain_spec hh (G1Projective.denotes_iff.mp hP) P0 (G2Projective.denotes_iff.mp hT) rT).1.mp hv
    exact ⟨j, hP, this ▸ G2Projective.denotes_iff.mp hT⟩
  choose! j hj1 hj2 using key
  have hks : List.Forall₂ (fun (p : G1Pubs.PublicKey) i => p.p.Denotes (i • g1Gen)) (pub :: others.map fun o => o.1)
      (k :: others.map j) := .cons hp (List.forall₂_map_left_iff.mpr (List.forall₂_map_right_iff.mpr
        (List.forall₂_same.mpr hj1)))
  have h0 : ¬r ∣ (k :: others.map j).sum := fun h => by
    obtain ⟨a, ha, hd, _, rH⟩ := id hm
    have ha' := G1Pubs.aggregatePublicKeys_spec (forall₂_map (fun _ _ h => G1Projective.denotes_iff.mp h) hks)
    rw [← sum_nsmul_eq] at ha'
    obtain ⟨c, hc⟩ := h
    rw [hc, mul_nsmul, r_smul_g1Gen, nsmul_zero] at ha'
    rw [G1Pubs.Signature.verifyAggregateCommonWithDomain,
      (C64_verifyWithDomain_g1pubs sha _ _ a _ ha hd rH _ _ (G1Projective.denotes_iff.mpr ha') _ _ hs).mpr (Or.inl rfl)] at hv
    cases hv
  have ha' := G1Pubs.aggregatePublicKeys_spec (forall₂_map (fun _ _ h => G1Projective.denotes_iff.mp h) hks)
  rw [← sum_nsmul_eq] at ha'
  have hagg := (G1Pubs.verifyWithDomain_spec hm ha' (fun e => h0 (by
    have := addOrderOf_dvd_of_nsmul_eq_zero e
    rwa [addOrderOf_g1Gen] at this)) (G2Projective.denotes_iff.mp hs) rS).1.mp hv
  rw [List.sum_cons] at hagg
  have ha := G2Projective.denotes_iff.mp hs
  rw [hagg] at ha
  exact common_g1pubs rQ he (fun o h => ⟨(ho o h).2.1, hj2 o h⟩) ha


/-- Non-vacuity: a forger that has the empty message signed and then knows a signature of the message 1. -/
example : ∃ (sha : List UInt8 → List UInt8) (c : G1Pubs.Challenge) (sk : G1Pubs.SecretKey) (Q : E2) (e : List UInt8 → FR)
    (F : Forger G2Affine Forgery) (l : List (List UInt8)) (s : List UInt8) (pub : G1Pubs.PublicKey),
    sk.Holds 2 ∧ c.key.Denotes (2 • g2Gen) ∧ c.point.Denotes Q ∧ Q ≠ 0 ∧ r • Q = 0 ∧ (∀ m, e m ∈ blindings) ∧
    (∀ m, G1Pubs.HashesToIn sha [5] m ((e m).int • if m = [1] then Q else g2Gen)) ∧
    F.run (fun m => (hashG2WithDomain sha m [5]).map G2Projective.toAffine)
      (fun m => (G1Pubs.signWithDomain sha m sk [5]).map G1Pubs.Signature.serialize) = some (l, [1], s) ∧ [1] ∉ l ∧ l ≠ [] ∧
    s.length = 96 ∧ G1Pubs.privToPub sk = some pub ∧
    (G1Pubs.deserializeSignature s).bind (fun sig => G1Pubs.verifyWithDomain sha [1] pub sig [5]) = some true := by
  have h2 := FR.one_rep.add FR.one_rep
  have hv : (FR.one.add FR.one).int = 2 := by
    rw [h2.int, one_add_one_eq_two]
    exact ZMod.val_natCast_of_lt (a := 2) (by rw [r_eq]; decide +kernel)
  have hk : (G1Pubs.SecretKey.mk (some (FR.one.add FR.one))).Holds 2 := ⟨_, rfl, h2.isValid, hv⟩
  obtain ⟨e, ⟨he1, he2⟩, -⟩ := C88_scalarsDomain_g1pubs Cases.sha3 [5] (fun m => Cases.case3 m [5]) g2Gen g2Gen_ne_zero r_smul_g2Gen [1]
  obtain ⟨H', hH'⟩ := Cases.case3 [] [5]
  obtain ⟨H, hH⟩ := Cases.case3 [1] [5]
  obtain ⟨sig0, hs0, -⟩ := hk.signIn hH'
  obtain ⟨sig, hs, hr⟩ := hk.signIn hH
  obtain ⟨pub, hp, hp'⟩ := hk.toPub
  obtain ⟨_, _, _, H0, rH⟩ := id hH
  have rS := G1Pubs.torsion_nsmul rH 2
  obtain ⟨h96, sig', hd, hr'⟩ := C25_signature_g1pubs sig _ (G2Projective.denotes_iff.mpr hr) rS
  obtain ⟨K, hK⟩ := G2Affine.exists_rep (2 • g2Gen)
  refine ⟨Cases.sha3, ⟨K, G2Affine.one⟩, _, g2Gen, e, .sign [] fun _ => .forge ([1], sig.serialize), [[]], sig.serialize, pub, hk,
    G2Affine.denotes_iff.mpr hK, G2Affine.denotes_iff.mpr G2Affine.one_rep, g2Gen_ne_zero, r_smul_g2Gen, he1, he2, ?_, by decide,
    by decide, h96, hp, ?_⟩
  · rw [Forger.run, hs0]; rfl
  · rw [hd, Option.bind_some]
    exact (G1Pubs.verifyWithDomain_spec hH hp' (G1Pubs.nsmul_ne_of_lt g1Gen_ne_zero r_smul_g1Gen (by decide) hk.lt)
      (G2Projective.denotes_iff.mp hr') rS).1.mpr rfl

/-- Non-vacuity: two keys, 1 and 2, a proof of possession of the second and the aggregate of both signatures. -/
example : ∃ (sha : List UInt8 → List UInt8) (Q : E2) (e : FR) (pub pub' : G1Pubs.PublicKey) (pop agg : G1Pubs.Signature),
    Q ≠ 0 ∧ r • Q = 0 ∧ e ∈ blindings ∧ pub.p.Denotes (1 • g1Gen) ∧ pub'.p.Denotes (2 • g1Gen) ∧
    G1Pubs.HashesToIn sha [5] [8] (e.int • Q) ∧ (∃ S, pop.s.Denotes S ∧ r • S = 0) ∧
    G1Pubs.verifyWithDomain sha [8] pub' pop [5] = some true ∧ (∃ S, agg.s.Denotes S ∧ r • S = 0) ∧
    agg.verifyAggregateCommonWithDomain sha [pub, pub'] [8] [5] = some true := by
  obtain ⟨H, hH⟩ := Cases.case3 [8] [5]
  have h1 : FR.one.int = 1 := by rw [FR.one_rep.int]; exact ZMod.val_one r
  obtain ⟨_, _, _, H0, rH⟩ := id hH
  have lt : ∀ {n : ℕ}, n < 10 → n < r := fun h => h.trans (by rw [r_eq]; decide +kernel)
  obtain ⟨a, ha⟩ := G2Affine.exists_rep (2 • H)
  obtain ⟨b, hb⟩ := G2Affine.exists_rep (3 • H)
  obtain ⟨x, hx⟩ := G1Affine.exists_rep (1 • g1Gen)
  obtain ⟨y, hy⟩ := G1Affine.exists_rep (2 • g1Gen)
  have ha' := G2Projective.denotes_iff.mpr ha.toProjective
  have hb' := G2Projective.denotes_iff.mpr hb.toProjective
  have hx' := G1Projective.denotes_iff.mpr hx.toProjective
  have hy' := G1Projective.denotes_iff.mpr hy.toProjective
  have ra := G1Pubs.torsion_nsmul rH 2
  have rb := G1Pubs.torsion_nsmul rH 3
  have hsum : (G1Pubs.aggregatePublicKeys [⟨x.toProjective⟩, ⟨y.toProjective⟩]).p.Rep (3 • g1Gen) := by
    have := G1Pubs.aggregatePublicKeys_spec (l := [⟨x.toProjective⟩, ⟨y.toProjective⟩])
      (.cons hx.toProjective (.cons hy.toProjective .nil))
    rwa [List.sum_cons, List.sum_cons, List.sum_nil, add_zero, ← add_nsmul] at this
  refine ⟨Cases.sha3, H, FR.one, ⟨x.toProjective⟩, ⟨y.toProjective⟩, ⟨a.toProjective⟩, ⟨b.toProjective⟩, H0, rH,
    ⟨FR.one_rep.isValid, by rw [h1]; decide⟩, hx', hy', by rw [h1, one_nsmul]; exact hH, ⟨_, ha', ra⟩,
    (G1Pubs.verifyWithDomain_spec hH hy.toProjective (G1Pubs.nsmul_ne_of_lt g1Gen_ne_zero r_smul_g1Gen (by decide)
      (lt (by decide))) ha.toProjective ra).1.mpr rfl, ⟨_, hb', rb⟩,
    (G1Pubs.verifyWithDomain_spec hH hsum (G1Pubs.nsmul_ne_of_lt g1Gen_ne_zero r_smul_g1Gen (by decide)
      (lt (by decide))) hb.toProjective rb).1.mpr rfl⟩


/-! ## g2pubs -/

/-- The answers made without the key are those of the functions. -/
theorem answers_g2pubs {ω : Type} {c : G2Pubs.Challenge} {k : ℕ} {Q : E1} (hK : c.key.Denotes (k • g1Gen)) (hQ : c.point.Denotes Q)
    {e : List UInt8 → FR} {t : List UInt8}
    {hash : List UInt8 → Option G1Affine} {sign : List UInt8 → Option (List UInt8)}
    (hh : ∀ m, ∃ a, hash m = some a ∧ a.Rep ((e m).int • if m = t then Q else g1Gen))
    (hs : ∀ m, ∃ g : G2Pubs.Signature, sign m = some g.serialize ∧ g.s.Rep (k • (e m).int • if m = t then Q else g1Gen))
    {F : Forger G1Affine ω} {l : List (List UInt8)} {o : ω} (hF : F.run hash sign = some (l, o)) (hl : t ∉ l) :
    F.run (c.hash e t) (c.sign e t) = some (l, o) := by
  have hK := G1Affine.denotes_iff.mp hK
  have hQ := G1Affine.denotes_iff.mp hQ
  exact run_congr (h' := c.hash e t) (s' := c.sign e t) (T := fun m => m = t) (fun m => by
    obtain ⟨a, ha, hr⟩ := hh m
    rw [ha, G2Pubs.Challenge.hash]
    refine congrArg some (G1Affine.Rep.inj (P := (e m).int • if m = t then Q else g1Gen) ?_ hr)
    split
    · exact (hQ.mulFR _).toAffine
    · exact (G1Affine.one_rep.mulFR _).toAffine) (fun m hm => by
    obtain ⟨g, hg, hr⟩ := hs m
    rw [if_neg hm] at hr
    rw [hg, G2Pubs.Challenge.sign, if_neg hm, G2Pubs.Signature.serialize, G2Pubs.Signature.serialize]
    have hr' := (hK.mulFR (e m).toRepr).toAffine.toProjective.toAffine
    have e1 : (e m).toRepr.toNat • k • g1Gen = k • (e m).int • g1Gen := smul_comm _ _ _
    rw [e1] at hr'
    rw [← hr'.inj hr.toAffine]
    rfl) F hF fun m hm h => hl (h ▸ hm)

theorem solve_g2pubs {c : G2Pubs.Challenge} {k : ℕ} {Q : E1} (hK : c.key.Denotes (k • g1Gen)) (hQ : c.point.Denotes Q)
    (rQ : r • Q = 0) {e : List UInt8 → FR} (he : ∀ m, e m ∈ blindings) {t : List UInt8}
    {hash : List UInt8 → Option G1Affine} {sign : List UInt8 → Option (List UInt8)}
    (hh : ∀ m, ∃ a, hash m = some a ∧ a.Rep ((e m).int • if m = t then Q else g1Gen))
    (hs : ∀ m, ∃ g : G2Pubs.Signature, sign m = some g.serialize ∧ g.s.Rep (k • (e m).int • if m = t then Q else g1Gen))
    {F : Forger G1Affine Forgery} {l : List (List UInt8)} {s : List UInt8} (hF : F.run hash sign = some (l, t, s)) (hl : t ∉ l)
    {sig : G2Pubs.Signature} {S : E1} (hd : G2Pubs.deserializeSignature s = some sig) (hS : sig.s.Rep S)
    (hv : S = k • (e t).int • Q) : ∃ a, c.solve e t F = some a ∧ a.Denotes (k • Q) := by
  have run := answers_g2pubs (e := e) hK hQ hh hs hF hl
  obtain ⟨x, hx, x0⟩ := blindings_rep (he t)
  obtain ⟨u, hu, hu'⟩ := unblind_rep_g2pubs hx x0 hS.toAffine
  refine ⟨u.s.toAffine, ?_, ?_⟩
  · rw [G2Pubs.Challenge.solve, run, Option.bind_some, if_pos rfl, hd, Option.bind_some, hu]; rfl
  · rw [G1Affine.denotes_iff]
    rw [hv, hx.int, smul_comm k, inv_nsmul (G1Pubs.torsion_nsmul rQ k) x0] at hu'
    exact hu'.toAffine

/-- If a forger that may have any messages signed forges a signature of another message `t`, then the reduction, which knows
only k times the generator, Q and the scalars `e`, computes k times Q. `e` are the scalars that belong to the hash function. -/
theorem C88_forgery_g2pubs (sha : List UInt8 → List UInt8) (c : G2Pubs.Challenge) (sk : G2Pubs.SecretKey) (k : ℕ)
    (hk : sk.Holds k) (k0 : k ≠ 0) (Q : E1) (hK : c.key.Denotes (k • g1Gen)) (hQ : c.point.Denotes Q) (rQ : r • Q = 0)
    (t : List UInt8) (e : List UInt8 → FR) (he : ∀ m, e m ∈ blindings)
    (hh : ∀ m, G2Pubs.HashesTo sha m ((e m).int • if m = t then Q else g1Gen))
    (F : Forger G1Affine Forgery) (l : List (List UInt8)) (s : List UInt8)
    (hF : F.run (hashG1 sha) (fun m => (G2Pubs.sign sha m sk).map G2Pubs.Signature.serialize) = some (l, t, s)) (hl : t ∉ l)
    (h48 : s.length = 48) (pub : G2Pubs.PublicKey) (hp : G2Pubs.privToPub sk = some pub)
    (hv : (G2Pubs.deserializeSignature s).bind (G2Pubs.verify sha t pub) = some true) :
    ∃ a, c.solve e t F = some a ∧ a.Denotes (k • Q) := by
  obtain ⟨sig, hd, hv⟩ := Option.bind_eq_some_iff.mp hv
  obtain ⟨S, hS, rS⟩ := C26_signature_g2pubs s h48 sig hd
  obtain ⟨pub', ep, hpub⟩ := hk.toPub
  obtain rfl : pub' = pub := Option.some.inj (ep.symm.trans hp)
  have hS := G1Projective.denotes_iff.mp hS
  have ht := hh t
  rw [if_pos rfl] at ht
  refine solve_g2pubs hK hQ rQ he (fun m => ?_) (fun m => ?_) hF hl hd hS
    ((G2Pubs.verify_spec ht hpub (G1Pubs.nsmul_ne_of_lt g2Gen_ne_zero r_smul_g2Gen k0 hk.lt) hS rS).1.mp hv)
  · obtain ⟨a, ha, hd, _⟩ := hh m
    exact ⟨a, ha, G1Affine.denotes_iff.mp hd⟩
  · obtain ⟨g, hg, hr⟩ := hk.sign (hh m)
    exact ⟨g, by rw [hg]; rfl, hr⟩

/-- For every hash function there is exactly one choice of scalars as in `C88_forgery_g2pubs`: the hashes are evenly distributed
if the scalars are. -/
theorem C88_scalars_g2pubs (sha : List UInt8 → List UInt8) (hs : ∀ m, ∃ H, G2Pubs.HashesTo sha m H) (Q : E1) (Q0 : Q ≠ 0)
    (rQ : r • Q = 0) (t : List UInt8) :
    ∃! e : List UInt8 → FR, (∀ m, e m ∈ blindings) ∧
      ∀ m, G2Pubs.HashesTo sha m ((e m).int • if m = t then Q else g1Gen) := by
  have key : ∀ m, ∃ f, (f ∈ blindings ∧ G2Pubs.HashesTo sha m (f.int • if m = t then Q else g1Gen)) ∧
      ∀ f', f' ∈ blindings ∧ G2Pubs.HashesTo sha m (f'.int • if m = t then Q else g1Gen) → f' = f := by
    intro m
    obtain ⟨H, a, ha, hd, H0, rH⟩ := hs m
    have B0 : (if m = t then Q else g1Gen) ≠ 0 := by split; exacts [Q0, g1Gen_ne_zero]
    have rB : r • (if m = t then Q else g1Gen) = 0 := by split; exacts [rQ, r_smul_g1Gen]
    obtain ⟨x, x0, e, hu⟩ := one_factor r_smul_g1Gen B0 rB H0 (E1.torsion rB) (E1.torsion rH)
    obtain ⟨f, hf⟩ := FR.exists_rep x
    have hi : f.int = x.val := hf.int
    refine ⟨f, ⟨⟨hf.isValid, fun h => x0 ?_⟩, a, ha, by rw [hi, ← e]; exact hd, by rw [hi, ← e]; exact H0,
      by rw [hi, ← e]; exact rH⟩, fun f' h' => ?_⟩
    · rw [hi] at h
      exact (ZMod.val_eq_zero x).mp h
    · obtain ⟨hb, a', ha', hd', _⟩ := h'
      obtain rfl : a = a' := Option.some.inj (ha.symm.trans ha')
      have hy := FR.rep_val hb.1
      rw [hy.int] at hd'
      have := hu _ ((G1Affine.denotes_iff.mp hd).fn (G1Affine.denotes_iff.mp hd'))
      rw [this] at hy
      exact hy.inj hf
  choose e he hu using key
  exact ⟨e, ⟨fun m => (he m).1, fun m => (he m).2⟩, fun e' h => funext fun m => hu m (e' m) ⟨h.1 m, h.2 m⟩⟩

theorem common_g2pubs {k : ℕ} {Q : E1} (rQ : r • Q = 0) {e : FR} (he : e ∈ blindings)
    {ι : Type} {os : List ι} {pf : ι → FR × G2Pubs.Signature} {f : ι → ℕ}
    (hp : ∀ o ∈ os, (pf o).1 ∈ blindings ∧ (pf o).2.s.Rep (f o • (pf o).1.int • Q))
    {agg : G2Pubs.Signature} (ha : agg.s.Rep ((k + (os.map f).sum) • e.int • Q)) :
    ∃ a, G2Pubs.solveCommon e agg (os.map pf) = some a ∧ a.Denotes (k • Q) := by
  obtain ⟨x, hx, x0⟩ := blindings_rep he
  obtain ⟨u, hu, hu'⟩ := unblind_rep_g2pubs hx x0 ha.toAffine
  rw [hx.int, smul_comm _ x.val, inv_nsmul (G1Pubs.torsion_nsmul rQ _) x0] at hu'
  obtain ⟨l, hl, hr⟩ := mapM_some (f := fun o => G2Pubs.unblind (pf o).1 (pf o).2.s.toAffine)
    (R := fun (s : G2Pubs.Signature) (S : E1) => s.s.Rep S) (g := fun p => f p • Q) (l := os) fun p h => by
      obtain ⟨hb, hs⟩ := hp p h
      obtain ⟨y, hy, y0⟩ := blindings_rep hb
      obtain ⟨v, hv, hv'⟩ := unblind_rep_g2pubs hy y0 hs.toAffine
      rw [hy.int, smul_comm (f p) y.val, inv_nsmul (G1Pubs.torsion_nsmul rQ _) y0] at hv'
      exact ⟨v, hv, hv'⟩
  have hl' : (os.map pf).mapM (fun p => G2Pubs.unblind p.1 p.2.s.toAffine) = some l := by rw [List.mapM_map]; exact hl
  refine ⟨_, by rw [G2Pubs.solveCommon, hu, Option.bind_some, hl', Option.map_some], ?_⟩
  rw [G1Affine.denotes_iff]
  have hsum := G2Pubs.aggregateSignatures_spec hr
  have es : (os.map fun p => f p • Q).sum = (os.map f).sum • Q := by
    clear hp ha hu hu' hl hl' hr hsum
    induction os with
    | nil => simp
    | cons p l ih => simp [add_nsmul, ih]
  rw [es] at hsum
  have := (hu'.add hsum.toAffine.neg.toProjective).toAffine
  rwa [add_nsmul, add_neg_cancel_right] at this

/-- If every key but one comes with a signature of some message under that key (a proof of possession), then whoever makes an
aggregate of a common message that is accepted for all keys solves the problem for the one key: all hashes being known
multiples of Q, the reduction computes k times Q from the aggregate and the proofs. -/
theorem C88_possession_g2pubs (sha : List UInt8 → List UInt8) (Q : E1) (rQ : r • Q = 0) (k : ℕ) (pub : G2Pubs.PublicKey)
    (hp : pub.p.Denotes (k • g2Gen)) (others : List (G2Pubs.PublicKey × List UInt8 × FR × G2Pubs.Signature))
    (ho : ∀ o ∈ others, (∃ P, o.1.p.Denotes P ∧ r • P = 0) ∧ o.2.2.1 ∈ blindings ∧
      G2Pubs.HashesTo sha o.2.1 (o.2.2.1.int • Q) ∧ (∃ S, o.2.2.2.s.Denotes S ∧ r • S = 0) ∧
      G2Pubs.verify sha o.2.1 o.1 o.2.2.2 = some true)
    (m : List UInt8) (e : FR) (he : e ∈ blindings) (hm : G2Pubs.HashesTo sha m (e.int • Q)) (agg : G2Pubs.Signature) (S : E1)
    (hs : agg.s.Denotes S) (rS : r • S = 0)
    (hv : agg.verifyAggregateCommon sha (pub :: others.map fun o => o.1) m = some true) :
    ∃ a, G2Pubs.solveCommon e agg (others.map fun o => (o.2.2.1, o.2.2.2)) = some a ∧ a.Denotes (k • Q) := by
  have key : ∀ o ∈ others, ∃ j : ℕ, o.1.p.Denotes (j • g2Gen) ∧ o.2.2.2.s.Rep (j • o.2.2.1.int • Q) := by
    intro o h
    obtain ⟨⟨P, hP, rP⟩, hb, hh, ⟨T, hT, rT⟩, hv⟩ := ho o h
    obtain ⟨j, rfl⟩ := E2.torsion rP
    obtain ⟨a, ha, hd, _, rH⟩ := id hh
    have P0 : j • g2Gen ≠ 0 := fun e => by
      rw [(C64_verify_g2pubs sha _ a _ ha hd _ _ hP _ _ hT).mpr (Or.inr (Or.inr (by rw [e, nsmul_zero])))] at hv
      cases hv
    have := (G2Pubs.verify_spec hh (G2Projective.denotes_iff.mp hP) P0 (G1Projective.denotes_iff.mp hT) rT).1.mp hv
    exact ⟨j, hP, this ▸ G1Projective.denotes_iff.mp hT⟩
  choose! j hj1 hj2 using key
  have hks : List.Forall₂ (fun (p : G2Pubs.PublicKey) i => p.p.Denotes (i • g2Gen)) (pub :: others.map fun o => o.1)
      (k :: others.map j) := .cons hp (List.forall₂_map_left_iff.mpr (List.forall₂_map_right_iff.mpr
        (List.forall₂_same.mpr hj1)))
  have h0 : ¬r ∣ (k :: others.map j).sum := fun h => by
    obtain ⟨a, ha, hd, _, rH⟩ := id hm
    have ha' := G2Pubs.aggregatePublicKeys_spec (forall₂_map (fun _ _ h => G2Projective.denotes_iff.mp h) hks)
    rw [← sum_nsmul_eq] at ha'
    obtain ⟨c, hc⟩ := h
    rw [hc, mul_nsmul, r_smul_g2Gen, nsmul_zero] at ha'
    rw [G2Pubs.Signature.verifyAggregateCommon,
      (C64_verify_g2pubs sha _ a _ ha hd _ _ (G2Projective.denotes_iff.mpr ha') _ _ hs).mpr (Or.inr (Or.inr (nsmul_zero _)))] at hv
    cases hv
  have hagg := (C37_common_g2pubs sha m _ hm _ _ hks h0 agg S hs rS).1.mp hv
  rw [← sum_nsmul_eq, List.sum_cons] at hagg
  have ha := G1Projective.denotes_iff.mp hs
  rw [hagg] at ha
  exact common_g2pubs rQ he (fun o h => ⟨(ho o h).2.1, hj2 o h⟩) ha


/-- Non-vacuity: under a function that hashes all messages to one point, the forger that has the empty message signed and
gives the signature out as one of the message 1 meets the hypotheses. -/
example : ∃ (sha : List UInt8 → List UInt8) (c : G2Pubs.Challenge) (sk : G2Pubs.SecretKey) (Q : E1) (e : List UInt8 → FR)
    (F : Forger G1Affine Forgery) (l : List (List UInt8)) (s : List UInt8) (pub : G2Pubs.PublicKey),
    sk.Holds 2 ∧ c.key.Denotes (2 • g1Gen) ∧ c.point.Denotes Q ∧ Q ≠ 0 ∧ r • Q = 0 ∧ (∀ m, e m ∈ blindings) ∧
    (∀ m, G2Pubs.HashesTo sha m ((e m).int • if m = [1] then Q else g1Gen)) ∧
    F.run (hashG1 sha) (fun m => (G2Pubs.sign sha m sk).map G2Pubs.Signature.serialize) = some (l, [1], s) ∧ [1] ∉ l ∧ l ≠ [] ∧
    s.length = 48 ∧ G2Pubs.privToPub sk = some pub ∧
    (G2Pubs.deserializeSignature s).bind (G2Pubs.verify sha [1] pub) = some true := by
  obtain ⟨H, hH⟩ := Cases.case1
  have h2 := FR.one_rep.add FR.one_rep
  have hv : (FR.one.add FR.one).int = 2 := by
    rw [h2.int, one_add_one_eq_two]
    exact ZMod.val_natCast_of_lt (a := 2) (by rw [r_eq]; decide +kernel)
  have hk : (G2Pubs.SecretKey.mk (some (FR.one.add FR.one))).Holds 2 := ⟨_, rfl, h2.isValid, hv⟩
  obtain ⟨e, ⟨he1, he2⟩, -⟩ := C88_scalars_g2pubs Cases.sha1 (fun m => ⟨H, hH m⟩) g1Gen g1Gen_ne_zero r_smul_g1Gen [1]
  obtain ⟨sig, hs, hr⟩ := hk.sign (hH [])
  obtain ⟨pub, hp, hp'⟩ := hk.toPub
  obtain ⟨_, _, _, H0, rH⟩ := hH []
  have rS := G1Pubs.torsion_nsmul rH 2
  obtain ⟨h48, sig', hd, hr'⟩ := C25_signature_g2pubs sig _ (G1Projective.denotes_iff.mpr hr) rS
  obtain ⟨K, hK⟩ := G1Affine.exists_rep (2 • g1Gen)
  refine ⟨Cases.sha1, ⟨K, G1Affine.one⟩, _, g1Gen, e, .sign [] fun s => .forge ([1], s), [[]], sig.serialize, pub, hk,
    G1Affine.denotes_iff.mpr hK, G1Affine.denotes_iff.mpr G1Affine.one_rep, g1Gen_ne_zero, r_smul_g1Gen, he1, he2, ?_, by decide,
    by decide, h48, hp, ?_⟩
  · rw [Forger.run, hs]; rfl
  · rw [hd, Option.bind_some]
    exact (G2Pubs.verify_spec (hH [1]) hp' (G1Pubs.nsmul_ne_of_lt g2Gen_ne_zero r_smul_g2Gen (by decide) hk.lt)
      (G1Projective.denotes_iff.mp hr') rS).1.mpr rfl

/-- Non-vacuity: two keys, 1 and 2, a proof of possession of the second and the aggregate of both signatures. -/
example : ∃ (sha : List UInt8 → List UInt8) (Q : E1) (e : FR) (pub pub' : G2Pubs.PublicKey) (pop agg : G2Pubs.Signature),
    Q ≠ 0 ∧ r • Q = 0 ∧ e ∈ blindings ∧ pub.p.Denotes (1 • g2Gen) ∧ pub'.p.Denotes (2 • g2Gen) ∧
    (∀ m, G2Pubs.HashesTo sha m (e.int • Q)) ∧ (∃ S, pop.s.Denotes S ∧ r • S = 0) ∧
    G2Pubs.verify sha [7] pub' pop = some true ∧ (∃ S, agg.s.Denotes S ∧ r • S = 0) ∧
    agg.verifyAggregateCommon sha [pub, pub'] [8] = some true := by
  obtain ⟨H, hH⟩ := Cases.case1
  have h1 : FR.one.int = 1 := by rw [FR.one_rep.int]; exact ZMod.val_one r
  obtain ⟨_, _, _, H0, rH⟩ := hH []
  have lt : ∀ {n : ℕ}, n < 10 → n < r := fun h => h.trans (by rw [r_eq]; decide +kernel)
  obtain ⟨a, ha⟩ := G1Affine.exists_rep (2 • H)
  obtain ⟨b, hb⟩ := G1Affine.exists_rep (3 • H)
  obtain ⟨x, hx⟩ := G2Affine.exists_rep (1 • g2Gen)
  obtain ⟨y, hy⟩ := G2Affine.exists_rep (2 • g2Gen)
  have ha' := G1Projective.denotes_iff.mpr ha.toProjective
  have hb' := G1Projective.denotes_iff.mpr hb.toProjective
  have hx' := G2Projective.denotes_iff.mpr hx.toProjective
  have hy' := G2Projective.denotes_iff.mpr hy.toProjective
  have ra := G1Pubs.torsion_nsmul rH 2
  have rb := G1Pubs.torsion_nsmul rH 3
  refine ⟨Cases.sha1, H, FR.one, ⟨x.toProjective⟩, ⟨y.toProjective⟩, ⟨a.toProjective⟩, ⟨b.toProjective⟩, H0, rH,
    ⟨FR.one_rep.isValid, by rw [h1]; decide⟩, hx', hy', fun m => by rw [h1, one_nsmul]; exact hH m, ⟨_, ha', ra⟩,
    (G2Pubs.verify_spec (hH [7]) hy.toProjective (G1Pubs.nsmul_ne_of_lt g2Gen_ne_zero r_smul_g2Gen (by decide)
      (lt (by decide))) ha.toProjective ra).1.mpr rfl, ⟨_, hb', rb⟩,
    (C37_common_g2pubs Cases.sha1 [8] H (hH [8]) [⟨x.toProjective⟩, ⟨y.toProjective⟩] [1, 2]
      (.cons hx' (.cons hy' .nil)) (fun h => ?_) _ _ hb' rb).1.mpr ?_⟩
  · exact absurd (Nat.le_of_dvd (by decide) h) (Nat.not_le.mpr (lt (by decide)))
  · simp only [List.map_cons, List.map_nil, List.sum_cons, List.sum_nil, add_zero]
    rw [← add_nsmul]

end Bls.Props
