import Verif.Spec.ReduceCommon
import Verif.Props.ReduceAggregate
/-
C88, common-message aggregates by forgers that may have messages signed by the attacked key.
-/
set_option exponentiation.threshold 1000
namespace Bls.Props

/-! ## g1pubs -/

theorem answersOn_g1pubs {ω : Type} {c : G1Pubs.Challenge} {k : ℕ} {Q : E2} (hK : c.key.Denotes (k • g2Gen))
    (hQ : c.point.Denotes Q) {e : List UInt8 → FR} {T : List UInt8 → Bool}
    {hash : List UInt8 → Option G2Affine} {sign : List UInt8 → Option (List UInt8)}
    (hh : ∀ m, ∃ a, hash m = some a ∧ a.Rep ((e m).int • if T m then Q else g2Gen))
    (hs : ∀ m, ∃ g : G1Pubs.Signature, sign m = some g.serialize ∧ g.s.Rep (k • (e m).int • if T m then Q else g2Gen))
    {F : Forger G2Affine ω} {l : List (List UInt8)} {o : ω} (hF : F.run hash sign = some (l, o)) (hl : ∀ m ∈ l, T m = false) :
    F.run (c.hashOn e T) (c.signOn e T) = some (l, o) := by
  have hK := G2Affine.denotes_iff.mp hK
  have hQ := G2Affine.denotes_iff.mp hQ
  exact run_congr (h' := c.hashOn e T) (s' := c.signOn e T) (T := fun m => T m = true) (fun m => by
    obtain ⟨a, ha, hr⟩ := hh m
    rw [ha, G1Pubs.Challenge.hashOn]
    refine congrArg some (G2Affine.Rep.inj (P := (e m).int • if T m then Q else g2Gen) ?_ hr)
    split
    · exact (hQ.mulFR _).toAffine
    · exact (G2Affine.one_rep.mulFR _).toAffine) (fun m hm => by
    obtain ⟨g, hg, hr⟩ := hs m
    rw [if_neg hm] at hr
    rw [hg, G1Pubs.Challenge.signOn, if_neg hm, G1Pubs.Signature.serialize, G1Pubs.Signature.serialize]
    have hr' := (hK.mulFR (e m).toRepr).toAffine.toProjective.toAffine
    have e1 : (e m).toRepr.toNat • k • g2Gen = k • (e m).int • g2Gen := smul_comm _ _ _
    rw [e1] at hr'
    rw [← hr'.inj hr.toAffine]
    rfl) F hF fun m hm h => by rw [hl m hm] at h; cases h

/-- A forger that may have any messages signed by the attacked key that are not claims (`T`), and ends with an aggregate of a
message with `T` that is accepted for the attacked key and other keys, each of which has a proof of possession: the
reduction, which knows only k times the generator, Q and the scalars of the hash function, computes k times Q. -/
theorem C88_common_g1pubs (sha : List UInt8 → List UInt8) (c : G1Pubs.Challenge) (sk : G1Pubs.SecretKey) (k : ℕ)
    (hk : sk.Holds k) (Q : E2) (hK : c.key.Denotes (k • g2Gen)) (hQ : c.point.Denotes Q) (rQ : r • Q = 0)
    (T : List UInt8 → Bool) (e : List UInt8 → FR) (he : ∀ m, e m ∈ blindings)
    (hh : ∀ m, G1Pubs.HashesTo sha m ((e m).int • if T m then Q else g2Gen))
    (F : Forger G2Affine CommonForgery) (l : List (List UInt8)) (o : CommonForgery)
    (hF : F.run (hashG2 sha) (fun m => (G1Pubs.sign sha m sk).map G1Pubs.Signature.serialize) = some (l, o))
    (hl : ∀ m ∈ l, T m = false) (hm : T o.msg = true)
    (hlen : o.sig.length = 96 ∧ ∀ x ∈ o.before ++ o.after, x.key.length = 48 ∧ x.proof.length = 96 ∧ T x.claim = true)
    (pub : G1Pubs.PublicKey) (hp : G1Pubs.privToPub sk = some pub) (hv : G1Pubs.AcceptsCommon sha pub o) :
    ∃ a, c.solveForgedCommon e T F = some a ∧ a.Denotes (k • Q) := by
  obtain ⟨hpr, ps, ps', s, hps, hps', hd, hv⟩ := hv
  obtain ⟨S, hS, rS⟩ := C26_signature_g1pubs _ hlen.1 s hd
  obtain ⟨pub', ep, hpub⟩ := hk.toPub
  obtain rfl : pub' = pub := Option.some.inj (ep.symm.trans hp)
  have run := answersOn_g1pubs (c := c) (e := e) (Q := Q) hK hQ (fun m => by
    obtain ⟨a, ha, hd, _⟩ := hh m
    exact ⟨a, ha, G2Affine.denotes_iff.mp hd⟩) (fun m => by
    obtain ⟨g, hg, hr⟩ := hk.sign (hh m)
    exact ⟨g, by rw [hg]; rfl, hr⟩) hF hl
  have key : ∀ x ∈ o.before ++ o.after, ∃ (j : ℕ) (q : G1Pubs.Signature),
      (∃ p, G1Pubs.deserializePublicKey x.key = some p ∧ p.p.Denotes (j • g1Gen)) ∧
      G1Pubs.deserializeSignature x.proof = some q ∧ q.s.Rep (j • (e x.claim).int • Q) := by
    intro x hx
    obtain ⟨h1, h2, h3⟩ := hlen.2 x hx
    obtain ⟨p, hp, hv⟩ := Option.bind_eq_some_iff.mp (hpr x hx)
    obtain ⟨q, hq, hv⟩ := Option.bind_eq_some_iff.mp hv
    obtain ⟨j, hj, hP⟩ := C26_publicKey_g1pubs _ h1 p hp
    obtain ⟨T, hT, rT⟩ := C26_signature_g1pubs _ h2 q hq
    have hc := hh x.claim
    rw [if_pos h3] at hc
    obtain ⟨a, ha, hd, _, rH⟩ := id hc
    have P0 : j • g1Gen ≠ 0 := fun e => by
      rw [(C64_verify_g1pubs sha _ a _ ha hd rH _ _ hP _ _ hT).mpr (Or.inl e)] at hv
      cases hv
    have := (G1Pubs.verify_spec hc (G1Projective.denotes_iff.mp hP) P0 (G2Projective.denotes_iff.mp hT) rT).1.mp hv
    exact ⟨j, q, ⟨p, hp, hP⟩, hq, this ▸ G2Projective.denotes_iff.mp hT⟩
  have : Inhabited G1Pubs.Signature := ⟨s⟩
  choose! j q hj1 hq1 hj2 using key
  have keys : ∀ (xs : List Possession) (ps : List G1Pubs.PublicKey), (∀ x ∈ xs, x ∈ o.before ++ o.after) →
      xs.mapM (fun x => G1Pubs.deserializePublicKey x.key) = some ps →
      List.Forall₂ (fun (p : G1Pubs.PublicKey) i => p.p.Denotes (i • g1Gen)) ps (xs.map j) := by
    intro xs ps hx h
    obtain ⟨z, rfl, rfl, hz⟩ := forall₂_exists (forall₂_of_mapM h)
    rw [List.map_map]
    refine List.forall₂_map_left_iff.mpr (List.forall₂_map_right_iff.mpr (List.forall₂_same.mpr fun y hy => ?_))
    obtain ⟨p, hp, hP⟩ := hj1 _ (hx _ (List.mem_map_of_mem hy))
    obtain rfl : p = y.2 := Option.some.inj (hp.symm.trans (hz y hy))
    exact hP
  have hks : List.Forall₂ (fun (p : G1Pubs.PublicKey) i => p.p.Denotes (i • g1Gen)) (ps ++ pub' :: ps')
      (o.before.map j ++ k :: o.after.map j) :=
    List.rel_append (keys _ _ (fun x h => List.mem_append_left _ h) hps)
      (.cons (G1Projective.denotes_iff.mpr hpub) (keys _ _ (fun x h => List.mem_append_right _ h) hps'))
  have hmsg := hh o.msg
  rw [if_pos hm] at hmsg
  have hsum := G1Pubs.aggregatePublicKeys_spec (forall₂_map (fun _ _ h => G1Projective.denotes_iff.mp h) hks)
  rw [← sum_nsmul_eq] at hsum
  have hsumeq : (o.before.map j ++ k :: o.after.map j).sum = k + ((o.before ++ o.after).map j).sum := by
    rw [List.map_append, List.sum_append, List.sum_append, List.sum_cons]
    omega
  rw [hsumeq] at hsum
  rw [G1Pubs.Signature.verifyAggregateCommon] at hv
  have P0 : (k + ((o.before ++ o.after).map j).sum) • g1Gen ≠ 0 := fun h => by
    obtain ⟨a, ha, hd, _, rH⟩ := id hmsg
    rw [(C64_verify_g1pubs sha _ a _ ha hd rH _ _ (G1Projective.denotes_iff.mpr hsum) _ _ hS).mpr (Or.inl h)] at hv
    cases hv
  have hSum := (G1Pubs.verify_spec hmsg hsum P0 (G2Projective.denotes_iff.mp hS) rS).1.mp hv
  have hr := G2Projective.denotes_iff.mp hS
  rw [hSum] at hr
  obtain ⟨a, ha, ha'⟩ := common_g1pubs rQ (he o.msg) (os := o.before ++ o.after) (pf := fun x => (e x.claim, q x)) (f := j)
    (fun x hx => ⟨he _, hj2 x hx⟩) hr
  refine ⟨a, ?_, ha'⟩
  have hlist : (o.before ++ o.after).mapM (fun x => (G1Pubs.deserializeSignature x.proof).map fun p => (e x.claim, p)) =
      some ((o.before ++ o.after).map fun x => (e x.claim, q x)) := by
    have : ∀ xs : List Possession, (∀ x ∈ xs, x ∈ o.before ++ o.after) →
        xs.mapM (fun x => (G1Pubs.deserializeSignature x.proof).map fun p => (e x.claim, p)) =
          some (xs.map fun x => (e x.claim, q x)) := by
      intro xs
      induction xs with
      | nil => intro _; rfl
      | cons x xs ih =>
        intro h
        rw [List.mapM_cons, hq1 x (h x List.mem_cons_self), ih fun y hy => h y (List.mem_cons_of_mem _ hy)]
        rfl
    exact this _ fun _ h => h
  rw [G1Pubs.Challenge.solveForgedCommon, run, Option.bind_some, hd, Option.bind_some, hlist, Option.bind_some, ha]

/-- For every hash function and every `T` there is exactly one choice of scalars as in `C88_common_g1pubs`. -/
theorem C88_scalarsOn_g1pubs (sha : List UInt8 → List UInt8) (hs : ∀ m, ∃ H, G1Pubs.HashesTo sha m H) (Q : E2) (Q0 : Q ≠ 0)
    (rQ : r • Q = 0) (T : List UInt8 → Bool) :
    ∃! e : List UInt8 → FR, (∀ m, e m ∈ blindings) ∧
      ∀ m, G1Pubs.HashesTo sha m ((e m).int • if T m then Q else g2Gen) := by
  have key : ∀ t, ∃ f, (f ∈ blindings ∧ G1Pubs.HashesTo sha t (f.int • if T t then Q else g2Gen)) ∧
      ∀ f', f' ∈ blindings ∧ G1Pubs.HashesTo sha t (f'.int • if T t then Q else g2Gen) → f' = f := by
    intro t
    obtain ⟨e, ⟨he, he'⟩, hu⟩ := C88_scalars_g1pubs sha hs (if T t then Q else g2Gen) (by split; exacts [Q0, g2Gen_ne_zero])
      (by split; exacts [rQ, r_smul_g2Gen]) t
    have ht := he' t
    rw [if_pos rfl] at ht
    refine ⟨e t, ⟨he t, ht⟩, fun f' h' => ?_⟩
    have := hu (Function.update e t f') ⟨fun m => ?_, fun m => ?_⟩
    · have := congrFun this t
      rwa [Function.update_self] at this
    · by_cases hm : m = t
      · rw [hm, Function.update_self]; exact h'.1
      · rw [Function.update_of_ne hm]; exact he m
    · by_cases hm : m = t
      · rw [hm, Function.update_self, if_pos rfl]; exact h'.2
      · rw [Function.update_of_ne hm]; exact he' m
  choose e he hu using key
  exact ⟨e, ⟨fun m => (he m).1, fun m => (he m).2⟩, fun e' h => funext fun m => hu m (e' m) ⟨h.1 m, h.2 m⟩⟩

/-- Non-vacuity: under a function that hashes all messages to one point, the attacked key 2 signs the message 9, the other
key is 1 and has a proof of possession of the claim 3; the forger gives the aggregate of both signatures of the message 1. -/
example : ∃ (sha : List UInt8 → List UInt8) (c : G1Pubs.Challenge) (sk : G1Pubs.SecretKey) (Q : E2) (T : List UInt8 → Bool)
    (e : List UInt8 → FR) (F : Forger G2Affine CommonForgery) (l : List (List UInt8)) (o : CommonForgery)
    (pub : G1Pubs.PublicKey),
    sk.Holds 2 ∧ c.key.Denotes (2 • g2Gen) ∧ c.point.Denotes Q ∧ Q ≠ 0 ∧ r • Q = 0 ∧ (∀ m, e m ∈ blindings) ∧
    (∀ m, G1Pubs.HashesTo sha m ((e m).int • if T m then Q else g2Gen)) ∧
    F.run (hashG2 sha) (fun m => (G1Pubs.sign sha m sk).map G1Pubs.Signature.serialize) = some (l, o) ∧
    (∀ m ∈ l, T m = false) ∧ l ≠ [] ∧ T o.msg = true ∧
    (o.sig.length = 96 ∧ ∀ x ∈ o.before ++ o.after, x.key.length = 48 ∧ x.proof.length = 96 ∧ T x.claim = true) ∧
    o.before ≠ [] ∧ G1Pubs.privToPub sk = some pub ∧ G1Pubs.AcceptsCommon sha pub o := by
  obtain ⟨H, hH⟩ := Cases.case2
  have h2 := FR.one_rep.add FR.one_rep
  have hv : (FR.one.add FR.one).int = 2 := by
    rw [h2.int, one_add_one_eq_two]
    exact ZMod.val_natCast_of_lt (a := 2) (by rw [r_eq]; decide +kernel)
  have hk : (G1Pubs.SecretKey.mk (some (FR.one.add FR.one))).Holds 2 := ⟨_, rfl, h2.isValid, hv⟩
  let T : List UInt8 → Bool := fun m => m == [1] || m == [3]
  obtain ⟨e, ⟨he1, he2⟩, -⟩ := C88_scalarsOn_g1pubs Cases.sha2 (fun m => ⟨H, hH m⟩) g2Gen g2Gen_ne_zero r_smul_g2Gen T
  obtain ⟨sig, hs, hr⟩ := hk.sign (hH [9])
  obtain ⟨pub, hp, hp'⟩ := hk.toPub
  obtain ⟨_, _, _, H0, rH⟩ := hH []
  have ndvd : ∀ n, n < 10 → n ≠ 0 → ¬ r ∣ n := fun n h h0 hd =>
    absurd (Nat.le_of_dvd (Nat.pos_of_ne_zero h0) hd) (Nat.not_le.mpr (h.trans (by rw [r_eq]; decide +kernel)))
  have lt : ∀ {n : ℕ}, n < 10 → n < r := fun h => h.trans (by rw [r_eq]; decide +kernel)
  obtain ⟨K, hK⟩ := G2Affine.exists_rep (2 • g2Gen)
  obtain ⟨a, ha⟩ := G2Affine.exists_rep (1 • H)
  obtain ⟨b, hb⟩ := G2Affine.exists_rep (3 • H)
  obtain ⟨x, hx⟩ := G1Affine.exists_rep (1 • g1Gen)
  have ra := G1Pubs.torsion_nsmul rH 1
  have rb := G1Pubs.torsion_nsmul rH 3
  obtain ⟨la, a', da, ha'⟩ := C25_signature_g1pubs ⟨a.toProjective⟩ _ (G2Projective.denotes_iff.mpr ha.toProjective) ra
  obtain ⟨lb, b', db, hb'⟩ := C25_signature_g1pubs ⟨b.toProjective⟩ _ (G2Projective.denotes_iff.mpr hb.toProjective) rb
  obtain ⟨lx, x', dx, hx'⟩ := C25_publicKey_g1pubs ⟨x.toProjective⟩ _ (G1Projective.denotes_iff.mpr hx.toProjective)
    (G1Pubs.torsion_nsmul r_smul_g1Gen 1)
  let o : CommonForgery := ⟨[⟨G1Pubs.PublicKey.serialize ⟨x.toProjective⟩, [3], G1Pubs.Signature.serialize ⟨a.toProjective⟩⟩],
    [], [1], G1Pubs.Signature.serialize ⟨b.toProjective⟩⟩
  have hagg : b'.verifyAggregateCommon Cases.sha2 [x', pub] [1] = some true := by
    refine (C37_common_g1pubs Cases.sha2 [1] H (hH [1]) [x', pub] [1, 2]
      (.cons hx' (.cons (G1Projective.denotes_iff.mpr hp') .nil)) (ndvd 3 (by decide) (by decide)) _ _ hb' rb).1.mpr ?_
    simp only [List.map_cons, List.map_nil, List.sum_cons, List.sum_nil, add_zero]
    rw [← add_nsmul]
  have hpop : G1Pubs.verify Cases.sha2 [3] x' a' = some true :=
    (G1Pubs.verify_spec (hH [3]) (G1Projective.denotes_iff.mp hx') (G1Pubs.nsmul_ne_of_lt g1Gen_ne_zero r_smul_g1Gen (by decide)
      (lt (by decide))) (G2Projective.denotes_iff.mp ha') ra).1.mpr rfl
  refine ⟨Cases.sha2, ⟨K, G2Affine.one⟩, _, g2Gen, T, e, .sign [9] fun _ => .forge o, [[9]], o, pub, hk,
    G2Affine.denotes_iff.mpr hK, G2Affine.denotes_iff.mpr G2Affine.one_rep, g2Gen_ne_zero, r_smul_g2Gen, he1, he2, ?_,
    fun m h => ?_, by decide, rfl, ⟨lb, fun y hy => ?_⟩, List.cons_ne_nil _ _, hp, fun y hy => ?_, [x'], [], b', ?_, rfl, db, hagg⟩
  · rw [Forger.run, hs]; rfl
  · rw [List.mem_singleton.mp h]; decide
  · rcases List.mem_cons.mp hy with rfl | hy
    · exact ⟨lx, la, rfl⟩
    · exact absurd hy List.not_mem_nil
  · rcases List.mem_cons.mp hy with rfl | hy
    · rw [dx, Option.bind_some, da, Option.bind_some, hpop]
    · exact absurd hy List.not_mem_nil
  · change [_].mapM _ = _
    rw [List.mapM_cons, dx]; rfl

/-! ## g1pubs, with domains -/

/-- In a domain: a forger that may have any messages signed by the attacked key that are not claims (`T`), and ends with an aggregate of a
message with `T` that is accepted for the attacked key and other keys, each of which has a proof of possession: the
reduction, which knows only k times the generator, Q and the scalars of the hash function, computes k times Q. -/
theorem C88_commonDomain_g1pubs (sha : List UInt8 → List UInt8) (d : List UInt8) (c : G1Pubs.Challenge) (sk : G1Pubs.SecretKey) (k : ℕ)
    (hk : sk.Holds k) (Q : E2) (hK : c.key.Denotes (k • g2Gen)) (hQ : c.point.Denotes Q) (rQ : r • Q = 0)
    (T : List UInt8 → Bool) (e : List UInt8 → FR) (he : ∀ m, e m ∈ blindings)
    (hh : ∀ m, G1Pubs.HashesToIn sha d m ((e m).int • if T m then Q else g2Gen))
    (F : Forger G2Affine CommonForgery) (l : List (List UInt8)) (o : CommonForgery)
    (hF : F.run (fun m => (hashG2WithDomain sha m d).map G2Projective.toAffine)
      (fun m => (G1Pubs.signWithDomain sha m sk d).map G1Pubs.Signature.serialize) = some (l, o))
    (hl : ∀ m ∈ l, T m = false) (hm : T o.msg = true)
    (hlen : o.sig.length = 96 ∧ ∀ x ∈ o.before ++ o.after, x.key.length = 48 ∧ x.proof.length = 96 ∧ T x.claim = true)
    (pub : G1Pubs.PublicKey) (hp : G1Pubs.privToPub sk = some pub) (hv : G1Pubs.AcceptsCommonIn sha d pub o) :
    ∃ a, c.solveForgedCommon e T F = some a ∧ a.Denotes (k • Q) := by
  obtain ⟨hpr, ps, ps', s, hps, hps', hd, hv⟩ := hv
  obtain ⟨S, hS, rS⟩ := C26_signature_g1pubs _ hlen.1 s hd
  obtain ⟨pub', ep, hpub⟩ := hk.toPub
  obtain rfl : pub' = pub := Option.some.inj (ep.symm.trans hp)
  have run := answersOn_g1pubs (c := c) (e := e) (Q := Q) hK hQ (fun m => by
    obtain ⟨a, ha, hd, _⟩ := hh m
    exact ⟨_, by rw [ha]; rfl, (G2Projective.denotes_iff.mp hd).toAffine⟩) (fun m => by
    obtain ⟨g, hg, hr⟩ := hk.signIn (hh m)
    exact ⟨g, by rw [hg]; rfl, hr⟩) hF hl
  have key : ∀ x ∈ o.before ++ o.after, ∃ (j : ℕ) (q : G1Pubs.Signature),
      (∃ p, G1Pubs.deserializePublicKey x.key = some p ∧ p.p.Denotes (j • g1Gen)) ∧
      G1Pubs.deserializeSignature x.proof = some q ∧ q.s.Rep (j • (e x.claim).int • Q) := by
    intro x hx
    obtain ⟨h1, h2, h3⟩ := hlen.2 x hx
    obtain ⟨p, hp, hv⟩ := Option.bind_eq_some_iff.mp (hpr x hx)
    obtain ⟨q, hq, hv⟩ := Option.bind_eq_some_iff.mp hv
    obtain ⟨j, hj, hP⟩ := C26_publicKey_g1pubs _ h1 p hp
    obtain ⟨T, hT, rT⟩ := C26_signature_g1pubs _ h2 q hq
    have hc := hh x.claim
    rw [if_pos h3] at hc
    obtain ⟨a, ha, hd, _, rH⟩ := id hc
    have P0 : j • g1Gen ≠ 0 := fun e => by
      rw [(C64_verifyWithDomain_g1pubs sha _ _ a _ ha hd rH _ _ hP _ _ hT).mpr (Or.inl e)] at hv
      cases hv
    have := (G1Pubs.verifyWithDomain_spec hc (G1Projective.denotes_iff.mp hP) P0 (G2Projective.denotes_iff.mp hT) rT).1.mp hv
    exact ⟨j, q, ⟨p, hp, hP⟩, hq, this ▸ G2Projective.denotes_iff.mp hT⟩
  have : Inhabited G1Pubs.Signature := ⟨s⟩
  choose! j q hj1 hq1 hj2 using key
  have keys : ∀ (xs : List Possession) (ps : List G1Pubs.PublicKey), (∀ x ∈ xs, x ∈ o.before ++ o.after) →
      xs.mapM (fun x => G1Pubs.deserializePublicKey x.key) = some ps →
      List.Forall₂ (fun (p : G1Pubs.PublicKey) i => p.p.Denotes (i • g1Gen)) ps (xs.map j) := by
    intro xs ps hx h
    obtain ⟨z, rfl, rfl, hz⟩ := forall₂_exists (forall₂_of_mapM h)
    rw [List.map_map]
    refine List.forall₂_map_left_iff.mpr (List.forall₂_map_right_iff.mpr (List.forall₂_same.mpr fun y hy => ?_))
    obtain ⟨p, hp, hP⟩ := hj1 _ (hx _ (List.mem_map_of_mem hy))
    obtain rfl : p = y.2 := Option.some.inj (hp.symm.trans (hz y hy))
    exact hP
  have hks : List.Forall₂ (fun (p : G1Pubs.PublicKey) i => p.p.Denotes (i • g1Gen)) (ps ++ pub' :: ps')
      (o.before.map j ++ k :: o.after.map j) :=
    List.rel_append (keys _ _ (fun x h => List.mem_append_left _ h) hps)
      (.cons (G1Projective.denotes_iff.mpr hpub) (keys _ _ (fun x h => List.mem_append_right _ h) hps'))
  have hmsg := hh o.msg
  rw [if_pos hm] at hmsg
  have hsum := G1Pubs.aggregatePublicKeys_spec (forall₂_map (fun _ _ h => G1Projective.denotes_iff.mp h) hks)
  rw [← sum_nsmul_eq] at hsum
  have hsumeq : (o.before.map j ++ k :: o.after.map j).sum = k + ((o.before ++ o.after).map j).sum := by
    rw [List.map_append, List.sum_append, List.sum_append, List.sum_cons]
    omega
  rw [hsumeq] at hsum
  rw [G1Pubs.Signature.verifyAggregateCommonWithDomain] at hv
  have P0 : (k + ((o.before ++ o.after).map j).sum) • g1Gen ≠ 0 := fun h => by
    obtain ⟨a, ha, hd, _, rH⟩ := id hmsg
    rw [(C64_verifyWithDomain_g1pubs sha _ _ a _ ha hd rH _ _ (G1Projective.denotes_iff.mpr hsum) _ _ hS).mpr (Or.inl h)] at hv
    cases hv
  have hSum := (G1Pubs.verifyWithDomain_spec hmsg hsum P0 (G2Projective.denotes_iff.mp hS) rS).1.mp hv
  have hr := G2Projective.denotes_iff.mp hS
  rw [hSum] at hr
  obtain ⟨a, ha, ha'⟩ := common_g1pubs rQ (he o.msg) (os := o.before ++ o.after) (pf := fun x => (e x.claim, q x)) (f := j)
    (fun x hx => ⟨he _, hj2 x hx⟩) hr
  refine ⟨a, ?_, ha'⟩
  have hlist : (o.before ++ o.after).mapM (fun x => (G1Pubs.deserializeSignature x.proof).map fun p => (e x.claim, p)) =
      some ((o.before ++ o.after).map fun x => (e x.claim, q x)) := by
    have : ∀ xs : List Possession, (∀ x ∈ xs, x ∈ o.before ++ o.after) →
        xs.mapM (fun x => (G1Pubs.deserializeSignature x.proof).map fun p => (e x.claim, p)) =
          some (xs.map fun x => (e x.claim, q x)) := by
      intro xs
      induction xs with
      | nil => intro _; rfl
      | cons x xs ih =>
        intro h
        rw [List.mapM_cons, hq1 x (h x List.mem_cons_self), ih fun y hy => h y (List.mem_cons_of_mem _ hy)]
        rfl
    exact this _ fun _ h => h
  rw [G1Pubs.Challenge.solveForgedCommon, run, Option.bind_some, hd, Option.bind_some, hlist, Option.bind_some, ha]

/-- For every hash function and every `T` there is exactly one choice of scalars as in `C88_commonDomain_g1pubs`. -/
theorem C88_scalarsOnDomain_g1pubs (sha : List UInt8 → List UInt8) (d : List UInt8) (hs : ∀ m, ∃ H, G1Pubs.HashesToIn sha d m H) (Q : E2) (Q0 : Q ≠ 0)
    (rQ : r • Q = 0) (T : List UInt8 → Bool) :
    ∃! e : List UInt8 → FR, (∀ m, e m ∈ blindings) ∧
      ∀ m, G1Pubs.HashesToIn sha d m ((e m).int • if T m then Q else g2Gen) := by
  have key : ∀ t, ∃ f, (f ∈ blindings ∧ G1Pubs.HashesToIn sha d t (f.int • if T t then Q else g2Gen)) ∧
      ∀ f', f' ∈ blindings ∧ G1Pubs.HashesToIn sha d t (f'.int • if T t then Q else g2Gen) → f' = f := by
    intro t
    obtain ⟨e, ⟨he, he'⟩, hu⟩ := C88_scalarsDomain_g1pubs sha d hs (if T t then Q else g2Gen) (by split; exacts [Q0, g2Gen_ne_zero])
      (by split; exacts [rQ, r_smul_g2Gen]) t
    have ht := he' t
    rw [if_pos rfl] at ht
    refine ⟨e t, ⟨he t, ht⟩, fun f' h' => ?_⟩
    have := hu (Function.update e t f') ⟨fun m => ?_, fun m => ?_⟩
    · have := congrFun this t
      rwa [Function.update_self] at this
    · by_cases hm : m = t
      · rw [hm, Function.update_self]; exact h'.1
      · rw [Function.update_of_ne hm]; exact he m
    · by_cases hm : m = t
      · rw [hm, Function.update_self, if_pos rfl]; exact h'.2
      · rw [Function.update_of_ne hm]; exact he' m
  choose e he hu using key
  exact ⟨e, ⟨fun m => (he m).1, fun m => (he m).2⟩, fun e' h => funext fun m => hu m (e' m) ⟨h.1 m, h.2 m⟩⟩

/-- Non-vacuity: the attacked key 2 signs the message 9, the other
key is 1 and has a proof of possession of the claim 3; the forger gives the aggregate of both signatures of the message 1. -/
example : ∃ (sha : List UInt8 → List UInt8) (c : G1Pubs.Challenge) (sk : G1Pubs.SecretKey) (Q : E2) (T : List UInt8 → Bool)
    (e : List UInt8 → FR) (F : Forger G2Affine CommonForgery) (l : List (List UInt8)) (o : CommonForgery)
    (pub : G1Pubs.PublicKey),
    sk.Holds 2 ∧ c.key.Denotes (2 • g2Gen) ∧ c.point.Denotes Q ∧ Q ≠ 0 ∧ r • Q = 0 ∧ (∀ m, e m ∈ blindings) ∧
    (∀ m, G1Pubs.HashesToIn sha [5] m ((e m).int • if T m then Q else g2Gen)) ∧
    F.run (fun m => (hashG2WithDomain sha m [5]).map G2Projective.toAffine)
      (fun m => (G1Pubs.signWithDomain sha m sk [5]).map G1Pubs.Signature.serialize) = some (l, o) ∧
    (∀ m ∈ l, T m = false) ∧ l ≠ [] ∧ T o.msg = true ∧
    (o.sig.length = 96 ∧ ∀ x ∈ o.before ++ o.after, x.key.length = 48 ∧ x.proof.length = 96 ∧ T x.claim = true) ∧
    o.before ≠ [] ∧ G1Pubs.privToPub sk = some pub ∧ G1Pubs.AcceptsCommonIn sha [5] pub o := by
  obtain ⟨H, hH⟩ := Cases.case3 [1] [5]
  obtain ⟨H₃, hH₃⟩ := Cases.case3 [3] [5]
  obtain ⟨H₉, hH₉⟩ := Cases.case3 [9] [5]
  have h2 := FR.one_rep.add FR.one_rep
  have hv : (FR.one.add FR.one).int = 2 := by
    rw [h2.int, one_add_one_eq_two]
    exact ZMod.val_natCast_of_lt (a := 2) (by rw [r_eq]; decide +kernel)
  have hk : (G1Pubs.SecretKey.mk (some (FR.one.add FR.one))).Holds 2 := ⟨_, rfl, h2.isValid, hv⟩
  let T : List UInt8 → Bool := fun m => m == [1] || m == [3]
  obtain ⟨e, ⟨he1, he2⟩, -⟩ := C88_scalarsOnDomain_g1pubs Cases.sha3 [5] (fun m => Cases.case3 m [5]) g2Gen g2Gen_ne_zero r_smul_g2Gen T
  obtain ⟨sig, hs, hr⟩ := hk.signIn hH₉
  obtain ⟨pub, hp, hp'⟩ := hk.toPub
  obtain ⟨_, _, _, H0, rH⟩ := id hH
  obtain ⟨_, _, _, _, rH'⟩ := id hH₃
  have lt : ∀ {n : ℕ}, n < 10 → n < r := fun h => h.trans (by rw [r_eq]; decide +kernel)
  obtain ⟨K, hK⟩ := G2Affine.exists_rep (2 • g2Gen)
  obtain ⟨a, ha⟩ := G2Affine.exists_rep (1 • H₃)
  obtain ⟨b, hb⟩ := G2Affine.exists_rep (3 • H)
  obtain ⟨x, hx⟩ := G1Affine.exists_rep (1 • g1Gen)
  have ra := G1Pubs.torsion_nsmul rH' 1
  have rb := G1Pubs.torsion_nsmul rH 3
  obtain ⟨la, a', da, ha'⟩ := C25_signature_g1pubs ⟨a.toProjective⟩ _ (G2Projective.denotes_iff.mpr ha.toProjective) ra
  obtain ⟨lb, b', db, hb'⟩ := C25_signature_g1pubs ⟨b.toProjective⟩ _ (G2Projective.denotes_iff.mpr hb.toProjective) rb
  obtain ⟨lx, x', dx, hx'⟩ := C25_publicKey_g1pubs ⟨x.toProjective⟩ _ (G1Projective.denotes_iff.mpr hx.toProjective)
    (G1Pubs.torsion_nsmul r_smul_g1Gen 1)
  let o : CommonForgery := ⟨[⟨G1Pubs.PublicKey.serialize ⟨x.toProjective⟩, [3], G1Pubs.Signature.serialize ⟨a.toProjective⟩⟩],
    [], [1], G1Pubs.Signature.serialize ⟨b.toProjective⟩⟩
  have hagg : b'.verifyAggregateCommonWithDomain Cases.sha3 [x', pub] [1] [5] = some true := by
    have hsum : (G1Pubs.aggregatePublicKeys [x', pub]).p.Rep (3 • g1Gen) := by
      have := G1Pubs.aggregatePublicKeys_spec (.cons (G1Projective.denotes_iff.mp hx') (.cons hp' .nil))
      rw [List.sum_cons, List.sum_cons, List.sum_nil, add_zero, ← add_nsmul] at this
      exact this
    exact (G1Pubs.verifyWithDomain_spec hH hsum (G1Pubs.nsmul_ne_of_lt g1Gen_ne_zero r_smul_g1Gen (by decide)
      (lt (by decide))) (G2Projective.denotes_iff.mp hb') rb).1.mpr rfl
  have hpop : G1Pubs.verifyWithDomain Cases.sha3 [3] x' a' [5] = some true :=
    (G1Pubs.verifyWithDomain_spec hH₃ (G1Projective.denotes_iff.mp hx') (G1Pubs.nsmul_ne_of_lt g1Gen_ne_zero r_smul_g1Gen (by decide)
      (lt (by decide))) (G2Projective.denotes_iff.mp ha') ra).1.mpr rfl
  refine ⟨Cases.sha3, ⟨K, G2Affine.one⟩, _, g2Gen, T, e, .sign [9] fun _ => .forge o, [[9]], o, pub, hk,
    G2Affine.denotes_iff.mpr hK, G2Affine.denotes_iff.mpr G2Affine.one_rep, g2Gen_ne_zero, r_smul_g2Gen, he1, he2, ?_,
    fun m h => ?_, by decide, rfl, ⟨lb, fun y hy => ?_⟩, List.cons_ne_nil _ _, hp, fun y hy => ?_, [x'], [], b', ?_, rfl, db, hagg⟩
  · rw [Forger.run, hs]; rfl
  · rw [List.mem_singleton.mp h]; decide
  · rcases List.mem_cons.mp hy with rfl | hy
    · exact ⟨lx, la, rfl⟩
    · exact absurd hy List.not_mem_nil
  · rcases List.mem_cons.mp hy with rfl | hy
    · rw [dx, Option.bind_some, da, Option.bind_some, hpop]
    · exact absurd hy List.not_mem_nil
  · change [_].mapM _ = _
    rw [List.mapM_cons, dx]; rfl

/-! ## g2pubs -/

theorem answersOn_g2pubs {ω : Type} {c : G2Pubs.Challenge} {k : ℕ} {Q : E1} (hK : c.key.Denotes (k • g1Gen))
    (hQ : c.point.Denotes Q) {e : List UInt8 → FR} {T : List UInt8 → Bool}
    {hash : List UInt8 → Option G1Affine} {sign : List UInt8 → Option (List UInt8)}
    (hh : ∀ m, ∃ a, hash m = some a ∧ a.Rep ((e m).int • if T m then Q else g1Gen))
    (hs : ∀ m, ∃ g : G2Pubs.Signature, sign m = some g.serialize ∧ g.s.Rep (k • (e m).int • if T m then Q else g1Gen))
    {F : Forger G1Affine ω} {l : List (List UInt8)} {o : ω} (hF : F.run hash sign = some (l, o)) (hl : ∀ m ∈ l, T m = false) :
    F.run (c.hashOn e T) (c.signOn e T) = some (l, o) := by
  have hK := G1Affine.denotes_iff.mp hK
  have hQ := G1Affine.denotes_iff.mp hQ
  exact run_congr (h' := c.hashOn e T) (s' := c.signOn e T) (T := fun m => T m = true) (fun m => by
    obtain ⟨a, ha, hr⟩ := hh m
    rw [ha, G2Pubs.Challenge.hashOn]
    refine congrArg some (G1Affine.Rep.inj (P := (e m).int • if T m then Q else g1Gen) ?_ hr)
    split
    · exact (hQ.mulFR _).toAffine
    · exact (G1Affine.one_rep.mulFR _).toAffine) (fun m hm => by
    obtain ⟨g, hg, hr⟩ := hs m
    rw [if_neg hm] at hr
    rw [hg, G2Pubs.Challenge.signOn, if_neg hm, G2Pubs.Signature.serialize, G2Pubs.Signature.serialize]
    have hr' := (hK.mulFR (e m).toRepr).toAffine.toProjective.toAffine
    have e1 : (e m).toRepr.toNat • k • g1Gen = k • (e m).int • g1Gen := smul_comm _ _ _
    rw [e1] at hr'
    rw [← hr'.inj hr.toAffine]
    rfl) F hF fun m hm h => by rw [hl m hm] at h; cases h

/-- A forger that may have any messages signed by the attacked key that are not claims (`T`), and ends with an aggregate of a
message with `T` that is accepted for the attacked key and other keys, each of which has a proof of possession: the
reduction, which knows only k times the generator, Q and the scalars of the hash function, computes k times Q. -/
theorem C88_common_g2pubs (sha : List UInt8 → List UInt8) (c : G2Pubs.Challenge) (sk : G2Pubs.SecretKey) (k : ℕ)
    (hk : sk.Holds k) (Q : E1) (hK : c.key.Denotes (k • g1Gen)) (hQ : c.point.Denotes Q) (rQ : r • Q = 0)
    (T : List UInt8 → Bool) (e : List UInt8 → FR) (he : ∀ m, e m ∈ blindings)
    (hh : ∀ m, G2Pubs.HashesTo sha m ((e m).int • if T m then Q else g1Gen))
    (F : Forger G1Affine CommonForgery) (l : List (List UInt8)) (o : CommonForgery)
    (hF : F.run (hashG1 sha) (fun m => (G2Pubs.sign sha m sk).map G2Pubs.Signature.serialize) = some (l, o))
    (hl : ∀ m ∈ l, T m = false) (hm : T o.msg = true)
    (hlen : o.sig.length = 48 ∧ ∀ x ∈ o.before ++ o.after, x.key.length = 96 ∧ x.proof.length = 48 ∧ T x.claim = true)
    (pub : G2Pubs.PublicKey) (hp : G2Pubs.privToPub sk = some pub) (hv : G2Pubs.AcceptsCommon sha pub o) :
    ∃ a, c.solveForgedCommon e T F = some a ∧ a.Denotes (k • Q) := by
  obtain ⟨hpr, ps, ps', s, hps, hps', hd, hv⟩ := hv
  obtain ⟨S, hS, rS⟩ := C26_signature_g2pubs _ hlen.1 s hd
  obtain ⟨pub', ep, hpub⟩ := hk.toPub
  obtain rfl : pub' = pub := Option.some.inj (ep.symm.trans hp)
  have run := answersOn_g2pubs (c := c) (e := e) (Q := Q) hK hQ (fun m => by
    obtain ⟨a, ha, hd, _⟩ := hh m
    exact ⟨a, ha, G1Affine.denotes_iff.mp hd⟩) (fun m => by
    obtain ⟨g, hg, hr⟩ := hk.sign (hh m)
    exact ⟨g, by rw [hg]; rfl, hr⟩) hF hl
  have key : ∀ x ∈ o.before ++ o.after, ∃ (j : ℕ) (q : G2Pubs.Signature),
      (∃ p, G2Pubs.deserializePublicKey x.key = some p ∧ p.p.Denotes (j • g2Gen)) ∧
      G2Pubs.deserializeSignature x.proof = some q ∧ q.s.Rep (j • (e x.claim).int • Q) := by
    intro x hx
    obtain ⟨h1, h2, h3⟩ := hlen.2 x hx
    obtain ⟨p, hp, hv⟩ := Option.bind_eq_some_iff.mp (hpr x hx)
    obtain ⟨q, hq, hv⟩ := Option.bind_eq_some_iff.mp hv
    obtain ⟨j, hj, hP⟩ := C26_publicKey_g2pubs _ h1 p hp
    obtain ⟨T, hT, rT⟩ := C26_signature_g2pubs _ h2 q hq
    have hc := hh x.claim
    rw [if_pos h3] at hc
    obtain ⟨a, ha, hd, _, rH⟩ := id hc
    have P0 : j • g2Gen ≠ 0 := fun e => by
      rw [(C64_verify_g2pubs sha _ a _ ha hd _ _ hP _ _ hT).mpr (Or.inr (Or.inr (by rw [e, nsmul_zero])))] at hv
      cases hv
    have := (G2Pubs.verify_spec hc (G2Projective.denotes_iff.mp hP) P0 (G1Projective.denotes_iff.mp hT) rT).1.mp hv
    exact ⟨j, q, ⟨p, hp, hP⟩, hq, this ▸ G1Projective.denotes_iff.mp hT⟩
  have : Inhabited G2Pubs.Signature := ⟨s⟩
  choose! j q hj1 hq1 hj2 using key
  have keys : ∀ (xs : List Possession) (ps : List G2Pubs.PublicKey), (∀ x ∈ xs, x ∈ o.before ++ o.after) →
      xs.mapM (fun x => G2Pubs.deserializePublicKey x.key) = some ps →
      List.Forall₂ (fun (p : G2Pubs.PublicKey) i => p.p.Denotes (i • g2Gen)) ps (xs.map j) := by
    intro xs ps hx h
    obtain ⟨z, rfl, rfl, hz⟩ := forall₂_exists (forall₂_of_mapM h)
    rw [List.map_map]
    refine List.forall₂_map_left_iff.mpr (List.forall₂_map_right_iff.mpr (List.forall₂_same.mpr fun y hy => ?_))
    obtain ⟨p, hp, hP⟩ := hj1 _ (hx _ (List.mem_map_of_mem hy))
    obtain rfl : p = y.2 := Option.some.inj (hp.symm.trans (hz y hy))
    exact hP
  have hks : List.Forall₂ (fun (p : G2Pubs.PublicKey) i => p.p.Denotes (i • g2Gen)) (ps ++ pub' :: ps')
      (o.before.map j ++ k :: o.after.map j) :=
    List.rel_append (keys _ _ (fun x h => List.mem_append_left _ h) hps)
      (.cons (G2Projective.denotes_iff.mpr hpub) (keys _ _ (fun x h => List.mem_append_right _ h) hps'))
  have hmsg := hh o.msg
  rw [if_pos hm] at hmsg
  have hsum := G2Pubs.aggregatePublicKeys_spec (forall₂_map (fun _ _ h => G2Projective.denotes_iff.mp h) hks)
  rw [← sum_nsmul_eq] at hsum
  have hsumeq : (o.before.map j ++ k :: o.after.map j).sum = k + ((o.before ++ o.after).map j).sum := by
    rw [List.map_append, List.sum_append, List.sum_append, List.sum_cons]
    omega
  rw [hsumeq] at hsum
  rw [G2Pubs.Signature.verifyAggregateCommon] at hv
  have P0 : (k + ((o.before ++ o.after).map j).sum) • g2Gen ≠ 0 := fun h => by
    obtain ⟨a, ha, hd, _, rH⟩ := id hmsg
    rw [(C64_verify_g2pubs sha _ a _ ha hd _ _ (G2Projective.denotes_iff.mpr hsum) _ _ hS).mpr (Or.inr (Or.inr (by rw [h, nsmul_zero])))] at hv
    cases hv
  have hSum := (G2Pubs.verify_spec hmsg hsum P0 (G1Projective.denotes_iff.mp hS) rS).1.mp hv
  have hr := G1Projective.denotes_iff.mp hS
  rw [hSum] at hr
  obtain ⟨a, ha, ha'⟩ := common_g2pubs rQ (he o.msg) (os := o.before ++ o.after) (pf := fun x => (e x.claim, q x)) (f := j)
    (fun x hx => ⟨he _, hj2 x hx⟩) hr
  refine ⟨a, ?_, ha'⟩
  have hlist : (o.before ++ o.after).mapM (fun x => (G2Pubs.deserializeSignature x.proof).map fun p => (e x.claim, p)) =
      some ((o.before ++ o.after).map fun x => (e x.claim, q x)) := by
    have : ∀ xs : List Possession, (∀ x ∈ xs, x ∈ o.before ++ o.after) →
        xs.mapM (fun x => (G2Pubs.deserializeSignature x.proof).map fun p => (e x.claim, p)) =
          some (xs.map fun x => (e x.claim, q x)) := by
      intro xs
      induction xs with
      | nil => intro _; rfl
      | cons x xs ih =>
        intro h
        rw [List.mapM_cons, hq1 x (h x List.mem_cons_self), ih fun y hy => h y (List.mem_cons_of_mem _ hy)]
        rfl
    exact this _ fun _ h => h
  rw [G2Pubs.Challenge.solveForgedCommon, run, Option.bind_some, hd, Option.bind_some, hlist, Option.bind_some, ha]

/-- For every hash function and every `T` there is exactly one choice of scalars as in `C88_common_g2pubs`. -/
theorem C88_scalarsOn_g2pubs (sha : List UInt8 → List UInt8) (hs : ∀ m, ∃ H, G2Pubs.HashesTo sha m H) (Q : E1) (Q0 : Q ≠ 0)
    (rQ : r • Q = 0) (T : List UInt8 → Bool) :
    ∃! e : List UInt8 → FR, (∀ m, e m ∈ blindings) ∧
      ∀ m, G2Pubs.HashesTo sha m ((e m).int • if T m then Q else g1Gen) := by
  have key : ∀ t, ∃ f, (f ∈ blindings ∧ G2Pubs.HashesTo sha t (f.int • if T t then Q else g1Gen)) ∧
      ∀ f', f' ∈ blindings ∧ G2Pubs.HashesTo sha t (f'.int • if T t then Q else g1Gen) → f' = f := by
    intro t
    obtain ⟨e, ⟨he, he'⟩, hu⟩ := C88_scalars_g2pubs sha hs (if T t then Q else g1Gen) (by split; exacts [Q0, g1Gen_ne_zero])
      (by split; exacts [rQ, r_smul_g1Gen]) t
    have ht := he' t
    rw [if_pos rfl] at ht
    refine ⟨e t, ⟨he t, ht⟩, fun f' h' => ?_⟩
    have := hu (Function.update e t f') ⟨fun m => ?_, fun m => ?_⟩
    · have := congrFun this t
      rwa [Function.update_self] at this
    · by_cases hm : m = t
      · rw [hm, Function.update_self]; exact h'.1
      · rw [Function.update_of_ne hm]; exact he m
    · by_cases hm : m = t
      · rw [hm, Function.update_self, if_pos rfl]; exact h'.2
      · rw [Function.update_of_ne hm]; exact he' m
  choose e he hu using key
  exact ⟨e, ⟨fun m => (he m).1, fun m => (he m).2⟩, fun e' h => funext fun m => hu m (e' m) ⟨h.1 m, h.2 m⟩⟩

/-- Non-vacuity: under a function that hashes all messages to one point, the attacked key 2 signs the message 9, the other
key is 1 and has a proof of possession of the claim 3; the forger gives the aggregate of both signatures of the message 1. -/
example : ∃ (sha : List UInt8 → List UInt8) (c : G2Pubs.Challenge) (sk : G2Pubs.SecretKey) (Q : E1) (T : List UInt8 → Bool)
    (e : List UInt8 → FR) (F : Forger G1Affine CommonForgery) (l : List (List UInt8)) (o : CommonForgery)
    (pub : G2Pubs.PublicKey),
    sk.Holds 2 ∧ c.key.Denotes (2 • g1Gen) ∧ c.point.Denotes Q ∧ Q ≠ 0 ∧ r • Q = 0 ∧ (∀ m, e m ∈ blindings) ∧
    (∀ m, G2Pubs.HashesTo sha m ((e m).int • if T m then Q else g1Gen)) ∧
    F.run (hashG1 sha) (fun m => (G2Pubs.sign sha m sk).map G2Pubs.Signature.serialize) = some (l, o) ∧
    (∀ m ∈ l, T m = false) ∧ l ≠ [] ∧ T o.msg = true ∧
    (o.sig.length = 48 ∧ ∀ x ∈ o.before ++ o.after, x.key.length = 96 ∧ x.proof.length = 48 ∧ T x.claim = true) ∧
    o.before ≠ [] ∧ G2Pubs.privToPub sk = some pub ∧ G2Pubs.AcceptsCommon sha pub o := by
  obtain ⟨H, hH⟩ := Cases.case1
  have h2 := FR.one_rep.add FR.one_rep
  have hv : (FR.one.add FR.one).int = 2 := by
    rw [h2.int, one_add_one_eq_two]
    exact ZMod.val_natCast_of_lt (a := 2) (by rw [r_eq]; decide +kernel)
  have hk : (G2Pubs.SecretKey.mk (some (FR.one.add FR.one))).Holds 2 := ⟨_, rfl, h2.isValid, hv⟩
  let T : List UInt8 → Bool := fun m => m == [1] || m == [3]
  obtain ⟨e, ⟨he1, he2⟩, -⟩ := C88_scalarsOn_g2pubs Cases.sha1 (fun m => ⟨H, hH m⟩) g1Gen g1Gen_ne_zero r_smul_g1Gen T
  obtain ⟨sig, hs, hr⟩ := hk.sign (hH [9])
  obtain ⟨pub, hp, hp'⟩ := hk.toPub
  obtain ⟨_, _, _, H0, rH⟩ := hH []
  have ndvd : ∀ n, n < 10 → n ≠ 0 → ¬ r ∣ n := fun n h h0 hd =>
    absurd (Nat.le_of_dvd (Nat.pos_of_ne_zero h0) hd) (Nat.not_le.mpr (h.trans (by rw [r_eq]; decide +kernel)))
  have lt : ∀ {n : ℕ}, n < 10 → n < r := fun h => h.trans (by rw [r_eq]; decide +kernel)
  obtain ⟨K, hK⟩ := G1Affine.exists_rep (2 • g1Gen)
  obtain ⟨a, ha⟩ := G1Affine.exists_rep (1 • H)
  obtain ⟨b, hb⟩ := G1Affine.exists_rep (3 • H)
  obtain ⟨x, hx⟩ := G2Affine.exists_rep (1 • g2Gen)
  have ra := G1Pubs.torsion_nsmul rH 1
  have rb := G1Pubs.torsion_nsmul rH 3
  obtain ⟨la, a', da, ha'⟩ := C25_signature_g2pubs ⟨a.toProjective⟩ _ (G1Projective.denotes_iff.mpr ha.toProjective) ra
  obtain ⟨lb, b', db, hb'⟩ := C25_signature_g2pubs ⟨b.toProjective⟩ _ (G1Projective.denotes_iff.mpr hb.toProjective) rb
  obtain ⟨lx, x', dx, hx'⟩ := C25_publicKey_g2pubs ⟨x.toProjective⟩ _ (G2Projective.denotes_iff.mpr hx.toProjective)
    (G1Pubs.torsion_nsmul r_smul_g2Gen 1)
  let o : CommonForgery := ⟨[⟨G2Pubs.PublicKey.serialize ⟨x.toProjective⟩, [3], G2Pubs.Signature.serialize ⟨a.toProjective⟩⟩],
    [], [1], G2Pubs.Signature.serialize ⟨b.toProjective⟩⟩
  have hagg : b'.verifyAggregateCommon Cases.sha1 [x', pub] [1] = some true := by
    refine (C37_common_g2pubs Cases.sha1 [1] H (hH [1]) [x', pub] [1, 2]
      (.cons hx' (.cons (G2Projective.denotes_iff.mpr hp') .nil)) (ndvd 3 (by decide) (by decide)) _ _ hb' rb).1.mpr ?_
    simp only [List.map_cons, List.map_nil, List.sum_cons, List.sum_nil, add_zero]
    rw [← add_nsmul]
  have hpop : G2Pubs.verify Cases.sha1 [3] x' a' = some true :=
    (G2Pubs.verify_spec (hH [3]) (G2Projective.denotes_iff.mp hx') (G1Pubs.nsmul_ne_of_lt g2Gen_ne_zero r_smul_g2Gen (by decide)
      (lt (by decide))) (G1Projective.denotes_iff.mp ha') ra).1.mpr rfl
  refine ⟨Cases.sha1, ⟨K, G1Affine.one⟩, _, g1Gen, T, e, .sign [9] fun _ => .forge o, [[9]], o, pub, hk,
    G1Affine.denotes_iff.mpr hK, G1Affine.denotes_iff.mpr G1Affine.one_rep, g1Gen_ne_zero, r_smul_g1Gen, he1, he2, ?_,
    fun m h => ?_, by decide, rfl, ⟨lb, fun y hy => ?_⟩, List.cons_ne_nil _ _, hp, fun y hy => ?_, [x'], [], b', ?_, rfl, db, hagg⟩
  · rw [Forger.run, hs]; rfl
  · rw [List.mem_singleton.mp h]; decide
  · rcases List.mem_cons.mp hy with rfl | hy
    · exact ⟨lx, la, rfl⟩
    · exact absurd hy List.not_mem_nil
  · rcases List.mem_cons.mp hy with rfl | hy
    · rw [dx, Option.bind_some, da, Option.bind_some, hpop]
    · exact absurd hy List.not_mem_nil
  · change [_].mapM _ = _
    rw [List.mapM_cons, dx]; rfl

end Bls.Props
