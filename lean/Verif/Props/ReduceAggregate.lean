import Verif.Spec.ReduceAggregate
import Verif.Props.Reduce
/-
C88, distinct-message aggregates: whoever makes an accepted aggregate that contains a message the attacked key has not signed,
and has proofs of possession for the other keys, solves the Diffie-Hellman problem.
-/
set_option exponentiation.threshold 1000
namespace Bls.Props

theorem forall₂_of_mapM {α β : Type} {f : α → Option β} : ∀ {l : List α} {l' : List β}, l.mapM f = some l' →
    List.Forall₂ (fun a b => f a = some b) l l'
  | [], l', h => by
    rw [List.mapM_nil] at h
    cases h
    exact .nil
  | a :: l, l', h => by
    rw [List.mapM_cons] at h
    obtain ⟨b, hb, h⟩ := Option.bind_eq_some_iff.mp h
    obtain ⟨m, hm, h⟩ := Option.bind_eq_some_iff.mp h
    cases h
    exact .cons hb (forall₂_of_mapM hm)

theorem forall₂_exists {α β : Type} {R : α → β → Prop} : ∀ {l : List α} {l' : List β}, List.Forall₂ R l l' →
    ∃ z : List (α × β), l = z.map Prod.fst ∧ l' = z.map Prod.snd ∧ ∀ x ∈ z, R x.1 x.2
  | _, _, .nil => ⟨[], rfl, rfl, fun _ h => absurd h List.not_mem_nil⟩
  | _, _, .cons (a := a) (b := b) h t => by
    obtain ⟨z, rfl, rfl, hz⟩ := forall₂_exists t
    exact ⟨(a, b) :: z, rfl, rfl, List.forall_mem_cons.mpr ⟨h, hz⟩⟩

/-! ## g1pubs -/

theorem solveAggregate_g1pubs {c : G1Pubs.Challenge} {k : ℕ} {Q : E2} (rQ : r • Q = 0) {e : List UInt8 → FR}
    (he : ∀ m, e m ∈ blindings) {t : List UInt8} {F : Forger G2Affine AggForgery} {l : List (List UInt8)} {o : AggForgery}
    (run : F.run (c.hash e t) (c.sign e t) = some (l, o)) {s : G1Pubs.Signature} {f : Claim → ℕ}
    (hd : G1Pubs.deserializeSignature o.sig = some s)
    (hp : ∀ x ∈ o.before ++ o.after, ∃ p, G1Pubs.deserializeSignature x.proof = some p ∧
      p.s.Rep (f x • (e x.claim).int • g2Gen))
    (hs : s.s.Rep (k • (e t).int • Q + ((o.before ++ o.after).map fun x => f x • (e x.msg).int • g2Gen).sum)) :
    ∃ a, c.solveAggregate e t F = some a ∧ a.Denotes (k • Q) := by
  obtain ⟨ps, hl, hr⟩ := mapM_some (f := G1Pubs.part e) (R := fun (s : G1Pubs.Signature) (S : E2) => s.s.Rep S)
    (g := fun x => f x • (e x.msg).int • g2Gen) (l := o.before ++ o.after) fun x hx => by
      obtain ⟨p, hp, hr⟩ := hp x hx
      obtain ⟨y, hy, y0⟩ := blindings_rep (he x.claim)
      obtain ⟨u, hu, hu'⟩ := unblind_rep_g1pubs hy y0 hr.toAffine
      rw [hy.int, smul_comm (f x), inv_nsmul (G1Pubs.torsion_nsmul r_smul_g2Gen _) y0] at hu'
      refine ⟨_, by rw [G1Pubs.part, hp, Option.bind_some, hu, Option.map_some], ?_⟩
      have := (hu'.toAffine.mulFR (e x.msg).toRepr).toAffine.toProjective
      have e1 : (e x.msg).toRepr.toNat • f x • g2Gen = f x • (e x.msg).int • g2Gen := smul_comm _ _ _
      rw [e1] at this
      exact this
  have hsum := hs.add (G1Pubs.aggregateSignatures_spec hr).toAffine.neg.toProjective
  rw [add_neg_cancel_right] at hsum
  obtain ⟨x, hx, x0⟩ := blindings_rep (he t)
  obtain ⟨u, hu, hu'⟩ := unblind_rep_g1pubs hx x0 hsum.toAffine
  rw [hx.int, smul_comm k, inv_nsmul (G1Pubs.torsion_nsmul rQ k) x0] at hu'
  refine ⟨u.s.toAffine, ?_, G2Affine.denotes_iff.mpr hu'.toAffine⟩
  rw [G1Pubs.Challenge.solveAggregate, run, Option.bind_some, hd, Option.bind_some, hl, Option.bind_some, hu, Option.map_some]

/-- A forger that may have any messages signed by the attacked key, and ends with an accepted aggregate, in which the attacked
key has a message `t` that it has not signed, and every other key has a proof of possession, with a claim that is not `t`:
the reduction, which knows only k times the generator, Q and the scalars of the hash function, computes k times Q. -/
theorem C88_aggregate_g1pubs (sha : List UInt8 → List UInt8) (c : G1Pubs.Challenge) (sk : G1Pubs.SecretKey) (k : ℕ)
    (hk : sk.Holds k) (Q : E2) (hK : c.key.Denotes (k • g2Gen)) (hQ : c.point.Denotes Q) (rQ : r • Q = 0)
    (t : List UInt8) (e : List UInt8 → FR) (he : ∀ m, e m ∈ blindings)
    (hh : ∀ m, G1Pubs.HashesTo sha m ((e m).int • if m = t then Q else g2Gen))
    (F : Forger G2Affine AggForgery) (l : List (List UInt8)) (o : AggForgery)
    (hF : F.run (hashG2 sha) (fun m => (G1Pubs.sign sha m sk).map G1Pubs.Signature.serialize) = some (l, o)) (hl : t ∉ l)
    (hlen : o.sig.length = 96 ∧ ∀ x ∈ o.before ++ o.after, x.key.length = 48 ∧ x.proof.length = 96 ∧ x.claim ≠ t)
    (pub : G1Pubs.PublicKey) (hp : G1Pubs.privToPub sk = some pub) (hv : G1Pubs.AcceptsAggregate sha pub t o) :
    ∃ a, c.solveAggregate e t F = some a ∧ a.Denotes (k • Q) := by
  obtain ⟨hpr, ps, ps', s, hps, hps', hd, hv⟩ := hv
  obtain ⟨S, hS, rS⟩ := C26_signature_g1pubs _ hlen.1 s hd
  obtain ⟨pub', ep, hpub⟩ := hk.toPub
  obtain rfl : pub' = pub := Option.some.inj (ep.symm.trans hp)
  have run := answers_g1pubs (c := c) (e := e) (Q := Q) hK hQ (fun m => by
    obtain ⟨a, ha, hd, _⟩ := hh m
    exact ⟨a, ha, G2Affine.denotes_iff.mp hd⟩) (fun m => by
    obtain ⟨g, hg, hr⟩ := hk.sign (hh m)
    exact ⟨g, by rw [hg]; rfl, hr⟩) hF hl
  have key : ∀ x ∈ o.before ++ o.after, ∃ j : ℕ, (∃ p, G1Pubs.deserializePublicKey x.key = some p ∧ p.p.Denotes (j • g1Gen)) ∧
      ∃ q, G1Pubs.deserializeSignature x.proof = some q ∧ q.s.Rep (j • (e x.claim).int • g2Gen) := by
    intro x hx
    obtain ⟨h1, h2, h3⟩ := hlen.2 x hx
    obtain ⟨p, hp, hv⟩ := Option.bind_eq_some_iff.mp (hpr x hx)
    obtain ⟨q, hq, hv⟩ := Option.bind_eq_some_iff.mp hv
    obtain ⟨j, hj, hP⟩ := C26_publicKey_g1pubs _ h1 p hp
    obtain ⟨T, hT, rT⟩ := C26_signature_g1pubs _ h2 q hq
    have hc := hh x.claim
    rw [if_neg h3] at hc
    obtain ⟨a, ha, hd, _, rH⟩ := id hc
    have P0 : j • g1Gen ≠ 0 := fun e => by
      rw [(C64_verify_g1pubs sha _ a _ ha hd rH _ _ hP _ _ hT).mpr (Or.inl e)] at hv
      cases hv
    have := (G1Pubs.verify_spec hc (G1Projective.denotes_iff.mp hP) P0 (G2Projective.denotes_iff.mp hT) rT).1.mp hv
    exact ⟨j, ⟨p, hp, hP⟩, q, hq, this ▸ G2Projective.denotes_iff.mp hT⟩
  choose! j hj1 hj2 using key
  obtain ⟨zb, e1, rfl, hzb⟩ := forall₂_exists (forall₂_of_mapM hps)
  obtain ⟨za, e2, rfl, hza⟩ := forall₂_exists (forall₂_of_mapM hps')
  have mb : ∀ z ∈ zb, z.1 ∈ o.before ++ o.after := fun z hz =>
    List.mem_append_left _ (e1 ▸ List.mem_map_of_mem hz)
  have ma : ∀ z ∈ za, z.1 ∈ o.before ++ o.after := fun z hz =>
    List.mem_append_right _ (e2 ▸ List.mem_map_of_mem hz)
  let H : List UInt8 → E2 := fun m => (e m).int • if m = t then Q else g2Gen
  let ent : Claim × G1Pubs.PublicKey → G1Pubs.PublicKey × List UInt8 × ℕ := fun z => (z.2, z.1.msg, j z.1)
  let B : List (G1Pubs.PublicKey × List UInt8 × ℕ) := zb.map ent ++ (pub', t, k) :: za.map ent
  have hB : ∀ b ∈ B, b.1.p.Denotes (b.2.2 • g1Gen) := by
    intro b hb
    rcases List.mem_append.mp hb with hb | hb
    · obtain ⟨z, hz, rfl⟩ := List.mem_map.mp hb
      obtain ⟨p, hp, hP⟩ := hj1 _ (mb z hz)
      obtain rfl : p = z.2 := Option.some.inj (hp.symm.trans (hzb z hz))
      exact hP
    · rcases List.mem_cons.mp hb with rfl | hb
      · exact G1Projective.denotes_iff.mpr hpub
      · obtain ⟨z, hz, rfl⟩ := List.mem_map.mp hb
        obtain ⟨p, hp, hP⟩ := hj1 _ (ma z hz)
        obtain rfl : p = z.2 := Option.some.inj (hp.symm.trans (hza z hz))
        exact hP
  have ek : B.map (fun b => b.1) = zb.map Prod.snd ++ pub' :: za.map Prod.snd := by
    simp only [B, ent, List.map_append, List.map_map, List.map_cons]; rfl
  have em : B.map (fun b => b.2.1) = o.before.map (fun x => x.msg) ++ t :: o.after.map fun x => x.msg := by
    rw [e1, e2]
    simp only [B, ent, List.map_append, List.map_map, List.map_cons]; rfl
  rw [← ek, ← em] at hv
  have hg : (B.map fun b => b.2.1).Nodup ∧ [] ∉ B.map fun b => b.2.1 := by
    by_contra hcon
    rw [not_and_or] at hcon
    rcases hcon with h | h
    · rw [C38_guards_g1pubs sha s _ _ (.inr h)] at hv
      cases hv
    · rw [C38_empty_g1pubs_false.1 sha s _ _ (not_not.mp h)] at hv
      cases hv
  have hnone : ¬ s.verifyAggregate sha (B.map fun b => b.1) (B.map fun b => b.2.1) = none := fun h => by
    rw [h] at hv
    cases hv
  have hbatch : ∀ b ∈ B.map (fun b => (b.1, b.2.1, b.2.2 • g1Gen, H b.2.1)), b.1.p.Denotes b.2.2.1 ∧
      (∃ g, hashG2 sha b.2.1 = some g ∧ g.Denotes b.2.2.2) ∧ r • b.2.2.2 = 0 := by
    intro b hb
    obtain ⟨b', hb', rfl⟩ := List.mem_map.mp hb
    obtain ⟨a, ha, hd, _, rH⟩ := hh b'.2.1
    exact ⟨hB b' hb', ⟨a, ha, hd⟩, rH⟩
  have hc64 := C64_aggregate_g1pubs sha _ hbatch s S hS
  rw [List.map_map, List.map_map] at hc64
  have hno := fun h => hnone (hc64.mpr ⟨hg.1, hg.2, h⟩)
  have S0 : S ≠ 0 := fun h => hno (.inl (by rw [h, nsmul_zero]))
  have hb0 : ∀ b ∈ B, ¬ r ∣ b.2.2 := fun b hb h => hno (.inr ⟨_, List.mem_map_of_mem hb, .inl (by
    obtain ⟨n, hn⟩ := h
    change b.2.2 • g1Gen = 0
    rw [hn, mul_nsmul, r_smul_g1Gen, nsmul_zero])⟩)
  obtain ⟨cc, h1, h2⟩ := C39_exact_g1pubs sha (B.map fun b => (b.1, b.2.1, b.2.2, H b.2.1)) (fun b hb => by
    obtain ⟨b', hb', rfl⟩ := List.mem_map.mp hb
    exact ⟨hB b' hb', hb0 b' hb', hh b'.2.1⟩) (by
      rw [List.map_map]; exact hg.1) (by rw [List.map_map]; exact hg.2) s S hS rS S0
  rw [List.map_map, List.map_map] at h1
  have hSum := h2.mp (Option.some.inj (h1.symm.trans hv))
  rw [List.map_map] at hSum
  have emsg : ∀ x ∈ o.before ++ o.after, x.msg ≠ t := fun x hx h => by
    have hn := hg.1
    rw [em, List.nodup_middle, ← List.map_append] at hn
    exact (List.nodup_cons.mp hn).1 (h ▸ List.mem_map_of_mem hx)
  refine solveAggregate_g1pubs rQ he run (f := j) hd hj2 ?_
  have hr := G2Projective.denotes_iff.mp hS
  rw [hSum] at hr
  have tot : (B.map ((fun b : G1Pubs.PublicKey × List UInt8 × ℕ × E2 => b.2.2.1 • b.2.2.2) ∘
      fun b : G1Pubs.PublicKey × List UInt8 × ℕ => (b.1, b.2.1, b.2.2, H b.2.1))).sum =
      k • (e t).int • Q + ((o.before ++ o.after).map fun x => j x • (e x.msg).int • g2Gen).sum := by
    have hx : ∀ x ∈ o.before ++ o.after, j x • H x.msg = j x • (e x.msg).int • g2Gen := fun x hx => by
      change j x • (e x.msg).int • (if x.msg = t then Q else g2Gen) = _
      rw [if_neg (emsg x hx)]
    have ht : H t = (e t).int • Q := by
      change (e t).int • (if t = t then Q else g2Gen) = _
      rw [if_pos rfl]
    rw [← List.map_congr_left hx, e1, e2]
    simp only [B, ent, List.map_append, List.map_map, List.map_cons, List.sum_append, List.sum_cons, Function.comp_def, ht]
    abel
  rw [tot] at hr
  exact hr

/-- Non-vacuity: under a function that hashes all messages to one point, the attacked key 2 signs the empty message, the other
key is 1 and has a proof of possession; the forger gives the aggregate of both signatures of [1] and [2]. -/
example : ∃ (sha : List UInt8 → List UInt8) (c : G1Pubs.Challenge) (sk : G1Pubs.SecretKey) (Q : E2) (e : List UInt8 → FR)
    (F : Forger G2Affine AggForgery) (l : List (List UInt8)) (o : AggForgery) (pub : G1Pubs.PublicKey),
    sk.Holds 2 ∧ c.key.Denotes (2 • g2Gen) ∧ c.point.Denotes Q ∧ Q ≠ 0 ∧ r • Q = 0 ∧ (∀ m, e m ∈ blindings) ∧
    (∀ m, G1Pubs.HashesTo sha m ((e m).int • if m = [1] then Q else g2Gen)) ∧
    F.run (hashG2 sha) (fun m => (G1Pubs.sign sha m sk).map G1Pubs.Signature.serialize) = some (l, o) ∧ [1] ∉ l ∧ l ≠ [] ∧
    (o.sig.length = 96 ∧ ∀ x ∈ o.before ++ o.after, x.key.length = 48 ∧ x.proof.length = 96 ∧ x.claim ≠ [1]) ∧
    o.before ≠ [] ∧ G1Pubs.privToPub sk = some pub ∧ G1Pubs.AcceptsAggregate sha pub [1] o := by
  obtain ⟨H, hH⟩ := Cases.case2
  have h2 := FR.one_rep.add FR.one_rep
  have hv : (FR.one.add FR.one).int = 2 := by
    rw [h2.int, one_add_one_eq_two]
    exact ZMod.val_natCast_of_lt (a := 2) (by rw [r_eq]; decide +kernel)
  have hk : (G1Pubs.SecretKey.mk (some (FR.one.add FR.one))).Holds 2 := ⟨_, rfl, h2.isValid, hv⟩
  obtain ⟨e, ⟨he1, he2⟩, -⟩ := C88_scalars_g1pubs Cases.sha2 (fun m => ⟨H, hH m⟩) g2Gen g2Gen_ne_zero r_smul_g2Gen [1]
  obtain ⟨sig, hs, hr⟩ := hk.sign (hH [])
  obtain ⟨pub, hp, hp'⟩ := hk.toPub
  obtain ⟨_, _, _, H0, rH⟩ := hH []
  have ndvd : ∀ n, n < 10 → n ≠ 0 → ¬ r ∣ n := fun n h h0 hd =>
    absurd (Nat.le_of_dvd (Nat.pos_of_ne_zero h0) hd) (Nat.not_le.mpr (h.trans (by rw [r_eq]; decide +kernel)))
  have lt : ∀ {n : ℕ}, n < 10 → n < r := fun h => h.trans (by rw [r_eq]; decide +kernel)
  obtain ⟨K, hK⟩ := G2Affine.exists_rep (2 • g2Gen)
  obtain ⟨a, ha⟩ := G2Affine.exists_rep (1 • H)
  obtain ⟨b, hb⟩ := G2Affine.exists_rep (3 • H)
  obtain ⟨x, hx⟩ := G1Affine.exists_rep (1 • g1Gen)
  have ra := G1Pubs.torsion_nsmul rH 1
  have rb := G1Pubs.torsion_nsmul rH 3
  obtain ⟨la, a', da, ha'⟩ := C25_signature_g1pubs ⟨a.toProjective⟩ _ (G2Projective.denotes_iff.mpr ha.toProjective) ra
  obtain ⟨lb, b', db, hb'⟩ := C25_signature_g1pubs ⟨b.toProjective⟩ _ (G2Projective.denotes_iff.mpr hb.toProjective) rb
  obtain ⟨lx, x', dx, hx'⟩ := C25_publicKey_g1pubs ⟨x.toProjective⟩ _ (G1Projective.denotes_iff.mpr hx.toProjective)
    (G1Pubs.torsion_nsmul r_smul_g1Gen 1)
  have S0 : 3 • H ≠ 0 := G1Pubs.nsmul_ne_of_lt H0 rH (by decide) (lt (by decide))
  let o : AggForgery := ⟨[⟨G1Pubs.PublicKey.serialize ⟨x.toProjective⟩, [2], [3], G1Pubs.Signature.serialize ⟨a.toProjective⟩⟩],
    [], G1Pubs.Signature.serialize ⟨b.toProjective⟩⟩
  have hagg : b'.verifyAggregate Cases.sha2 [x', pub] [[2], [1]] = some true := by
    obtain ⟨c, hc, hc'⟩ := C39_exact_g1pubs Cases.sha2 [(x', [2], 1, H), (pub, [1], 2, H)] (fun y hy => by
      rcases List.mem_cons.mp hy with rfl | hy
      · exact ⟨hx', ndvd 1 (by decide) (by decide), hH [2]⟩
      · rcases List.mem_cons.mp hy with rfl | hy
        · exact ⟨G1Projective.denotes_iff.mpr hp', ndvd 2 (by decide) (by decide), hH [1]⟩
        · exact absurd hy List.not_mem_nil)
      (show ([[2], [1]] : List (List UInt8)).Nodup by decide) (show [] ∉ ([[2], [1]] : List (List UInt8)) by decide) b' _ hb' rb S0
    rw [hc'.mpr (by
      simp only [List.map_cons, List.map_nil, List.sum_cons, List.sum_nil, add_zero]
      rw [← add_nsmul])] at hc
    exact hc
  have hpop : G1Pubs.verify Cases.sha2 [3] x' a' = some true :=
    (G1Pubs.verify_spec (hH [3]) (G1Projective.denotes_iff.mp hx') (G1Pubs.nsmul_ne_of_lt g1Gen_ne_zero r_smul_g1Gen (by decide)
      (lt (by decide))) (G2Projective.denotes_iff.mp ha') ra).1.mpr rfl
  refine ⟨Cases.sha2, ⟨K, G2Affine.one⟩, _, g2Gen, e, .sign [] fun _ => .forge o, [[]], o, pub, hk,
    G2Affine.denotes_iff.mpr hK, G2Affine.denotes_iff.mpr G2Affine.one_rep, g2Gen_ne_zero, r_smul_g2Gen, he1, he2, ?_, by decide,
    by decide, ⟨lb, fun y hy => ?_⟩, List.cons_ne_nil _ _, hp, fun y hy => ?_, [x'], [], b', ?_, rfl, db, hagg⟩
  · rw [Forger.run, hs]; rfl
  · rcases List.mem_cons.mp hy with rfl | hy
    · exact ⟨lx, la, show ([3] : List UInt8) ≠ [1] by decide⟩
    · exact absurd hy List.not_mem_nil
  · rcases List.mem_cons.mp hy with rfl | hy
    · rw [dx, Option.bind_some, da, Option.bind_some, hpop]
    · exact absurd hy List.not_mem_nil
  · change [_].mapM _ = _
    rw [List.mapM_cons, dx]; rfl

/-! ## g1pubs, with domains -/

/-- In a domain, where `VerifyAggregateWithDomain` does not check that the messages are different (C38): the same if the other
keys have other messages than `t`:
the reduction, which knows only k times the generator, Q and the scalars of the hash function, computes k times Q. -/
theorem C88_aggregateDomain_g1pubs (sha : List UInt8 → List UInt8) (d : List UInt8) (c : G1Pubs.Challenge) (sk : G1Pubs.SecretKey) (k : ℕ)
    (hk : sk.Holds k) (Q : E2) (hK : c.key.Denotes (k • g2Gen)) (hQ : c.point.Denotes Q) (rQ : r • Q = 0)
    (t : List UInt8) (e : List UInt8 → FR) (he : ∀ m, e m ∈ blindings)
    (hh : ∀ m, G1Pubs.HashesToIn sha d m ((e m).int • if m = t then Q else g2Gen))
    (F : Forger G2Affine AggForgery) (l : List (List UInt8)) (o : AggForgery)
    (hF : F.run (fun m => (hashG2WithDomain sha m d).map G2Projective.toAffine)
      (fun m => (G1Pubs.signWithDomain sha m sk d).map G1Pubs.Signature.serialize) = some (l, o)) (hl : t ∉ l)
    (hlen : o.sig.length = 96 ∧ ∀ x ∈ o.before ++ o.after, x.key.length = 48 ∧ x.proof.length = 96 ∧ x.claim ≠ t ∧ x.msg ≠ t)
    (pub : G1Pubs.PublicKey) (hp : G1Pubs.privToPub sk = some pub) (hv : G1Pubs.AcceptsAggregateIn sha d pub t o) :
    ∃ a, c.solveAggregate e t F = some a ∧ a.Denotes (k • Q) := by
  obtain ⟨hpr, ps, ps', s, hps, hps', hd, hv⟩ := hv
  obtain ⟨S, hS, rS⟩ := C26_signature_g1pubs _ hlen.1 s hd
  obtain ⟨pub', ep, hpub⟩ := hk.toPub
  obtain rfl : pub' = pub := Option.some.inj (ep.symm.trans hp)
  have run := answers_g1pubs (c := c) (e := e) (Q := Q) hK hQ (fun m => by
    obtain ⟨a, ha, hd, _⟩ := hh m
    exact ⟨_, by rw [ha]; rfl, (G2Projective.denotes_iff.mp hd).toAffine⟩) (fun m => by
    obtain ⟨g, hg, hr⟩ := hk.signIn (hh m)
    exact ⟨g, by rw [hg]; rfl, hr⟩) hF hl
  have key : ∀ x ∈ o.before ++ o.after, ∃ j : ℕ, (∃ p, G1Pubs.deserializePublicKey x.key = some p ∧ p.p.Denotes (j • g1Gen)) ∧
      ∃ q, G1Pubs.deserializeSignature x.proof = some q ∧ q.s.Rep (j • (e x.claim).int • g2Gen) := by
    intro x hx
    obtain ⟨h1, h2, h3, _⟩ := hlen.2 x hx
    obtain ⟨p, hp, hv⟩ := Option.bind_eq_some_iff.mp (hpr x hx)
    obtain ⟨q, hq, hv⟩ := Option.bind_eq_some_iff.mp hv
    obtain ⟨j, hj, hP⟩ := C26_publicKey_g1pubs _ h1 p hp
    obtain ⟨T, hT, rT⟩ := C26_signature_g1pubs _ h2 q hq
    have hc := hh x.claim
    rw [if_neg h3] at hc
    obtain ⟨a, ha, hd, _, rH⟩ := id hc
    have P0 : j • g1Gen ≠ 0 := fun e => by
      rw [(C64_verifyWithDomain_g1pubs sha _ _ a _ ha hd rH _ _ hP _ _ hT).mpr (Or.inl e)] at hv
      cases hv
    have := (G1Pubs.verifyWithDomain_spec hc (G1Projective.denotes_iff.mp hP) P0 (G2Projective.denotes_iff.mp hT) rT).1.mp hv
    exact ⟨j, ⟨p, hp, hP⟩, q, hq, this ▸ G2Projective.denotes_iff.mp hT⟩
  choose! j hj1 hj2 using key
  obtain ⟨zb, e1, rfl, hzb⟩ := forall₂_exists (forall₂_of_mapM hps)
  obtain ⟨za, e2, rfl, hza⟩ := forall₂_exists (forall₂_of_mapM hps')
  have mb : ∀ z ∈ zb, z.1 ∈ o.before ++ o.after := fun z hz =>
    List.mem_append_left _ (e1 ▸ List.mem_map_of_mem hz)
  have ma : ∀ z ∈ za, z.1 ∈ o.before ++ o.after := fun z hz =>
    List.mem_append_right _ (e2 ▸ List.mem_map_of_mem hz)
  let H : List UInt8 → E2 := fun m => (e m).int • if m = t then Q else g2Gen
  let ent : Claim × G1Pubs.PublicKey → G1Pubs.PublicKey × List UInt8 × ℕ := fun z => (z.2, z.1.msg, j z.1)
  let B : List (G1Pubs.PublicKey × List UInt8 × ℕ) := zb.map ent ++ (pub', t, k) :: za.map ent
  have hB : ∀ b ∈ B, b.1.p.Denotes (b.2.2 • g1Gen) := by
    intro b hb
    rcases List.mem_append.mp hb with hb | hb
    · obtain ⟨z, hz, rfl⟩ := List.mem_map.mp hb
      obtain ⟨p, hp, hP⟩ := hj1 _ (mb z hz)
      obtain rfl : p = z.2 := Option.some.inj (hp.symm.trans (hzb z hz))
      exact hP
    · rcases List.mem_cons.mp hb with rfl | hb
      · exact G1Projective.denotes_iff.mpr hpub
      · obtain ⟨z, hz, rfl⟩ := List.mem_map.mp hb
        obtain ⟨p, hp, hP⟩ := hj1 _ (ma z hz)
        obtain rfl : p = z.2 := Option.some.inj (hp.symm.trans (hza z hz))
        exact hP
  have ek : B.map (fun b => b.1) = zb.map Prod.snd ++ pub' :: za.map Prod.snd := by
    simp only [B, ent, List.map_append, List.map_map, List.map_cons]; rfl
  have em : B.map (fun b => b.2.1) = o.before.map (fun x => x.msg) ++ t :: o.after.map fun x => x.msg := by
    rw [e1, e2]
    simp only [B, ent, List.map_append, List.map_map, List.map_cons]; rfl
  rw [← ek, ← em] at hv
  have hnone : ¬ s.verifyAggregateWithDomain sha (B.map fun b => b.1) (B.map fun b => b.2.1) d = none := fun h => by
    rw [h] at hv
    cases hv
  have hbatch : ∀ b ∈ B.map (fun b => (b.1, b.2.1, b.2.2 • g1Gen, H b.2.1)), b.1.p.Denotes b.2.2.1 ∧
      (∃ g, hashG2WithDomain sha b.2.1 d = some g ∧ g.Denotes b.2.2.2) ∧ r • b.2.2.2 = 0 := by
    intro b hb
    obtain ⟨b', hb', rfl⟩ := List.mem_map.mp hb
    obtain ⟨a, ha, hd, _, rH⟩ := hh b'.2.1
    exact ⟨hB b' hb', ⟨a, ha, hd⟩, rH⟩
  have hc64 := C64_aggregateDomain_g1pubs sha d _ hbatch s S hS
  rw [List.map_map, List.map_map] at hc64
  have hno := fun h => hnone (hc64.mpr h)
  have S0 : S ≠ 0 := fun h => hno (.inl (by rw [h, nsmul_zero]))
  have hb0 : ∀ b ∈ B, ¬ r ∣ b.2.2 := fun b hb h => hno (.inr ⟨_, List.mem_map_of_mem hb, .inl (by
    obtain ⟨n, hn⟩ := h
    change b.2.2 • g1Gen = 0
    rw [hn, mul_nsmul, r_smul_g1Gen, nsmul_zero])⟩)
  obtain ⟨cc, h1, h2⟩ := C39_domain_g1pubs sha d (B.map fun b => (b.1, b.2.1, b.2.2, H b.2.1)) (fun b hb => by
    obtain ⟨b', hb', rfl⟩ := List.mem_map.mp hb
    exact ⟨hB b' hb', hb0 b' hb', hh b'.2.1⟩) s S hS rS S0
  rw [List.map_map, List.map_map] at h1
  have hSum := h2.mp (Option.some.inj (h1.symm.trans hv))
  rw [List.map_map] at hSum
  have emsg : ∀ x ∈ o.before ++ o.after, x.msg ≠ t := fun x hx => (hlen.2 x hx).2.2.2
  refine solveAggregate_g1pubs rQ he run (f := j) hd hj2 ?_
  have hr := G2Projective.denotes_iff.mp hS
  rw [hSum] at hr
  have tot : (B.map ((fun b : G1Pubs.PublicKey × List UInt8 × ℕ × E2 => b.2.2.1 • b.2.2.2) ∘
      fun b : G1Pubs.PublicKey × List UInt8 × ℕ => (b.1, b.2.1, b.2.2, H b.2.1))).sum =
      k • (e t).int • Q + ((o.before ++ o.after).map fun x => j x • (e x.msg).int • g2Gen).sum := by
    have hx : ∀ x ∈ o.before ++ o.after, j x • H x.msg = j x • (e x.msg).int • g2Gen := fun x hx => by
      change j x • (e x.msg).int • (if x.msg = t then Q else g2Gen) = _
      rw [if_neg (emsg x hx)]
    have ht : H t = (e t).int • Q := by
      change (e t).int • (if t = t then Q else g2Gen) = _
      rw [if_pos rfl]
    rw [← List.map_congr_left hx, e1, e2]
    simp only [B, ent, List.map_append, List.map_map, List.map_cons, List.sum_append, List.sum_cons, Function.comp_def, ht]
    abel
  rw [tot] at hr
  exact hr

/-- Non-vacuity: the attacked key 2 signs the empty message, the other key is 1 or 3 (so that the aggregate is not zero)
and has a proof of possession; the forger gives the aggregate of both signatures of [1] and [2]. -/
example : ∃ (sha : List UInt8 → List UInt8) (c : G1Pubs.Challenge) (sk : G1Pubs.SecretKey) (Q : E2) (e : List UInt8 → FR)
    (F : Forger G2Affine AggForgery) (l : List (List UInt8)) (o : AggForgery) (pub : G1Pubs.PublicKey),
    sk.Holds 2 ∧ c.key.Denotes (2 • g2Gen) ∧ c.point.Denotes Q ∧ Q ≠ 0 ∧ r • Q = 0 ∧ (∀ m, e m ∈ blindings) ∧
    (∀ m, G1Pubs.HashesToIn sha [5] m ((e m).int • if m = [1] then Q else g2Gen)) ∧
    F.run (fun m => (hashG2WithDomain sha m [5]).map G2Projective.toAffine)
      (fun m => (G1Pubs.signWithDomain sha m sk [5]).map G1Pubs.Signature.serialize) = some (l, o) ∧ [1] ∉ l ∧ l ≠ [] ∧
    (o.sig.length = 96 ∧ ∀ x ∈ o.before ++ o.after, x.key.length = 48 ∧ x.proof.length = 96 ∧ x.claim ≠ [1] ∧ x.msg ≠ [1]) ∧
    o.before ≠ [] ∧ G1Pubs.privToPub sk = some pub ∧ G1Pubs.AcceptsAggregateIn sha [5] pub [1] o := by
  obtain ⟨H₀, hH₀⟩ := Cases.case3 [] [5]
  obtain ⟨H₁, hH₁⟩ := Cases.case3 [1] [5]
  obtain ⟨H₂, hH₂⟩ := Cases.case3 [2] [5]
  obtain ⟨H₃, hH₃⟩ := Cases.case3 [3] [5]
  have h2 := FR.one_rep.add FR.one_rep
  have hv : (FR.one.add FR.one).int = 2 := by
    rw [h2.int, one_add_one_eq_two]
    exact ZMod.val_natCast_of_lt (a := 2) (by rw [r_eq]; decide +kernel)
  have hk : (G1Pubs.SecretKey.mk (some (FR.one.add FR.one))).Holds 2 := ⟨_, rfl, h2.isValid, hv⟩
  obtain ⟨e, ⟨he1, he2⟩, -⟩ := C88_scalarsDomain_g1pubs Cases.sha3 [5] (fun m => Cases.case3 m [5]) g2Gen g2Gen_ne_zero r_smul_g2Gen [1]
  obtain ⟨sig, hs, hr⟩ := hk.signIn hH₀
  obtain ⟨pub, hp, hp'⟩ := hk.toPub
  obtain ⟨_, _, _, H0, rH⟩ := id hH₁
  obtain ⟨_, _, _, H0', rH'⟩ := id hH₂
  obtain ⟨_, _, _, _, rH''⟩ := id hH₃
  have ndvd : ∀ n, n < 10 → n ≠ 0 → ¬ r ∣ n := fun n h h0 hd =>
    absurd (Nat.le_of_dvd (Nat.pos_of_ne_zero h0) hd) (Nat.not_le.mpr (h.trans (by rw [r_eq]; decide +kernel)))
  have lt : ∀ {n : ℕ}, n < 10 → n < r := fun h => h.trans (by rw [r_eq]; decide +kernel)
  obtain ⟨j, hj0, hj, S0⟩ : ∃ j : ℕ, j ≠ 0 ∧ j < 10 ∧ j • H₂ + 2 • H₁ ≠ 0 := by
    by_cases h : 1 • H₂ + 2 • H₁ = 0
    · refine ⟨3, by decide, by decide, ?_⟩
      rw [show 3 = 2 + 1 from rfl, add_nsmul, add_assoc, h, add_zero]
      exact G1Pubs.nsmul_ne_of_lt H0' rH' (by decide) (lt (by decide))
    · exact ⟨1, by decide, by decide, h⟩
  obtain ⟨K, hK⟩ := G2Affine.exists_rep (2 • g2Gen)
  obtain ⟨a, ha⟩ := G2Affine.exists_rep (j • H₃)
  obtain ⟨b, hb⟩ := G2Affine.exists_rep (j • H₂ + 2 • H₁)
  obtain ⟨x, hx⟩ := G1Affine.exists_rep (j • g1Gen)
  have ra := G1Pubs.torsion_nsmul rH'' j
  have rb : r • (j • H₂ + 2 • H₁) = 0 := by
    rw [nsmul_add, G1Pubs.torsion_nsmul rH' j, G1Pubs.torsion_nsmul rH 2, add_zero]
  obtain ⟨la, a', da, ha'⟩ := C25_signature_g1pubs ⟨a.toProjective⟩ _ (G2Projective.denotes_iff.mpr ha.toProjective) ra
  obtain ⟨lb, b', db, hb'⟩ := C25_signature_g1pubs ⟨b.toProjective⟩ _ (G2Projective.denotes_iff.mpr hb.toProjective) rb
  obtain ⟨lx, x', dx, hx'⟩ := C25_publicKey_g1pubs ⟨x.toProjective⟩ _ (G1Projective.denotes_iff.mpr hx.toProjective)
    (G1Pubs.torsion_nsmul r_smul_g1Gen j)
  let o : AggForgery := ⟨[⟨G1Pubs.PublicKey.serialize ⟨x.toProjective⟩, [2], [3], G1Pubs.Signature.serialize ⟨a.toProjective⟩⟩],
    [], G1Pubs.Signature.serialize ⟨b.toProjective⟩⟩
  have hagg : b'.verifyAggregateWithDomain Cases.sha3 [x', pub] [[2], [1]] [5] = some true := by
    obtain ⟨c, hc, hc'⟩ := C39_domain_g1pubs Cases.sha3 [5] [(x', [2], j, H₂), (pub, [1], 2, H₁)] (fun y hy => by
      rcases List.mem_cons.mp hy with rfl | hy
      · exact ⟨hx', ndvd j hj hj0, hH₂⟩
      · rcases List.mem_cons.mp hy with rfl | hy
        · exact ⟨G1Projective.denotes_iff.mpr hp', ndvd 2 (by decide) (by decide), hH₁⟩
        · exact absurd hy List.not_mem_nil) b' _ hb' rb S0
    rw [hc'.mpr (by
      simp only [List.map_cons, List.map_nil, List.sum_cons, List.sum_nil, add_zero])] at hc
    exact hc
  have hpop : G1Pubs.verifyWithDomain Cases.sha3 [3] x' a' [5] = some true :=
    (G1Pubs.verifyWithDomain_spec hH₃ (G1Projective.denotes_iff.mp hx') (G1Pubs.nsmul_ne_of_lt g1Gen_ne_zero r_smul_g1Gen hj0
      (lt hj)) (G2Projective.denotes_iff.mp ha') ra).1.mpr rfl
  refine ⟨Cases.sha3, ⟨K, G2Affine.one⟩, _, g2Gen, e, .sign [] fun _ => .forge o, [[]], o, pub, hk,
    G2Affine.denotes_iff.mpr hK, G2Affine.denotes_iff.mpr G2Affine.one_rep, g2Gen_ne_zero, r_smul_g2Gen, he1, he2, ?_, by decide,
    by decide, ⟨lb, fun y hy => ?_⟩, List.cons_ne_nil _ _, hp, fun y hy => ?_, [x'], [], b', ?_, rfl, db, hagg⟩
  · rw [Forger.run, hs]; rfl
  · rcases List.mem_cons.mp hy with rfl | hy
    · exact ⟨lx, la, show ([3] : List UInt8) ≠ [1] by decide, show ([2] : List UInt8) ≠ [1] by decide⟩
    · exact absurd hy List.not_mem_nil
  · rcases List.mem_cons.mp hy with rfl | hy
    · rw [dx, Option.bind_some, da, Option.bind_some, hpop]
    · exact absurd hy List.not_mem_nil
  · change [_].mapM _ = _
    rw [List.mapM_cons, dx]; rfl

/-! ## g2pubs -/

theorem solveAggregate_g2pubs {c : G2Pubs.Challenge} {k : ℕ} {Q : E1} (rQ : r • Q = 0) {e : List UInt8 → FR}
    (he : ∀ m, e m ∈ blindings) {t : List UInt8} {F : Forger G1Affine AggForgery} {l : List (List UInt8)} {o : AggForgery}
    (run : F.run (c.hash e t) (c.sign e t) = some (l, o)) {s : G2Pubs.Signature} {f : Claim → ℕ}
    (hd : G2Pubs.deserializeSignature o.sig = some s)
    (hp : ∀ x ∈ o.before ++ o.after, ∃ p, G2Pubs.deserializeSignature x.proof = some p ∧
      p.s.Rep (f x • (e x.claim).int • g1Gen))
    (hs : s.s.Rep (k • (e t).int • Q + ((o.before ++ o.after).map fun x => f x • (e x.msg).int • g1Gen).sum)) :
    ∃ a, c.solveAggregate e t F = some a ∧ a.Denotes (k • Q) := by
  obtain ⟨ps, hl, hr⟩ := mapM_some (f := G2Pubs.part e) (R := fun (s : G2Pubs.Signature) (S : E1) => s.s.Rep S)
    (g := fun x => f x • (e x.msg).int • g1Gen) (l := o.before ++ o.after) fun x hx => by
      obtain ⟨p, hp, hr⟩ := hp x hx
      obtain ⟨y, hy, y0⟩ := blindings_rep (he x.claim)
      obtain ⟨u, hu, hu'⟩ := unblind_rep_g2pubs hy y0 hr.toAffine
      rw [hy.int, smul_comm (f x), inv_nsmul (G1Pubs.torsion_nsmul r_smul_g1Gen _) y0] at hu'
      refine ⟨_, by rw [G2Pubs.part, hp, Option.bind_some, hu, Option.map_some], ?_⟩
      have := (hu'.toAffine.mulFR (e x.msg).toRepr).toAffine.toProjective
      have e1 : (e x.msg).toRepr.toNat • f x • g1Gen = f x • (e x.msg).int • g1Gen := smul_comm _ _ _
      rw [e1] at this
      exact this
  have hsum := hs.add (G2Pubs.aggregateSignatures_spec hr).toAffine.neg.toProjective
  rw [add_neg_cancel_right] at hsum
  obtain ⟨x, hx, x0⟩ := blindings_rep (he t)
  obtain ⟨u, hu, hu'⟩ := unblind_rep_g2pubs hx x0 hsum.toAffine
  rw [hx.int, smul_comm k, inv_nsmul (G1Pubs.torsion_nsmul rQ k) x0] at hu'
  refine ⟨u.s.toAffine, ?_, G1Affine.denotes_iff.mpr hu'.toAffine⟩
  rw [G2Pubs.Challenge.solveAggregate, run, Option.bind_some, hd, Option.bind_some, hl, Option.bind_some, hu, Option.map_some]

/-- A forger that may have any messages signed by the attacked key, and ends with an accepted aggregate, in which the attacked
key has a message `t` that it has not signed, and every other key has a proof of possession, with a claim that is not `t`:
the reduction, which knows only k times the generator, Q and the scalars of the hash function, computes k times Q. -/
theorem C88_aggregate_g2pubs (sha : List UInt8 → List UInt8) (c : G2Pubs.Challenge) (sk : G2Pubs.SecretKey) (k : ℕ)
    (hk : sk.Holds k) (Q : E1) (hK : c.key.Denotes (k • g1Gen)) (hQ : c.point.Denotes Q) (rQ : r • Q = 0)
    (t : List UInt8) (e : List UInt8 → FR) (he : ∀ m, e m ∈ blindings)
    (hh : ∀ m, G2Pubs.HashesTo sha m ((e m).int • if m = t then Q else g1Gen))
    (F : Forger G1Affine AggForgery) (l : List (List UInt8)) (o : AggForgery)
    (hF : F.run (hashG1 sha) (fun m => (G2Pubs.sign sha m sk).map G2Pubs.Signature.serialize) = some (l, o)) (hl : t ∉ l)
    (hlen : o.sig.length = 48 ∧ ∀ x ∈ o.before ++ o.after, x.key.length = 96 ∧ x.proof.length = 48 ∧ x.claim ≠ t)
    (pub : G2Pubs.PublicKey) (hp : G2Pubs.privToPub sk = some pub) (hv : G2Pubs.AcceptsAggregate sha pub t o) :
    ∃ a, c.solveAggregate e t F = some a ∧ a.Denotes (k • Q) := by
  obtain ⟨hpr, ps, ps', s, hps, hps', hd, hv⟩ := hv
  obtain ⟨S, hS, rS⟩ := C26_signature_g2pubs _ hlen.1 s hd
  obtain ⟨pub', ep, hpub⟩ := hk.toPub
  obtain rfl : pub' = pub := Option.some.inj (ep.symm.trans hp)
  have run := answers_g2pubs (c := c) (e := e) (Q := Q) hK hQ (fun m => by
    obtain ⟨a, ha, hd, _⟩ := hh m
    exact ⟨a, ha, G1Affine.denotes_iff.mp hd⟩) (fun m => by
    obtain ⟨g, hg, hr⟩ := hk.sign (hh m)
    exact ⟨g, by rw [hg]; rfl, hr⟩) hF hl
  have key : ∀ x ∈ o.before ++ o.after, ∃ j : ℕ, (∃ p, G2Pubs.deserializePublicKey x.key = some p ∧ p.p.Denotes (j • g2Gen)) ∧
      ∃ q, G2Pubs.deserializeSignature x.proof = some q ∧ q.s.Rep (j • (e x.claim).int • g1Gen) := by
    intro x hx
    obtain ⟨h1, h2, h3⟩ := hlen.2 x hx
    obtain ⟨p, hp, hv⟩ := Option.bind_eq_some_iff.mp (hpr x hx)
    obtain ⟨q, hq, hv⟩ := Option.bind_eq_some_iff.mp hv
    obtain ⟨j, hj, hP⟩ := C26_publicKey_g2pubs _ h1 p hp
    obtain ⟨T, hT, rT⟩ := C26_signature_g2pubs _ h2 q hq
    have hc := hh x.claim
    rw [if_neg h3] at hc
    obtain ⟨a, ha, hd, _, rH⟩ := id hc
    have P0 : j • g2Gen ≠ 0 := fun e => by
      rw [(C64_verify_g2pubs sha _ a _ ha hd _ _ hP _ _ hT).mpr (Or.inr (Or.inr (by rw [e, nsmul_zero])))] at hv
      cases hv
    have := (G2Pubs.verify_spec hc (G2Projective.denotes_iff.mp hP) P0 (G1Projective.denotes_iff.mp hT) rT).1.mp hv
    exact ⟨j, ⟨p, hp, hP⟩, q, hq, this ▸ G1Projective.denotes_iff.mp hT⟩
  choose! j hj1 hj2 using key
  obtain ⟨zb, e1, rfl, hzb⟩ := forall₂_exists (forall₂_of_mapM hps)
  obtain ⟨za, e2, rfl, hza⟩ := forall₂_exists (forall₂_of_mapM hps')
  have mb : ∀ z ∈ zb, z.1 ∈ o.before ++ o.after := fun z hz =>
    List.mem_append_left _ (e1 ▸ List.mem_map_of_mem hz)
  have ma : ∀ z ∈ za, z.1 ∈ o.before ++ o.after := fun z hz =>
    List.mem_append_right _ (e2 ▸ List.mem_map_of_mem hz)
  let H : List UInt8 → E1 := fun m => (e m).int • if m = t then Q else g1Gen
  let ent : Claim × G2Pubs.PublicKey → G2Pubs.PublicKey × List UInt8 × ℕ := fun z => (z.2, z.1.msg, j z.1)
  let B : List (G2Pubs.PublicKey × List UInt8 × ℕ) := zb.map ent ++ (pub', t, k) :: za.map ent
  have hB : ∀ b ∈ B, b.1.p.Denotes (b.2.2 • g2Gen) := by
    intro b hb
    rcases List.mem_append.mp hb with hb | hb
    · obtain ⟨z, hz, rfl⟩ := List.mem_map.mp hb
      obtain ⟨p, hp, hP⟩ := hj1 _ (mb z hz)
      obtain rfl : p = z.2 := Option.some.inj (hp.symm.trans (hzb z hz))
      exact hP
    · rcases List.mem_cons.mp hb with rfl | hb
      · exact G2Projective.denotes_iff.mpr hpub
      · obtain ⟨z, hz, rfl⟩ := List.mem_map.mp hb
        obtain ⟨p, hp, hP⟩ := hj1 _ (ma z hz)
        obtain rfl : p = z.2 := Option.some.inj (hp.symm.trans (hza z hz))
        exact hP
  have ek : B.map (fun b => b.1) = zb.map Prod.snd ++ pub' :: za.map Prod.snd := by
    simp only [B, ent, List.map_append, List.map_map, List.map_cons]; rfl
  have em : B.map (fun b => b.2.1) = o.before.map (fun x => x.msg) ++ t :: o.after.map fun x => x.msg := by
    rw [e1, e2]
    simp only [B, ent, List.map_append, List.map_map, List.map_cons]; rfl
  rw [← ek, ← em] at hv
  have hg : (B.map fun b => b.2.1).Nodup ∧ [] ∉ B.map fun b => b.2.1 := by
    by_contra hcon
    rw [not_and_or] at hcon
    rcases hcon with h | h
    · rw [C38_guards_g2pubs sha s _ _ (.inr h)] at hv
      cases hv
    · rw [C38_empty_g2pubs_false.1 sha s _ _ (not_not.mp h)] at hv
      cases hv
  have hnone : ¬ s.verifyAggregate sha (B.map fun b => b.1) (B.map fun b => b.2.1) = none := fun h => by
    rw [h] at hv
    cases hv
  have hbatch : ∀ b ∈ B.map (fun b => (b.1, b.2.1, b.2.2 • g2Gen, H b.2.1)), b.1.p.Denotes b.2.2.1 ∧
      ∃ g, hashG1 sha b.2.1 = some g ∧ g.Denotes b.2.2.2 := by
    intro b hb
    obtain ⟨b', hb', rfl⟩ := List.mem_map.mp hb
    obtain ⟨a, ha, hd, _⟩ := hh b'.2.1
    exact ⟨hB b' hb', a, ha, hd⟩
  have hc64 := C64_aggregate_g2pubs sha _ hbatch s S hS
  rw [List.map_map, List.map_map] at hc64
  have hno := fun h => hnone (hc64.mpr ⟨hg.1, hg.2, h⟩)
  have S0 : S ≠ 0 := fun h => hno (.inl h)
  have hb0 : ∀ b ∈ B, ¬ r ∣ b.2.2 := fun b hb h => hno (.inr ⟨_, List.mem_map_of_mem hb, .inr (by
    obtain ⟨n, hn⟩ := h
    change 13 • b.2.2 • g2Gen = 0
    rw [hn, mul_nsmul, r_smul_g2Gen, nsmul_zero, nsmul_zero])⟩)
  obtain ⟨cc, h1, h2⟩ := C39_exact_g2pubs sha (B.map fun b => (b.1, b.2.1, b.2.2, H b.2.1)) (fun b hb => by
    obtain ⟨b', hb', rfl⟩ := List.mem_map.mp hb
    exact ⟨hB b' hb', hb0 b' hb', hh b'.2.1⟩) (by
      rw [List.map_map]; exact hg.1) (by rw [List.map_map]; exact hg.2) s S hS rS S0
  rw [List.map_map, List.map_map] at h1
  have hSum := h2.mp (Option.some.inj (h1.symm.trans hv))
  rw [List.map_map] at hSum
  have emsg : ∀ x ∈ o.before ++ o.after, x.msg ≠ t := fun x hx h => by
    have hn := hg.1
    rw [em, List.nodup_middle, ← List.map_append] at hn
    exact (List.nodup_cons.mp hn).1 (h ▸ List.mem_map_of_mem hx)
  refine solveAggregate_g2pubs rQ he run (f := j) hd hj2 ?_
  have hr := G1Projective.denotes_iff.mp hS
  rw [hSum] at hr
  have tot : (B.map ((fun b : G2Pubs.PublicKey × List UInt8 × ℕ × E1 => b.2.2.1 • b.2.2.2) ∘
      fun b : G2Pubs.PublicKey × List UInt8 × ℕ => (b.1, b.2.1, b.2.2, H b.2.1))).sum =
      k • (e t).int • Q + ((o.before ++ o.after).map fun x => j x • (e x.msg).int • g1Gen).sum := by
    have hx : ∀ x ∈ o.before ++ o.after, j x • H x.msg = j x • (e x.msg).int • g1Gen := fun x hx => by
      change j x • (e x.msg).int • (if x.msg = t then Q else g1Gen) = _
      rw [if_neg (emsg x hx)]
    have ht : H t = (e t).int • Q := by
      change (e t).int • (if t = t then Q else g1Gen) = _
      rw [if_pos rfl]
    rw [← List.map_congr_left hx, e1, e2]
    simp only [B, ent, List.map_append, List.map_map, List.map_cons, List.sum_append, List.sum_cons, Function.comp_def, ht]
    abel
  rw [tot] at hr
  exact hr

/-- Non-vacuity: under a function that hashes all messages to one point, the attacked key 2 signs the empty message, the other
key is 1 and has a proof of possession; the forger gives the aggregate of both signatures of [1] and [2]. -/
example : ∃ (sha : List UInt8 → List UInt8) (c : G2Pubs.Challenge) (sk : G2Pubs.SecretKey) (Q : E1) (e : List UInt8 → FR)
    (F : Forger G1Affine AggForgery) (l : List (List UInt8)) (o : AggForgery) (pub : G2Pubs.PublicKey),
    sk.Holds 2 ∧ c.key.Denotes (2 • g1Gen) ∧ c.point.Denotes Q ∧ Q ≠ 0 ∧ r • Q = 0 ∧ (∀ m, e m ∈ blindings) ∧
    (∀ m, G2Pubs.HashesTo sha m ((e m).int • if m = [1] then Q else g1Gen)) ∧
    F.run (hashG1 sha) (fun m => (G2Pubs.sign sha m sk).map G2Pubs.Signature.serialize) = some (l, o) ∧ [1] ∉ l ∧ l ≠ [] ∧
    (o.sig.length = 48 ∧ ∀ x ∈ o.before ++ o.after, x.key.length = 96 ∧ x.proof.length = 48 ∧ x.claim ≠ [1]) ∧
    o.before ≠ [] ∧ G2Pubs.privToPub sk = some pub ∧ G2Pubs.AcceptsAggregate sha pub [1] o := by
  obtain ⟨H, hH⟩ := Cases.case1
  have h2 := FR.one_rep.add FR.one_rep
  have hv : (FR.one.add FR.one).int = 2 := by
    rw [h2.int, one_add_one_eq_two]
    exact ZMod.val_natCast_of_lt (a := 2) (by rw [r_eq]; decide +kernel)
  have hk : (G2Pubs.SecretKey.mk (some (FR.one.add FR.one))).Holds 2 := ⟨_, rfl, h2.isValid, hv⟩
  obtain ⟨e, ⟨he1, he2⟩, -⟩ := C88_scalars_g2pubs Cases.sha1 (fun m => ⟨H, hH m⟩) g1Gen g1Gen_ne_zero r_smul_g1Gen [1]
  obtain ⟨sig, hs, hr⟩ := hk.sign (hH [])
  obtain ⟨pub, hp, hp'⟩ := hk.toPub
  obtain ⟨_, _, _, H0, rH⟩ := hH []
  have ndvd : ∀ n, n < 10 → n ≠ 0 → ¬ r ∣ n := fun n h h0 hd =>
    absurd (Nat.le_of_dvd (Nat.pos_of_ne_zero h0) hd) (Nat.not_le.mpr (h.trans (by rw [r_eq]; decide +kernel)))
  have lt : ∀ {n : ℕ}, n < 10 → n < r := fun h => h.trans (by rw [r_eq]; decide +kernel)
  obtain ⟨K, hK⟩ := G1Affine.exists_rep (2 • g1Gen)
  obtain ⟨a, ha⟩ := G1Affine.exists_rep (1 • H)
  obtain ⟨b, hb⟩ := G1Affine.exists_rep (3 • H)
  obtain ⟨x, hx⟩ := G2Affine.exists_rep (1 • g2Gen)
  have ra := G1Pubs.torsion_nsmul rH 1
  have rb := G1Pubs.torsion_nsmul rH 3
  obtain ⟨la, a', da, ha'⟩ := C25_signature_g2pubs ⟨a.toProjective⟩ _ (G1Projective.denotes_iff.mpr ha.toProjective) ra
  obtain ⟨lb, b', db, hb'⟩ := C25_signature_g2pubs ⟨b.toProjective⟩ _ (G1Projective.denotes_iff.mpr hb.toProjective) rb
  obtain ⟨lx, x', dx, hx'⟩ := C25_publicKey_g2pubs ⟨x.toProjective⟩ _ (G2Projective.denotes_iff.mpr hx.toProjective)
    (G1Pubs.torsion_nsmul r_smul_g2Gen 1)
  have S0 : 3 • H ≠ 0 := G1Pubs.nsmul_ne_of_lt H0 rH (by decide) (lt (by decide))
  let o : AggForgery := ⟨[⟨G2Pubs.PublicKey.serialize ⟨x.toProjective⟩, [2], [3], G2Pubs.Signature.serialize ⟨a.toProjective⟩⟩],
    [], G2Pubs.Signature.serialize ⟨b.toProjective⟩⟩
  have hagg : b'.verifyAggregate Cases.sha1 [x', pub] [[2], [1]] = some true := by
    obtain ⟨c, hc, hc'⟩ := C39_exact_g2pubs Cases.sha1 [(x', [2], 1, H), (pub, [1], 2, H)] (fun y hy => by
      rcases List.mem_cons.mp hy with rfl | hy
      · exact ⟨hx', ndvd 1 (by decide) (by decide), hH [2]⟩
      · rcases List.mem_cons.mp hy with rfl | hy
        · exact ⟨G2Projective.denotes_iff.mpr hp', ndvd 2 (by decide) (by decide), hH [1]⟩
        · exact absurd hy List.not_mem_nil)
      (show ([[2], [1]] : List (List UInt8)).Nodup by decide) (show [] ∉ ([[2], [1]] : List (List UInt8)) by decide) b' _ hb' rb S0
    rw [hc'.mpr (by
      simp only [List.map_cons, List.map_nil, List.sum_cons, List.sum_nil, add_zero]
      rw [← add_nsmul])] at hc
    exact hc
  have hpop : G2Pubs.verify Cases.sha1 [3] x' a' = some true :=
    (G2Pubs.verify_spec (hH [3]) (G2Projective.denotes_iff.mp hx') (G1Pubs.nsmul_ne_of_lt g2Gen_ne_zero r_smul_g2Gen (by decide)
      (lt (by decide))) (G1Projective.denotes_iff.mp ha') ra).1.mpr rfl
  refine ⟨Cases.sha1, ⟨K, G1Affine.one⟩, _, g1Gen, e, .sign [] fun _ => .forge o, [[]], o, pub, hk,
    G1Affine.denotes_iff.mpr hK, G1Affine.denotes_iff.mpr G1Affine.one_rep, g1Gen_ne_zero, r_smul_g1Gen, he1, he2, ?_, by decide,
    by decide, ⟨lb, fun y hy => ?_⟩, List.cons_ne_nil _ _, hp, fun y hy => ?_, [x'], [], b', ?_, rfl, db, hagg⟩
  · rw [Forger.run, hs]; rfl
  · rcases List.mem_cons.mp hy with rfl | hy
    · exact ⟨lx, la, show ([3] : List UInt8) ≠ [1] by decide⟩
    · exact absurd hy List.not_mem_nil
  · rcases List.mem_cons.mp hy with rfl | hy
    · rw [dx, Option.bind_some, da, Option.bind_some, hpop]
    · exact absurd hy List.not_mem_nil
  · change [_].mapM _ = _
    rw [List.mapM_cons, dx]; rfl

end Bls.Props
