import Verif.Proof.HeapPoints
/-
Pairings, keys and signatures in memory.
-/
namespace Bls.HeapPoints

/-! ## pairing.go -/

theorem pairing_eq (v : G1Projective) (w : G2Projective) : Bls.pairing v w =
    (w.toAffine.toPrepared.bind fun prep => millerLoop [(v.toAffine, prep)]).bind fun f =>
      some (finalExponentiation f) := by
  rw [Bls.pairing]
  generalize w.toAffine.toPrepared = o
  cases o with
  | none => rfl
  | some prep =>
    show Option.map finalExponentiation _ = _
    rw [Option.bind_some]
    cases millerLoop [(v.toAffine, prep)] <;> rfl

theorem pairing_gives {m : Mem} (c : Consts m) {p q : Nat} {v : G1Projective} {w : G2Projective}
    (h : m.view p = some (.g1p v)) (h' : m.view q = some (.g2p w)) :
    Gives m (pairing p q) (Bls.pairing v w) Same := by
  rw [pairing_eq]
  refine .bindS (g1pToAffine_gives c h) fun l a ha => .g1a ha.1 ?_
  refine .bindS (g2pToAffine_gives (c.append l) (view_append h' l)) fun l' b hb => .g2a hb.1 ?_
  exact .lift fun f _ => .pure rfl

/-- A copy that is negated: nothing in use changes. -/
theorem negCopy {γ δ : Type} {m : Mem} {p : Nat} {v : G1Projective} {f : Nat → M γ} {r : Option δ}
    {Q : Mem → γ → δ → Prop} (h : m.view p = some (.g1p v))
    (H : Gives (m ++ [Obj.g1p v.neg]) (f m.length) r Q) :
    Gives m (g1pCopy p >>= fun n => g1pNeg n >>= fun _ => f n) r Q := by
  have e : (g1pCopy p >>= fun n => g1pNeg n >>= fun _ => f n) m = f m.length (m ++ [Obj.g1p v.neg]) := by
    have h1 : g1pCopy p m = some (m.length, m ++ [Obj.g1p v]) := by
      rw [g1pCopy, bind_apply, HeapPoints.g1p, run_read (view_g1p.mp h)]; rfl
    have h2 : g1pNeg m.length (m ++ [Obj.g1p v]) = some ((), m ++ [Obj.g1p v.neg]) := by
      rw [g1pNeg, bind_apply, HeapPoints.g1p, run_read (getElem?_last _ _)]
      show some ((), (m ++ [Obj.g1p v]).set m.length (.g1p v.neg)) = _
      rw [List.set_append_right _ _ le_rfl, Nat.sub_self]; rfl
    rw [bind_apply, h1, Option.bind_some, bind_apply, h2, Option.bind_some]
  cases r with
  | none => exact e.trans H
  | some b =>
    obtain ⟨a, l, hx, hQ⟩ := H
    exact ⟨a, [Obj.g1p v.neg] ++ l, by rw [← List.append_assoc]; exact e.trans hx, by rw [← List.append_assoc]; exact hQ⟩

theorem compareTwoPairings_gives {m : Mem} (c : Consts m) {a b a' b' : Nat} {p1 p2 : G1Projective}
    {q1 q2 : G2Projective} (h1 : m.view a = some (.g1p p1)) (h2 : m.view b = some (.g2p q1))
    (h3 : m.view a' = some (.g1p p2)) (h4 : m.view b' = some (.g2p q2)) :
    Gives m (compareTwoPairings a b a' b') (Bls.compareTwoPairings p1 q1 p2 q2) Same := by
  rw [Bls.compareTwoPairings]
  refine negCopy h3 ?_
  have c1 := c.append [.g1p p2.neg]
  have hn : Mem.view (m ++ [Obj.g1p p2.neg]) m.length = some (.g1p p2.neg) := view_g1p.mpr (getElem?_last m _)
  have h1 := view_append h1 [Obj.g1p p2.neg]
  have h2 := view_append h2 [.g1p p2.neg]
  have h4 := view_append h4 [.g1p p2.neg]
  generalize m ++ [Obj.g1p p2.neg] = m1 at c1 hn h1 h2 h4 ⊢
  refine .bindS (g1pToAffine_gives c1 h1) fun l x hx => .g1a hx.1 ?_
  have c2 := c1.append l
  have hn := view_append hn l
  have h2 := view_append h2 l
  have h4 := view_append h4 l
  generalize m1 ++ l = m2 at c2 hn h2 h4 ⊢
  refine .bindS (g2pToAffine_gives c2 h2) fun l y hy => .g2a hy.1 (.lift fun prep1 _ => ?_)
  have c3 := c2.append l
  have hn := view_append hn l
  have h4 := view_append h4 l
  generalize m2 ++ l = m3 at c3 hn h4 ⊢
  refine .bindS (g1pToAffine_gives c3 hn) fun l z hz => .g1a hz.1 ?_
  have c4 := c3.append l
  have h4 := view_append h4 l
  generalize m3 ++ l = m4 at c4 h4 ⊢
  refine .bindS (g2pToAffine_gives c4 h4) fun l w hw => .g2a hw.1 (.lift fun prep2 _ => .lift fun f _ => ?_)
  exact gives_lift _ _

/-! ## Keys and signatures -/

theorem gives_map {α β γ : Type} {m : Mem} {x : M α} {r : Option β} {Q : Mem → α → β → Prop}
    {Q' : Mem → α → γ → Prop} {f : β → γ} (h : Gives m x r Q) (hQ : ∀ l a b, Q (m ++ l) a b → Q' (m ++ l) a (f b)) :
    Gives m x (r.map f) Q' := by
  cases r with
  | none => exact h
  | some b => obtain ⟨a, l, hx, hab⟩ := h; exact ⟨a, l, hx, hQ l a b hab⟩

theorem Consts.set {m : Mem} (c : Consts m) {p : Nat} (hp : 8 ≤ p) (o : Obj) : Consts (m.set p o) := by
  obtain ⟨l, rfl⟩ := c
  rw [List.set_append_right _ _ (by exact hp)]
  exact List.prefix_append _ _

theorem sigAggregate1_eq {m : Mem} {a b : Nat} {v w : Bls.G1Pubs.Signature} (ha : m.view a = some (.sig1 v))
    (hb : m.view b = some (.sig1 w)) :
    G1Pubs.sigAggregate a b m = some ((), (m ++ [Obj.g2p (v.s.add w.s)]).set a (.sig1 m.length)) := by
  obtain ⟨q, a1, a2⟩ := view_sig1.mp ha
  obtain ⟨q', b1, b2⟩ := view_sig1.mp hb
  have e1 : sig1S a m = some (q, m) := by rw [sig1S, run_read a1]; rfl
  have e2 : sig1S b m = some (q', m) := by rw [sig1S, run_read b1]; rfl
  have e3 : g2pAdd q q' m = some (m.length, m ++ [Obj.g2p (v.s.add w.s)]) := by
    rw [g2pAdd, bind_apply, g2p, run_read a2]
    show ((g2p q' >>= fun x => alloc (.g2p (v.s.add x))) m) = _
    rw [bind_apply, g2p, run_read b2]; rfl
  rw [G1Pubs.sigAggregate, bind_apply, e1, Option.bind_some, bind_apply, e2, Option.bind_some, bind_apply, e3]; rfl

/-- A new signature after `Aggregate`. -/
theorem sigAggregate1_new {m l : Mem} {a b : Nat} {v w : Bls.G1Pubs.Signature} (c : Consts (m ++ l)) (ha : New m.length (m ++ l) a (.sig1 v))
    (hb : m.view b = some (.sig1 w)) :
    ∃ l', G1Pubs.sigAggregate a b (m ++ l) = some ((), m ++ l') ∧ New m.length (m ++ l') a (.sig1 (v.aggregate w)) := by
  have hle := ha.le c (fun _ e => by cases e)
  have hlt := lt_of_view ha.1
  refine ⟨(l ++ [Obj.g2p (v.s.add w.s)]).set (a - m.length) (.sig1 (m ++ l).length), ?_, ?_⟩
  · rw [sigAggregate1_eq ha.1 (view_append hb l), List.append_assoc, List.set_append_right _ _ hle]
  · rw [← List.set_append_right _ _ hle, ← List.append_assoc]
    have h1 : ((m ++ l ++ [Obj.g2p (v.s.add w.s)]).set a (.sig1 (m ++ l).length))[a]? = some (.sig1 (m ++ l).length) :=
      List.getElem?_set_self (by rw [List.length_append]; exact Nat.lt_add_right _ hlt)
    have h2 : ((m ++ l ++ [Obj.g2p (v.s.add w.s)]).set a (.sig1 (m ++ l).length))[(m ++ l).length]? =
        some (.g2p (v.s.add w.s)) := by
      rw [List.getElem?_set_ne hlt.ne]; exact getElem?_last _ _
    refine ⟨view_sig1.mpr ⟨_, h1, h2⟩, .inl hle, fun q hq => ?_⟩
    rw [Mem.ptr, h1] at hq
    cases hq
    exact ⟨len_le m l, hlt.ne'⟩

theorem aggregateSignaturesLoop1_new {m : Mem} {a : Nat} (c : Consts m) :
    ∀ (ps : List Nat) (vs : List Bls.G1Pubs.Signature) (l : Mem) (v : Bls.G1Pubs.Signature), New m.length (m ++ l) a (.sig1 v) →
      List.Forall₂ (fun p w => m.view p = some (.sig1 w)) ps vs →
      ∃ l', G1Pubs.aggregateSignaturesLoop a ps (m ++ l) = some ((), m ++ l') ∧
        New m.length (m ++ l') a (.sig1 (vs.foldl Bls.G1Pubs.Signature.aggregate v))
  | [], [], l, v, h, _ => ⟨l, rfl, h⟩
  | p :: ps, w :: vs, l, v, h, .cons hp hps => by
    obtain ⟨l1, e1, h1⟩ := sigAggregate1_new (c.append l) h hp
    obtain ⟨l2, e2, h2⟩ := aggregateSignaturesLoop1_new c ps vs l1 _ h1 hps
    exact ⟨l2, by rw [G1Pubs.aggregateSignaturesLoop, bind_apply, e1, Option.bind_some]; exact e2, h2⟩

theorem aggregateSignatures1_gives {m : Mem} (c : Consts m) {ps : List Nat} {vs : List Bls.G1Pubs.Signature}
    (h : List.Forall₂ (fun p w => m.view p = some (.sig1 w)) ps vs) :
    Gives m (G1Pubs.aggregateSignatures ps) (some (.sig1 (Bls.G1Pubs.aggregateSignatures vs))) (New m.length) := by
  have h0 : Gives m G1Pubs.newAggregateSignature (some (.sig1 ⟨.zero⟩)) (New m.length) :=
    .bindS (g2pCopy_gives c.v6) fun l a ha => gives_allocSig1 (c.append l) ha (len_le m l)
  obtain ⟨a, l, e, ha⟩ := h0
  obtain ⟨l', e', ha'⟩ := aggregateSignaturesLoop1_new c ps vs l _ ha h
  refine ⟨a, l', ?_, ha'⟩
  rw [G1Pubs.aggregateSignatures, bind_apply, e, Option.bind_some, bind_apply, e']; rfl

theorem newAggregateSignature1_gives {m : Mem} (c : Consts m) :
    Gives m G1Pubs.newAggregateSignature (some (.sig1 Bls.G1Pubs.newAggregateSignature)) (New m.length) :=
  .bindS (g2pCopy_gives c.v6) fun l a ha => gives_allocSig1 (c.append l) ha (len_le m l)

theorem sigCopy1_gives {m : Mem} (c : Consts m) {p : Nat} {v : Bls.G1Pubs.Signature} (h : m.view p = some (.sig1 v)) :
    Gives m (G1Pubs.sigCopy p) (some (.sig1 v)) (New m.length) :=
  .sig1S h fun q hq => .bindS (g2pCopy_gives hq) fun l a ha => gives_allocSig1 (c.append l) ha (len_le m l)

theorem sigGetPoint1_gives {m : Mem} {p : Nat} {v : Bls.G1Pubs.Signature} (h : m.view p = some (.sig1 v)) :
    Gives m (G1Pubs.sigGetPoint p) (some (.g2p v.getPoint)) (New m.length) :=
  .sig1S h fun q hq => g2pCopy_gives hq

theorem sigSerialize1_gives {m : Mem} (c : Consts m) {p : Nat} {v : Bls.G1Pubs.Signature} (h : m.view p = some (.sig1 v)) :
    Gives m (G1Pubs.sigSerialize p) (some v.serialize) Same :=
  .sig1S h fun q hq => .bindS (g2pToAffine_gives c hq) fun l a ha => .g2a ha.1 (.pure rfl)

theorem newSignatureFromG21_gives {m : Mem} (c : Consts m) {p : Nat} {v : G2Affine} (h : m.view p = some (.g2a v)) :
    Gives m (G1Pubs.newSignatureFromG2 p) (some (.sig1 (Bls.G1Pubs.newSignatureFromG2 v))) (New m.length) :=
  .bindS (g2aToProjective_gives c h) fun l a ha => gives_allocSig1 (c.append l) ha (len_le m l)

theorem deserializeSignature1_gives {m : Mem} (c : Consts m) (b : List UInt8) :
    Gives m (G1Pubs.deserializeSignature b) (some ((Bls.G1Pubs.deserializeSignature b).map .sig1)) (NewOr m.length) := by
  have h := orNil_gives (m := m) (f := g2aReturn) (val := .g2a) (G2Affine.decompress b)
    fun v hv => g2aReturn_gives c (g2_decompress_inf hv)
  refine .bindS h fun l o ho => ?_
  rw [show Bls.G1Pubs.deserializeSignature b = (G2Affine.decompress b).map fun a => ⟨a.toProjective⟩ by
    rw [Bls.G1Pubs.deserializeSignature]]
  cases hd : G2Affine.decompress b with
  | none =>
    rw [hd] at ho
    cases o with
    | none => exact .pure trivial
    | some a => exact ho.elim
  | some v =>
    rw [hd] at ho
    cases o with
    | none => exact ho.elim
    | some a =>
      exact .bindS (newSignatureFromG21_gives (c.append l) ho.1) fun l' a' ha' => .pure (ha'.mono (len_le m l))

theorem pubAggregate1_eq {m : Mem} {a b : Nat} {v w : Bls.G1Pubs.PublicKey} (ha : m.view a = some (.pub1 v))
    (hb : m.view b = some (.pub1 w)) :
    G1Pubs.pubAggregate a b m = some ((), (m ++ [Obj.g1p (v.p.add w.p)]).set a (.pub1 m.length)) := by
  obtain ⟨q, a1, a2⟩ := view_pub1.mp ha
  obtain ⟨q', b1, b2⟩ := view_pub1.mp hb
  have e1 : pub1P a m = some (q, m) := by rw [pub1P, run_read a1]; rfl
  have e2 : pub1P b m = some (q', m) := by rw [pub1P, run_read b1]; rfl
  have e3 : g1pAdd q q' m = some (m.length, m ++ [Obj.g1p (v.p.add w.p)]) := by
    rw [g1pAdd, bind_apply, g1p, run_read a2]
    show ((g1p q' >>= fun x => alloc (.g1p (v.p.add x))) m) = _
    rw [bind_apply, g1p, run_read b2]; rfl
  rw [G1Pubs.pubAggregate, bind_apply, e1, Option.bind_some, bind_apply, e2, Option.bind_some, bind_apply, e3]; rfl

/-- A new key after `Aggregate`. -/
theorem pubAggregate1_new {m l : Mem} {a b : Nat} {v w : Bls.G1Pubs.PublicKey} (c : Consts (m ++ l)) (ha : New m.length (m ++ l) a (.pub1 v))
    (hb : m.view b = some (.pub1 w)) :
    ∃ l', G1Pubs.pubAggregate a b (m ++ l) = some ((), m ++ l') ∧ New m.length (m ++ l') a (.pub1 (v.aggregate w)) := by
  have hle := ha.le c (fun _ e => by cases e)
  have hlt := lt_of_view ha.1
  refine ⟨(l ++ [Obj.g1p (v.p.add w.p)]).set (a - m.length) (.pub1 (m ++ l).length), ?_, ?_⟩
  · rw [pubAggregate1_eq ha.1 (view_append hb l), List.append_assoc, List.set_append_right _ _ hle]
  · rw [← List.set_append_right _ _ hle, ← List.append_assoc]
    have h1 : ((m ++ l ++ [Obj.g1p (v.p.add w.p)]).set a (.pub1 (m ++ l).length))[a]? = some (.pub1 (m ++ l).length) :=
      List.getElem?_set_self (by rw [List.length_append]; exact Nat.lt_add_right _ hlt)
    have h2 : ((m ++ l ++ [Obj.g1p (v.p.add w.p)]).set a (.pub1 (m ++ l).length))[(m ++ l).length]? =
        some (.g1p (v.p.add w.p)) := by
      rw [List.getElem?_set_ne hlt.ne]; exact getElem?_last _ _
    refine ⟨view_pub1.mpr ⟨_, h1, h2⟩, .inl hle, fun q hq => ?_⟩
    rw [Mem.ptr, h1] at hq
    cases hq
    exact ⟨len_le m l, hlt.ne'⟩

theorem aggregatePublicKeysLoop1_new {m : Mem} {a : Nat} (c : Consts m) :
    ∀ (ps : List Nat) (vs : List Bls.G1Pubs.PublicKey) (l : Mem) (v : Bls.G1Pubs.PublicKey), New m.length (m ++ l) a (.pub1 v) →
      List.Forall₂ (fun p w => m.view p = some (.pub1 w)) ps vs →
      ∃ l', G1Pubs.aggregatePublicKeysLoop a ps (m ++ l) = some ((), m ++ l') ∧
        New m.length (m ++ l') a (.pub1 (vs.foldl Bls.G1Pubs.PublicKey.aggregate v))
  | [], [], l, v, h, _ => ⟨l, rfl, h⟩
  | p :: ps, w :: vs, l, v, h, .cons hp hps => by
    obtain ⟨l1, e1, h1⟩ := pubAggregate1_new (c.append l) h hp
    obtain ⟨l2, e2, h2⟩ := aggregatePublicKeysLoop1_new c ps vs l1 _ h1 hps
    exact ⟨l2, by rw [G1Pubs.aggregatePublicKeysLoop, bind_apply, e1, Option.bind_some]; exact e2, h2⟩

theorem aggregatePublicKeys1_gives {m : Mem} (c : Consts m) {ps : List Nat} {vs : List Bls.G1Pubs.PublicKey}
    (h : List.Forall₂ (fun p w => m.view p = some (.pub1 w)) ps vs) :
    Gives m (G1Pubs.aggregatePublicKeys ps) (some (.pub1 (Bls.G1Pubs.aggregatePublicKeys vs))) (New m.length) := by
  have h0 : Gives m G1Pubs.newAggregatePubkey (some (.pub1 ⟨.zero⟩)) (New m.length) :=
    .bindS (g1pCopy_gives c.v2) fun l a ha => gives_allocPub1 (c.append l) ha (len_le m l)
  obtain ⟨a, l, e, ha⟩ := h0
  obtain ⟨l', e', ha'⟩ := aggregatePublicKeysLoop1_new c ps vs l _ ha h
  refine ⟨a, l', ?_, ha'⟩
  rw [G1Pubs.aggregatePublicKeys, bind_apply, e, Option.bind_some, bind_apply, e']; rfl

theorem newAggregatePubkey1_gives {m : Mem} (c : Consts m) :
    Gives m G1Pubs.newAggregatePubkey (some (.pub1 Bls.G1Pubs.newAggregatePubkey)) (New m.length) :=
  .bindS (g1pCopy_gives c.v2) fun l a ha => gives_allocPub1 (c.append l) ha (len_le m l)

theorem pubCopy1_gives {m : Mem} (c : Consts m) {p : Nat} {v : Bls.G1Pubs.PublicKey} (h : m.view p = some (.pub1 v)) :
    Gives m (G1Pubs.pubCopy p) (some (.pub1 v)) (New m.length) :=
  .pub1P h fun q hq => .bindS (g1pCopy_gives hq) fun l a ha => gives_allocPub1 (c.append l) ha (len_le m l)

theorem pubGetPoint1_gives {m : Mem} {p : Nat} {v : Bls.G1Pubs.PublicKey} (h : m.view p = some (.pub1 v)) :
    Gives m (G1Pubs.pubGetPoint p) (some (.g1p v.getPoint)) (New m.length) :=
  .pub1P h fun q hq => g1pCopy_gives hq

theorem pubSerialize1_gives {m : Mem} (c : Consts m) {p : Nat} {v : Bls.G1Pubs.PublicKey} (h : m.view p = some (.pub1 v)) :
    Gives m (G1Pubs.pubSerialize p) (some v.serialize) Same :=
  .pub1P h fun q hq => .bindS (g1pToAffine_gives c hq) fun l a ha => .g1a ha.1 (.pure rfl)

theorem newPublicKeyFromG11_gives {m : Mem} (c : Consts m) {p : Nat} {v : G1Affine} (h : m.view p = some (.g1a v)) :
    Gives m (G1Pubs.newPublicKeyFromG1 p) (some (.pub1 (Bls.G1Pubs.newPublicKeyFromG1 v))) (New m.length) :=
  .bindS (g1aToProjective_gives c h) fun l a ha => gives_allocPub1 (c.append l) ha (len_le m l)

theorem deserializePublicKey1_gives {m : Mem} (c : Consts m) (b : List UInt8) :
    Gives m (G1Pubs.deserializePublicKey b) (some ((Bls.G1Pubs.deserializePublicKey b).map .pub1)) (NewOr m.length) := by
  have h := orNil_gives (m := m) (f := g1aReturn) (val := .g1a) (G1Affine.decompress b)
    fun v hv => g1aReturn_gives c (g1_decompress_inf hv)
  refine .bindS h fun l o ho => ?_
  rw [show Bls.G1Pubs.deserializePublicKey b = (G1Affine.decompress b).map fun a => ⟨a.toProjective⟩ by
    rw [Bls.G1Pubs.deserializePublicKey]]
  cases hd : G1Affine.decompress b with
  | none =>
    rw [hd] at ho
    cases o with
    | none => exact .pure trivial
    | some a => exact ho.elim
  | some v =>
    rw [hd] at ho
    cases o with
    | none => exact ho.elim
    | some a =>
      exact .bindS (newPublicKeyFromG11_gives (c.append l) ho.1) fun l' a' ha' => .pure (ha'.mono (len_le m l))

theorem sigAggregate2_eq {m : Mem} {a b : Nat} {v w : Bls.G2Pubs.Signature} (ha : m.view a = some (.sig2 v))
    (hb : m.view b = some (.sig2 w)) :
    G2Pubs.sigAggregate a b m = some ((), (m ++ [Obj.g1p (v.s.add w.s)]).set a (.sig2 m.length)) := by
  obtain ⟨q, a1, a2⟩ := view_sig2.mp ha
  obtain ⟨q', b1, b2⟩ := view_sig2.mp hb
  have e1 : sig2S a m = some (q, m) := by rw [sig2S, run_read a1]; rfl
  have e2 : sig2S b m = some (q', m) := by rw [sig2S, run_read b1]; rfl
  have e3 : g1pAdd q q' m = some (m.length, m ++ [Obj.g1p (v.s.add w.s)]) := by
    rw [g1pAdd, bind_apply, g1p, run_read a2]
    show ((g1p q' >>= fun x => alloc (.g1p (v.s.add x))) m) = _
    rw [bind_apply, g1p, run_read b2]; rfl
  rw [G2Pubs.sigAggregate, bind_apply, e1, Option.bind_some, bind_apply, e2, Option.bind_some, bind_apply, e3]; rfl

/-- A new signature after `Aggregate`. -/
theorem sigAggregate2_new {m l : Mem} {a b : Nat} {v w : Bls.G2Pubs.Signature} (c : Consts (m ++ l)) (ha : New m.length (m ++ l) a (.sig2 v))
    (hb : m.view b = some (.sig2 w)) :
    ∃ l', G2Pubs.sigAggregate a b (m ++ l) = some ((), m ++ l') ∧ New m.length (m ++ l') a (.sig2 (v.aggregate w)) := by
  have hle := ha.le c (fun _ e => by cases e)
  have hlt := lt_of_view ha.1
  refine ⟨(l ++ [Obj.g1p (v.s.add w.s)]).set (a - m.length) (.sig2 (m ++ l).length), ?_, ?_⟩
  · rw [sigAggregate2_eq ha.1 (view_append hb l), List.append_assoc, List.set_append_right _ _ hle]
  · rw [← List.set_append_right _ _ hle, ← List.append_assoc]
    have h1 : ((m ++ l ++ [Obj.g1p (v.s.add w.s)]).set a (.sig2 (m ++ l).length))[a]? = some (.sig2 (m ++ l).length) :=
      List.getElem?_set_self (by rw [List.length_append]; exact Nat.lt_add_right _ hlt)
    have h2 : ((m ++ l ++ [Obj.g1p (v.s.add w.s)]).set a (.sig2 (m ++ l).length))[(m ++ l).length]? =
        some (.g1p (v.s.add w.s)) := by
      rw [List.getElem?_set_ne hlt.ne]; exact getElem?_last _ _
    refine ⟨view_sig2.mpr ⟨_, h1, h2⟩, .inl hle, fun q hq => ?_⟩
    rw [Mem.ptr, h1] at hq
    cases hq
    exact ⟨len_le m l, hlt.ne'⟩

theorem aggregateSignaturesLoop2_new {m : Mem} {a : Nat} (c : Consts m) :
    ∀ (ps : List Nat) (vs : List Bls.G2Pubs.Signature) (l : Mem) (v : Bls.G2Pubs.Signature), New m.length (m ++ l) a (.sig2 v) →
      List.Forall₂ (fun p w => m.view p = some (.sig2 w)) ps vs →
      ∃ l', G2Pubs.aggregateSignaturesLoop a ps (m ++ l) = some ((), m ++ l') ∧
        New m.length (m ++ l') a (.sig2 (vs.foldl Bls.G2Pubs.Signature.aggregate v))
  | [], [], l, v, h, _ => ⟨l, rfl, h⟩
  | p :: ps, w :: vs, l, v, h, .cons hp hps => by
    obtain ⟨l1, e1, h1⟩ := sigAggregate2_new (c.append l) h hp
    obtain ⟨l2, e2, h2⟩ := aggregateSignaturesLoop2_new c ps vs l1 _ h1 hps
    exact ⟨l2, by rw [G2Pubs.aggregateSignaturesLoop, bind_apply, e1, Option.bind_some]; exact e2, h2⟩

theorem aggregateSignatures2_gives {m : Mem} (c : Consts m) {ps : List Nat} {vs : List Bls.G2Pubs.Signature}
    (h : List.Forall₂ (fun p w => m.view p = some (.sig2 w)) ps vs) :
    Gives m (G2Pubs.aggregateSignatures ps) (some (.sig2 (Bls.G2Pubs.aggregateSignatures vs))) (New m.length) := by
  have h0 : Gives m G2Pubs.newAggregateSignature (some (.sig2 ⟨.zero⟩)) (New m.length) :=
    .bindS (g1pCopy_gives c.v2) fun l a ha => gives_allocSig2 (c.append l) ha (len_le m l)
  obtain ⟨a, l, e, ha⟩ := h0
  obtain ⟨l', e', ha'⟩ := aggregateSignaturesLoop2_new c ps vs l _ ha h
  refine ⟨a, l', ?_, ha'⟩
  rw [G2Pubs.aggregateSignatures, bind_apply, e, Option.bind_some, bind_apply, e']; rfl

theorem newAggregateSignature2_gives {m : Mem} (c : Consts m) :
    Gives m G2Pubs.newAggregateSignature (some (.sig2 Bls.G2Pubs.newAggregateSignature)) (New m.length) :=
  .bindS (g1pCopy_gives c.v2) fun l a ha => gives_allocSig2 (c.append l) ha (len_le m l)

theorem sigCopy2_gives {m : Mem} (c : Consts m) {p : Nat} {v : Bls.G2Pubs.Signature} (h : m.view p = some (.sig2 v)) :
    Gives m (G2Pubs.sigCopy p) (some (.sig2 v)) (New m.length) :=
  .sig2S h fun q hq => .bindS (g1pCopy_gives hq) fun l a ha => gives_allocSig2 (c.append l) ha (len_le m l)

theorem sigGetPoint2_gives {m : Mem} {p : Nat} {v : Bls.G2Pubs.Signature} (h : m.view p = some (.sig2 v)) :
    Gives m (G2Pubs.sigGetPoint p) (some (.g1p v.getPoint)) (New m.length) :=
  .sig2S h fun q hq => g1pCopy_gives hq

theorem sigSerialize2_gives {m : Mem} (c : Consts m) {p : Nat} {v : Bls.G2Pubs.Signature} (h : m.view p = some (.sig2 v)) :
    Gives m (G2Pubs.sigSerialize p) (some v.serialize) Same :=
  .sig2S h fun q hq => .bindS (g1pToAffine_gives c hq) fun l a ha => .g1a ha.1 (.pure rfl)

theorem newSignatureFromG12_gives {m : Mem} (c : Consts m) {p : Nat} {v : G1Affine} (h : m.view p = some (.g1a v)) :
    Gives m (G2Pubs.newSignatureFromG1 p) (some (.sig2 (Bls.G2Pubs.newSignatureFromG1 v))) (New m.length) :=
  .bindS (g1aToProjective_gives c h) fun l a ha => gives_allocSig2 (c.append l) ha (len_le m l)

theorem deserializeSignature2_gives {m : Mem} (c : Consts m) (b : List UInt8) :
    Gives m (G2Pubs.deserializeSignature b) (some ((Bls.G2Pubs.deserializeSignature b).map .sig2)) (NewOr m.length) := by
  have h := orNil_gives (m := m) (f := g1aReturn) (val := .g1a) (G1Affine.decompress b)
    fun v hv => g1aReturn_gives c (g1_decompress_inf hv)
  refine .bindS h fun l o ho => ?_
  rw [show Bls.G2Pubs.deserializeSignature b = (G1Affine.decompress b).map fun a => ⟨a.toProjective⟩ by
    rw [Bls.G2Pubs.deserializeSignature]]
  cases hd : G1Affine.decompress b with
  | none =>
    rw [hd] at ho
    cases o with
    | none => exact .pure trivial
    | some a => exact ho.elim
  | some v =>
    rw [hd] at ho
    cases o with
    | none => exact ho.elim
    | some a =>
      exact .bindS (newSignatureFromG12_gives (c.append l) ho.1) fun l' a' ha' => .pure (ha'.mono (len_le m l))

theorem pubAggregate2_eq {m : Mem} {a b : Nat} {v w : Bls.G2Pubs.PublicKey} (ha : m.view a = some (.pub2 v))
    (hb : m.view b = some (.pub2 w)) :
    G2Pubs.pubAggregate a b m = some ((), (m ++ [Obj.g2p (v.p.add w.p)]).set a (.pub2 m.length)) := by
  obtain ⟨q, a1, a2⟩ := view_pub2.mp ha
  obtain ⟨q', b1, b2⟩ := view_pub2.mp hb
  have e1 : pub2P a m = some (q, m) := by rw [pub2P, run_read a1]; rfl
  have e2 : pub2P b m = some (q', m) := by rw [pub2P, run_read b1]; rfl
  have e3 : g2pAdd q q' m = some (m.length, m ++ [Obj.g2p (v.p.add w.p)]) := by
    rw [g2pAdd, bind_apply, g2p, run_read a2]
    show ((g2p q' >>= fun x => alloc (.g2p (v.p.add x))) m) = _
    rw [bind_apply, g2p, run_read b2]; rfl
  rw [G2Pubs.pubAggregate, bind_apply, e1, Option.bind_some, bind_apply, e2, Option.bind_some, bind_apply, e3]; rfl

/-- A new key after `Aggregate`. -/
theorem pubAggregate2_new {m l : Mem} {a b : Nat} {v w : Bls.G2Pubs.PublicKey} (c : Consts (m ++ l)) (ha : New m.length (m ++ l) a (.pub2 v))
    (hb : m.view b = some (.pub2 w)) :
    ∃ l', G2Pubs.pubAggregate a b (m ++ l) = some ((), m ++ l') ∧ New m.length (m ++ l') a (.pub2 (v.aggregate w)) := by
  have hle := ha.le c (fun _ e => by cases e)
  have hlt := lt_of_view ha.1
  refine ⟨(l ++ [Obj.g2p (v.p.add w.p)]).set (a - m.length) (.pub2 (m ++ l).length), ?_, ?_⟩
  · rw [pubAggregate2_eq ha.1 (view_append hb l), List.append_assoc, List.set_append_right _ _ hle]
  · rw [← List.set_append_right _ _ hle, ← List.append_assoc]
    have h1 : ((m ++ l ++ [Obj.g2p (v.p.add w.p)]).set a (.pub2 (m ++ l).length))[a]? = some (.pub2 (m ++ l).length) :=
      List.getElem?_set_self (by rw [List.length_append]; exact Nat.lt_add_right _ hlt)
    have h2 : ((m ++ l ++ [Obj.g2p (v.p.add w.p)]).set a (.pub2 (m ++ l).length))[(m ++ l).length]? =
        some (.g2p (v.p.add w.p)) := by
      rw [List.getElem?_set_ne hlt.ne]; exact getElem?_last _ _
    refine ⟨view_pub2.mpr ⟨_, h1, h2⟩, .inl hle, fun q hq => ?_⟩
    rw [Mem.ptr, h1] at hq
    cases hq
    exact ⟨len_le m l, hlt.ne'⟩

theorem aggregatePublicKeysLoop2_new {m : Mem} {a : Nat} (c : Consts m) :
    ∀ (ps : List Nat) (vs : List Bls.G2Pubs.PublicKey) (l : Mem) (v : Bls.G2Pubs.PublicKey), New m.length (m ++ l) a (.pub2 v) →
      List.Forall₂ (fun p w => m.view p = some (.pub2 w)) ps vs →
      ∃ l', G2Pubs.aggregatePublicKeysLoop a ps (m ++ l) = some ((), m ++ l') ∧
        New m.length (m ++ l') a (.pub2 (vs.foldl Bls.G2Pubs.PublicKey.aggregate v))
  | [], [], l, v, h, _ => ⟨l, rfl, h⟩
  | p :: ps, w :: vs, l, v, h, .cons hp hps => by
    obtain ⟨l1, e1, h1⟩ := pubAggregate2_new (c.append l) h hp
    obtain ⟨l2, e2, h2⟩ := aggregatePublicKeysLoop2_new c ps vs l1 _ h1 hps
    exact ⟨l2, by rw [G2Pubs.aggregatePublicKeysLoop, bind_apply, e1, Option.bind_some]; exact e2, h2⟩

theorem aggregatePublicKeys2_gives {m : Mem} (c : Consts m) {ps : List Nat} {vs : List Bls.G2Pubs.PublicKey}
    (h : List.Forall₂ (fun p w => m.view p = some (.pub2 w)) ps vs) :
    Gives m (G2Pubs.aggregatePublicKeys ps) (some (.pub2 (Bls.G2Pubs.aggregatePublicKeys vs))) (New m.length) := by
  have h0 : Gives m G2Pubs.newAggregatePubkey (some (.pub2 ⟨.zero⟩)) (New m.length) :=
    .bindS (g2pCopy_gives c.v6) fun l a ha => gives_allocPub2 (c.append l) ha (len_le m l)
  obtain ⟨a, l, e, ha⟩ := h0
  obtain ⟨l', e', ha'⟩ := aggregatePublicKeysLoop2_new c ps vs l _ ha h
  refine ⟨a, l', ?_, ha'⟩
  rw [G2Pubs.aggregatePublicKeys, bind_apply, e, Option.bind_some, bind_apply, e']; rfl

theorem newAggregatePubkey2_gives {m : Mem} (c : Consts m) :
    Gives m G2Pubs.newAggregatePubkey (some (.pub2 Bls.G2Pubs.newAggregatePubkey)) (New m.length) :=
  .bindS (g2pCopy_gives c.v6) fun l a ha => gives_allocPub2 (c.append l) ha (len_le m l)

theorem pubCopy2_gives {m : Mem} (c : Consts m) {p : Nat} {v : Bls.G2Pubs.PublicKey} (h : m.view p = some (.pub2 v)) :
    Gives m (G2Pubs.pubCopy p) (some (.pub2 v)) (New m.length) :=
  .pub2P h fun q hq => .bindS (g2pCopy_gives hq) fun l a ha => gives_allocPub2 (c.append l) ha (len_le m l)

theorem pubGetPoint2_gives {m : Mem} {p : Nat} {v : Bls.G2Pubs.PublicKey} (h : m.view p = some (.pub2 v)) :
    Gives m (G2Pubs.pubGetPoint p) (some (.g2p v.getPoint)) (New m.length) :=
  .pub2P h fun q hq => g2pCopy_gives hq

theorem pubSerialize2_gives {m : Mem} (c : Consts m) {p : Nat} {v : Bls.G2Pubs.PublicKey} (h : m.view p = some (.pub2 v)) :
    Gives m (G2Pubs.pubSerialize p) (some v.serialize) Same :=
  .pub2P h fun q hq => .bindS (g2pToAffine_gives c hq) fun l a ha => .g2a ha.1 (.pure rfl)

theorem newPublicKeyFromG22_gives {m : Mem} (c : Consts m) {p : Nat} {v : G2Affine} (h : m.view p = some (.g2a v)) :
    Gives m (G2Pubs.newPublicKeyFromG2 p) (some (.pub2 (Bls.G2Pubs.newPublicKeyFromG2 v))) (New m.length) :=
  .bindS (g2aToProjective_gives c h) fun l a ha => gives_allocPub2 (c.append l) ha (len_le m l)

theorem deserializePublicKey2_gives {m : Mem} (c : Consts m) (b : List UInt8) :
    Gives m (G2Pubs.deserializePublicKey b) (some ((Bls.G2Pubs.deserializePublicKey b).map .pub2)) (NewOr m.length) := by
  have h := orNil_gives (m := m) (f := g2aReturn) (val := .g2a) (G2Affine.decompress b)
    fun v hv => g2aReturn_gives c (g2_decompress_inf hv)
  refine .bindS h fun l o ho => ?_
  rw [show Bls.G2Pubs.deserializePublicKey b = (G2Affine.decompress b).map fun a => ⟨a.toProjective⟩ by
    rw [Bls.G2Pubs.deserializePublicKey]]
  cases hd : G2Affine.decompress b with
  | none =>
    rw [hd] at ho
    cases o with
    | none => exact .pure trivial
    | some a => exact ho.elim
  | some v =>
    rw [hd] at ho
    cases o with
    | none => exact ho.elim
    | some a =>
      exact .bindS (newPublicKeyFromG22_gives (c.append l) ho.1) fun l' a' ha' => .pure (ha'.mono (len_le m l))

/-! ## Signing and verifying -/

theorem Gives.bindM {α β β' γ δ : Type} {m : Mem} {x : M α} {r : Option β} {e : β → β'} {Q : Mem → α → β' → Prop}
    {f : α → M γ} {g : β → Option δ} {Q' : Mem → γ → δ → Prop} (h : Gives m x (r.map e) Q)
    (hf : ∀ l a b, Q (m ++ l) a (e b) → Gives (m ++ l) (f a) (g b) Q') : Gives m (x >>= f) (r.bind g) Q' := by
  cases r with
  | none => show (x >>= f) m = none; rw [bind_apply, show x m = none from h]; rfl
  | some b => exact Gives.bindS h fun l a => hf l a b

theorem sign1_gives {m : Mem} (c : Consts m) (sha : List UInt8 → List UInt8) (b : List UInt8) (f : FR) :
    Gives m (G1Pubs.sign sha b f) ((Bls.G1Pubs.sign sha b ⟨some f⟩).map .sig1) (New m.length) := by
  rw [show (Bls.G1Pubs.sign sha b ⟨some f⟩).map Val.sig1 =
    (Bls.hashG2 sha b).bind fun h => some (.sig1 ⟨h.mulFR f.toRepr⟩) by
      rw [Bls.G1Pubs.sign]; cases Bls.hashG2 sha b <;> rfl]
  refine .bindM (hashG2_gives c sha b) fun l a v ha => ?_
  refine .bindS (g2aMulFR_gives (c.append l) ha.1 f.toRepr) fun l' a' ha' => ?_
  exact gives_allocSig1 ((c.append l).append l') (ha'.mono (len_le m l)) ((len_le m l).trans (len_le _ l'))

theorem signWithDomain1_gives {m : Mem} (c : Consts m) (sha : List UInt8 → List UInt8) (b d : List UInt8) (f : FR) :
    Gives m (G1Pubs.signWithDomain sha b f d) ((Bls.G1Pubs.signWithDomain sha b ⟨some f⟩ d).map .sig1) (New m.length) := by
  rw [show (Bls.G1Pubs.signWithDomain sha b ⟨some f⟩ d).map Val.sig1 =
    (Bls.hashG2WithDomain sha b d).bind fun h => some (.sig1 ⟨h.mulFR f.toRepr⟩) by
      rw [Bls.G1Pubs.signWithDomain]; cases Bls.hashG2WithDomain sha b d <;> rfl]
  refine .bindM (hashG2WithDomain_gives sha b d) fun l a v ha => ?_
  refine .bindS (g2pMulFR_gives (c.append l) ha.1 f.toRepr) fun l' a' ha' => ?_
  exact gives_allocSig1 ((c.append l).append l') (ha'.mono (len_le m l)) ((len_le m l).trans (len_le _ l'))

theorem sign2_gives {m : Mem} (c : Consts m) (sha : List UInt8 → List UInt8) (b : List UInt8) (f : FR) :
    Gives m (G2Pubs.sign sha b f) ((Bls.G2Pubs.sign sha b ⟨some f⟩).map .sig2) (New m.length) := by
  rw [show (Bls.G2Pubs.sign sha b ⟨some f⟩).map Val.sig2 =
    (Bls.hashG1 sha b).bind fun h => some (.sig2 ⟨h.mulFR f.toRepr⟩) by
      rw [Bls.G2Pubs.sign]; cases Bls.hashG1 sha b <;> rfl]
  refine .bindM (hashG1_gives c sha b) fun l a v ha => ?_
  refine .bindS (g1aMulFR_gives (c.append l) ha.1 f.toRepr) fun l' a' ha' => ?_
  exact gives_allocSig2 ((c.append l).append l') (ha'.mono (len_le m l)) ((len_le m l).trans (len_le _ l'))

theorem privToPub1_gives {m : Mem} (c : Consts m) (f : FR) :
    Gives m (G1Pubs.privToPub f) ((Bls.G1Pubs.privToPub ⟨some f⟩).map .pub1) (New m.length) :=
  Gives.bindS (g1aMulFR_gives c c.v1 f.toRepr) fun l _ ha => gives_allocPub1 (c.append l) ha (len_le m l)

theorem privToPub2_gives {m : Mem} (c : Consts m) (f : FR) :
    Gives m (G2Pubs.privToPub f) ((Bls.G2Pubs.privToPub ⟨some f⟩).map .pub2) (New m.length) :=
  Gives.bindS (g2aMulFR_gives c c.v5 f.toRepr) fun l _ ha => gives_allocPub2 (c.append l) ha (len_le m l)

theorem pubEquals1_gives {m : Mem} {p q : Nat} {v w : Bls.G1Pubs.PublicKey} (h : m.view p = some (.pub1 v))
    (h' : m.view q = some (.pub1 w)) : Gives m (G1Pubs.pubEquals p q) (some (v.equals w)) Same :=
  .pub1P h fun _ hq => .g1p hq (.pub1P h' fun _ hq' => .g1p hq' (.pure rfl))

theorem pubEquals2_gives {m : Mem} {p q : Nat} {v w : Bls.G2Pubs.PublicKey} (h : m.view p = some (.pub2 v))
    (h' : m.view q = some (.pub2 w)) : Gives m (G2Pubs.pubEquals p q) (some (v.equals w)) Same :=
  .pub2P h fun _ hq => .g2p hq (.pub2P h' fun _ hq' => .g2p hq' (.pure rfl))

theorem verify1_gives {m : Mem} (c : Consts m) (sha : List UInt8 → List UInt8) (b : List UInt8) {p q : Nat}
    {v : Bls.G1Pubs.PublicKey} {w : Bls.G1Pubs.Signature} (h : m.view p = some (.pub1 v))
    (h' : m.view q = some (.sig1 w)) : Gives m (G1Pubs.verify sha b p q) (Bls.G1Pubs.verify sha b v w) Same := by
  refine .bindM (hashG2_gives c sha b) fun l a u ha => ?_
  refine .sig1S (view_append h' l) fun s hs => .pub1P (view_append h l) fun k hk => ?_
  refine .bindS (g2aToProjective_gives (c.append l) ha.1) fun l' a' ha' => ?_
  have c' := (c.append l).append l'
  exact compareTwoPairings_gives c' c'.v3 (view_append hs l') (view_append hk l') ha'.1

theorem verifyWithDomain1_gives {m : Mem} (c : Consts m) (sha : List UInt8 → List UInt8) (b d : List UInt8) {p q : Nat}
    {v : Bls.G1Pubs.PublicKey} {w : Bls.G1Pubs.Signature} (h : m.view p = some (.pub1 v))
    (h' : m.view q = some (.sig1 w)) :
    Gives m (G1Pubs.verifyWithDomain sha b p q d) (Bls.G1Pubs.verifyWithDomain sha b v w d) Same := by
  refine .bindM (hashG2WithDomain_gives sha b d) fun l a u ha => ?_
  refine .sig1S (view_append h' l) fun s hs => .pub1P (view_append h l) fun k hk => ?_
  refine .bindS (g2pToAffine_gives (c.append l) ha.1) fun l' a' ha' => ?_
  have c' := (c.append l).append l'
  refine .bindS (g2aToProjective_gives c' ha'.1) fun l'' a'' ha'' => ?_
  have c'' := c'.append l''
  exact compareTwoPairings_gives c'' c''.v3 (view_append (view_append hs l') l'')
    (view_append (view_append hk l') l'') ha''.1

theorem verify2_gives {m : Mem} (c : Consts m) (sha : List UInt8 → List UInt8) (b : List UInt8) {p q : Nat}
    {v : Bls.G2Pubs.PublicKey} {w : Bls.G2Pubs.Signature} (h : m.view p = some (.pub2 v))
    (h' : m.view q = some (.sig2 w)) : Gives m (G2Pubs.verify sha b p q) (Bls.G2Pubs.verify sha b v w) Same := by
  refine .bindM (hashG1_gives c sha b) fun l a u ha => ?_
  refine .sig2S (view_append h' l) fun s hs => ?_
  refine .bindS (g1aToProjective_gives (c.append l) ha.1) fun l' a' ha' => ?_
  have c' := (c.append l).append l'
  refine .pub2P (view_append (view_append h l) l') fun k hk => ?_
  exact compareTwoPairings_gives c' (view_append hs l') c'.v7 ha'.1 hk

theorem join_bind {α β : Type} (o : Option (Option α)) (f : α → Option β) :
    o.join.bind f = o.bind fun t => t.bind f := by cases o <;> rfl

theorem forall_append {m : Mem} {ps : List Nat} {β : Type} {vs : List β} {f : β → Val}
    (h : List.Forall₂ (fun p w => m.view p = some (f w)) ps vs) (l : Mem) :
    List.Forall₂ (fun p w => (m ++ l).view p = some (f w)) ps vs := h.imp fun _ _ h => view_append h l

theorem pairingProduct1_gives (sha : List UInt8 → List UInt8) : ∀ (ps : List Nat) (vs : List Bls.G1Pubs.PublicKey)
    (ms : List (List UInt8)) (rhs : FQ12) {m : Mem}, Consts m →
    List.Forall₂ (fun p w => m.view p = some (.pub1 w)) ps vs →
    Gives m (G1Pubs.pairingProduct sha ps ms rhs) (Bls.G1Pubs.pairingProduct sha vs ms rhs) Same
  | [], [], _, _, _, _, _ => by
    rw [G1Pubs.pairingProduct, Bls.G1Pubs.pairingProduct] <;> first | exact .pure rfl | (intros; contradiction)
  | _ :: _, _ :: _, [], _, _, _, _ => by
    rw [G1Pubs.pairingProduct, Bls.G1Pubs.pairingProduct] <;> first | exact .pure rfl | (intros; contradiction)
  | p :: ps, v :: vs, b :: ms, rhs, m, c, .cons hp hps => by
    rw [G1Pubs.pairingProduct, Bls.G1Pubs.pairingProduct]
    refine .bindM (hashG2_gives c sha b) fun l a u ha => ?_
    refine .pub1P (view_append hp l) fun k hk => ?_
    refine .bindS (g2aToProjective_gives (c.append l) ha.1) fun l' a' ha' => ?_
    rw [join_bind]
    refine Gives.bind (pairing_gives ((c.append l).append l') (view_append hk l') ha'.1) fun l'' t t' _ e => ?_
    cases e
    refine .lift fun e _ => ?_
    exact pairingProduct1_gives sha ps vs ms _ (((c.append l).append l').append l'')
      (forall_append (forall_append (forall_append hps l) l') l'')

theorem pairingProductWithDomain1_gives (sha : List UInt8 → List UInt8) (d : List UInt8) :
    ∀ (ps : List Nat) (vs : List Bls.G1Pubs.PublicKey)
    (ms : List (List UInt8)) (rhs : FQ12) {m : Mem}, Consts m →
    List.Forall₂ (fun p w => m.view p = some (.pub1 w)) ps vs →
    Gives m (G1Pubs.pairingProductWithDomain sha d ps ms rhs) (Bls.G1Pubs.pairingProductWithDomain sha d vs ms rhs) Same
  | [], [], _, _, _, _, _ => by
    rw [G1Pubs.pairingProductWithDomain, Bls.G1Pubs.pairingProductWithDomain] <;>
      first | exact .pure rfl | (intros; contradiction)
  | _ :: _, _ :: _, [], _, _, _, _ => by
    rw [G1Pubs.pairingProductWithDomain, Bls.G1Pubs.pairingProductWithDomain] <;>
      first | exact .pure rfl | (intros; contradiction)
  | p :: ps, v :: vs, b :: ms, rhs, m, c, .cons hp hps => by
    rw [G1Pubs.pairingProductWithDomain, Bls.G1Pubs.pairingProductWithDomain]
    refine .bindM (hashG2WithDomain_gives sha b d) fun l0 a u ha => ?_
    refine .pub1P (view_append hp l0) fun k hk => ?_
    refine .bindS (g2pToAffine_gives (c.append l0) ha.1) fun l a ha => ?_
    refine .bindS (g2aToProjective_gives ((c.append l0).append l) ha.1) fun l' a' ha' => ?_
    rw [join_bind]
    refine Gives.bind (pairing_gives (((c.append l0).append l).append l') (view_append (view_append hk l) l') ha'.1)
      fun l'' t t' _ e => ?_
    cases e
    refine .lift fun e _ => ?_
    exact pairingProductWithDomain1_gives sha d ps vs ms _ ((((c.append l0).append l).append l').append l'')
      (forall_append (forall_append (forall_append (forall_append hps l0) l) l') l'')

theorem pairingProduct2_gives (sha : List UInt8 → List UInt8) : ∀ (ps : List Nat) (vs : List Bls.G2Pubs.PublicKey)
    (ms : List (List UInt8)) (rhs : FQ12) {m : Mem}, Consts m →
    List.Forall₂ (fun p w => m.view p = some (.pub2 w)) ps vs →
    Gives m (G2Pubs.pairingProduct sha ps ms rhs) (Bls.G2Pubs.pairingProduct sha vs ms rhs) Same
  | [], [], _, _, _, _, _ => by
    rw [G2Pubs.pairingProduct, Bls.G2Pubs.pairingProduct] <;> first | exact .pure rfl | (intros; contradiction)
  | _ :: _, _ :: _, [], _, _, _, _ => by
    rw [G2Pubs.pairingProduct, Bls.G2Pubs.pairingProduct] <;> first | exact .pure rfl | (intros; contradiction)
  | p :: ps, v :: vs, b :: ms, rhs, m, c, .cons hp hps => by
    rw [G2Pubs.pairingProduct, Bls.G2Pubs.pairingProduct]
    refine .bindM (hashG1_gives c sha b) fun l a u ha => ?_
    refine .bindS (g1aToProjective_gives (c.append l) ha.1) fun l' a' ha' => ?_
    refine .pub2P (view_append (view_append hp l) l') fun k hk => ?_
    rw [join_bind]
    refine Gives.bind (pairing_gives ((c.append l).append l') ha'.1 hk) fun l'' t t' _ e => ?_
    cases e
    refine .lift fun e _ => ?_
    exact pairingProduct2_gives sha ps vs ms _ (((c.append l).append l').append l'')
      (forall_append (forall_append (forall_append hps l) l') l'')

/-- A copy that is sorted: nothing in use changes. -/
theorem sortCopy {γ δ : Type} {m : Mem} {ms : List (List UInt8)} {f : Nat → M γ} {r : Option δ}
    {Q : Mem → γ → δ → Prop} (H : Gives (m ++ [.msgs (sortByteArrays ms)]) (f m.length) r Q) :
    Gives m (alloc (.msgs ms) >>= fun n => G1Pubs.sortInPlace n >>= fun _ => f n) r Q := by
  have e : (alloc (.msgs ms) >>= fun n => G1Pubs.sortInPlace n >>= fun _ => f n) m =
      f m.length (m ++ [.msgs (sortByteArrays ms)]) := by
    have h2 : G1Pubs.sortInPlace m.length (m ++ [Obj.msgs ms]) = some ((), m ++ [Obj.msgs (sortByteArrays ms)]) := by
      rw [G1Pubs.sortInPlace, bind_apply, HeapPoints.msgs, run_read (getElem?_last _ _)]
      show some ((), (m ++ [Obj.msgs ms]).set m.length (.msgs (sortByteArrays ms))) = _
      rw [List.set_append_right _ _ le_rfl, Nat.sub_self]; rfl
    rw [bind_apply, show alloc (.msgs ms) m = some (m.length, m ++ [Obj.msgs ms]) from rfl, Option.bind_some, bind_apply,
      h2, Option.bind_some]
  cases r with
  | none => exact e.trans H
  | some b =>
    obtain ⟨a, l, hx, hQ⟩ := H
    exact ⟨a, [Obj.msgs (sortByteArrays ms)] ++ l, by rw [← List.append_assoc]; exact e.trans hx,
      by rw [← List.append_assoc]; exact hQ⟩

theorem verifyAggregate1_gives {m : Mem} (c : Consts m) (sha : List UInt8 → List UInt8) {g : Nat} {ps : List Nat}
    {a : Nat} {s : Bls.G1Pubs.Signature} {vs : List Bls.G1Pubs.PublicKey} {ms : List (List UInt8)}
    (hg : m.view g = some (.sig1 s)) (hp : List.Forall₂ (fun p w => m.view p = some (.pub1 w)) ps vs)
    (hm : m.view a = some (.msgs ms)) :
    Gives m (G1Pubs.verifyAggregate sha g ps a) (s.verifyAggregate sha vs ms) Same := by
  rw [Bls.G1Pubs.Signature.verifyAggregate, ← hp.length_eq]
  refine .msgs hm ?_
  by_cases hl : (ps.length != ms.length) = true
  · rw [if_pos hl, if_pos hl]; exact .pure rfl
  rw [if_neg hl, if_neg hl]
  refine .msgs hm (sortCopy ?_)
  have hs : Mem.view (m ++ [Obj.msgs (sortByteArrays ms)]) m.length = some (.msgs (sortByteArrays ms)) :=
    view_msgs.mpr (getElem?_last m _)
  refine .msgs hs ?_
  by_cases hr : (!noRepeat [] (sortByteArrays ms)) = true
  · rw [if_pos hr, if_pos hr]; exact .pure rfl
  rw [if_neg hr, if_neg hr]
  have c' := c.append [Obj.msgs (sortByteArrays ms)]
  refine .sig1S (view_append hg _) fun k hk => ?_
  refine Gives.bind (pairing_gives c' c'.v3 hk) fun l t t' _ e => ?_
  cases e
  refine .msgs (view_append (view_append hm _) l) ?_
  refine Gives.bind (pairingProduct1_gives sha ps vs ms FQ12.one (c'.append l) (forall_append (forall_append hp _) l))
    fun l' u u' _ e => ?_
  cases e
  exact gives_lift _ _

theorem verifyAggregateWithDomain1_gives {m : Mem} (c : Consts m) (sha : List UInt8 → List UInt8) {g : Nat}
    {ps : List Nat} {a : Nat} {s : Bls.G1Pubs.Signature} {vs : List Bls.G1Pubs.PublicKey} {ms : List (List UInt8)}
    (d : List UInt8)
    (hg : m.view g = some (.sig1 s)) (hp : List.Forall₂ (fun p w => m.view p = some (.pub1 w)) ps vs)
    (hm : m.view a = some (.msgs ms)) :
    Gives m (G1Pubs.verifyAggregateWithDomain sha g ps a d) (s.verifyAggregateWithDomain sha vs ms d) Same := by
  rw [Bls.G1Pubs.Signature.verifyAggregateWithDomain, ← hp.length_eq]
  refine .msgs hm ?_
  by_cases hl : (ps.length != ms.length) = true
  · rw [if_pos hl, if_pos hl]; exact .pure rfl
  rw [if_neg hl, if_neg hl]
  refine .sig1S hg fun k hk => ?_
  refine Gives.bind (pairing_gives c c.v3 hk) fun l t t' _ e => ?_
  cases e
  refine .msgs (view_append hm l) ?_
  refine Gives.bind (pairingProductWithDomain1_gives sha d ps vs ms FQ12.one (c.append l) (forall_append hp l))
    fun l' u u' _ e => ?_
  cases e
  exact gives_lift _ _

theorem verifyAggregate2_gives {m : Mem} (c : Consts m) (sha : List UInt8 → List UInt8) {g : Nat} {ps : List Nat}
    {a : Nat} {s : Bls.G2Pubs.Signature} {vs : List Bls.G2Pubs.PublicKey} {ms : List (List UInt8)}
    (hg : m.view g = some (.sig2 s)) (hp : List.Forall₂ (fun p w => m.view p = some (.pub2 w)) ps vs)
    (hm : m.view a = some (.msgs ms)) :
    Gives m (G2Pubs.verifyAggregate sha g ps a) (s.verifyAggregate sha vs ms) Same := by
  rw [Bls.G2Pubs.Signature.verifyAggregate, ← hp.length_eq]
  refine .msgs hm ?_
  by_cases hl : (ps.length != ms.length) = true
  · rw [if_pos hl, if_pos hl]; exact .pure rfl
  rw [if_neg hl, if_neg hl]
  refine .msgs hm (sortCopy ?_)
  have hs : Mem.view (m ++ [Obj.msgs (sortByteArrays ms)]) m.length = some (.msgs (sortByteArrays ms)) :=
    view_msgs.mpr (getElem?_last m _)
  refine .msgs hs ?_
  by_cases hr : (!noRepeat [] (sortByteArrays ms)) = true
  · rw [if_pos hr, if_pos hr]; exact .pure rfl
  rw [if_neg hr, if_neg hr]
  have c' := c.append [Obj.msgs (sortByteArrays ms)]
  refine .sig2S (view_append hg _) fun k hk => ?_
  refine Gives.bind (pairing_gives c' hk c'.v7) fun l t t' _ e => ?_
  cases e
  refine .msgs (view_append (view_append hm _) l) ?_
  refine Gives.bind (pairingProduct2_gives sha ps vs ms FQ12.one (c'.append l) (forall_append (forall_append hp _) l))
    fun l' u u' _ e => ?_
  cases e
  exact gives_lift _ _

theorem verifyAggregateCommon1_gives {m : Mem} (c : Consts m) (sha : List UInt8 → List UInt8) {g : Nat} {ps : List Nat}
    {s : Bls.G1Pubs.Signature} {vs : List Bls.G1Pubs.PublicKey} (b : List UInt8)
    (hg : m.view g = some (.sig1 s)) (hp : List.Forall₂ (fun p w => m.view p = some (.pub1 w)) ps vs) :
    Gives m (G1Pubs.verifyAggregateCommon sha g ps b) (s.verifyAggregateCommon sha vs b) Same :=
  .bindS (aggregatePublicKeys1_gives c hp) fun l _ ha => verify1_gives (c.append l) sha b ha.1 (view_append hg l)

theorem verifyAggregateCommonWithDomain1_gives {m : Mem} (c : Consts m) (sha : List UInt8 → List UInt8) {g : Nat}
    {ps : List Nat} {s : Bls.G1Pubs.Signature} {vs : List Bls.G1Pubs.PublicKey} (b d : List UInt8)
    (hg : m.view g = some (.sig1 s)) (hp : List.Forall₂ (fun p w => m.view p = some (.pub1 w)) ps vs) :
    Gives m (G1Pubs.verifyAggregateCommonWithDomain sha g ps b d) (s.verifyAggregateCommonWithDomain sha vs b d) Same :=
  .bindS (aggregatePublicKeys1_gives c hp) fun l _ ha =>
    verifyWithDomain1_gives (c.append l) sha b d ha.1 (view_append hg l)

theorem verifyAggregateCommon2_gives {m : Mem} (c : Consts m) (sha : List UInt8 → List UInt8) {g : Nat} {ps : List Nat}
    {s : Bls.G2Pubs.Signature} {vs : List Bls.G2Pubs.PublicKey} (b : List UInt8)
    (hg : m.view g = some (.sig2 s)) (hp : List.Forall₂ (fun p w => m.view p = some (.pub2 w)) ps vs) :
    Gives m (G2Pubs.verifyAggregateCommon sha g ps b) (s.verifyAggregateCommon sha vs b) Same :=
  .bindS (aggregatePublicKeys2_gives c hp) fun l _ ha => verify2_gives (c.append l) sha b ha.1 (view_append hg l)

end Bls.HeapPoints
