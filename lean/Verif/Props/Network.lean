import Verif.Spec.Network
import Verif.Props.Canonical
import Verif.Props.Panics
/-
C70: networks of aggregators (Verif/Spec/Network.lean). `H` gives the hash point of every message, the keys are 32
bytes in big-endian order.
-/
namespace Bls.Props

private theorem torsion_sum {A : Type} [AddCommMonoid A] {l : List A} (h : ∀ S ∈ l, r • S = 0) : r • l.sum = 0 := by
  induction l with
  | nil => rw [List.sum_nil, nsmul_zero]
  | cons a l ih =>
    rw [List.sum_cons, nsmul_add, h a List.mem_cons_self, ih fun S m => h S (List.mem_cons_of_mem _ m), add_zero]

private theorem forall₂_maps {α β : Type*} {R : α → β → Prop} {l : List (α × β)} (h : ∀ x ∈ l, R x.1 x.2) :
    List.Forall₂ R (l.map Prod.fst) (l.map Prod.snd) := by
  induction l with
  | nil => exact .nil
  | cons a l ih => exact .cons (h a List.mem_cons_self) (ih fun x m => h x (List.mem_cons_of_mem _ m))

private theorem collected_sum {α β A : Type} [AddCommMonoid A] {own : α → List UInt8 → Prop}
    {read : List UInt8 → Option β} {combine : List β → β} {write : β → List UInt8} {val : α → A} {ok : α → Prop}
    {is : List UInt8 → A → Prop} (h1 : ∀ a b, own a b → ok a → is b (val a))
    (h2 : ∀ l : List (β × A), (∀ x ∈ l, ∃ b, read b = some x.1 ∧ is b x.2) →
      is (write (combine (l.map Prod.fst))) (l.map Prod.snd).sum) {l : List α} {b : List UInt8}
    (h : Collected own read combine write l b) (hl : ∀ a ∈ l, ok a) : is b (l.map val).sum := by
  induction h with
  | sent a b h =>
    rw [List.map_singleton, List.sum_singleton]
    exact h1 a b h (hl a List.mem_cons_self)
  | gathered ins xs _ hr ih =>
    have key : ∃ t : List (β × A), t.map Prod.fst = xs ∧ (t.map Prod.snd).sum = ((ins.map Prod.fst).flatten.map val).sum ∧
        ∀ x ∈ t, ∃ b, read b = some x.1 ∧ is b x.2 := by
      rename_i hins
      clear hins
      induction hr with
      | nil => exact ⟨[], rfl, rfl, fun _ h => absurd h List.not_mem_nil⟩
      | @cons i x ins xs hx _ ih' =>
        obtain ⟨t, t1, t2, t3⟩ := ih' (fun i m => ih i (List.mem_cons_of_mem _ m)) fun a m =>
          hl a (by rw [List.map_cons, List.flatten_cons]; exact List.mem_append_right _ m)
        have := ih i List.mem_cons_self fun a m =>
          hl a (by rw [List.map_cons, List.flatten_cons]; exact List.mem_append_left _ m)
        refine ⟨(x, (i.1.map val).sum) :: t, by rw [List.map_cons, t1], ?_, ?_⟩
        · rw [List.map_cons, List.sum_cons, t2, List.map_cons, List.flatten_cons, List.map_append, List.sum_append]
        · intro y hy
          rcases List.mem_cons.mp hy with rfl | hy
          · exact ⟨i.2, hx, this⟩
          · exact t3 y hy
    obtain ⟨t, rfl, t2, t3⟩ := key
    rw [← t2]
    exact h2 t t3

/-! ## g1pubs -/

/-- The bytes of signatures and keys with a given point. -/
private def isSig1 (b : List UInt8) (S : E2) : Prop :=
  r • S = 0 ∧ ∃ s : G1Pubs.Signature, s.s.Denotes S ∧ b = s.serialize

private def isKey1 (b : List UInt8) (P : E1) : Prop :=
  r • P = 0 ∧ ∃ p : G1Pubs.PublicKey, p.p.Denotes P ∧ b = p.serialize

private theorem isSig1_fn {b b' : List UInt8} {S : E2} (h : isSig1 b S) (h' : isSig1 b' S) : b = b' := by
  obtain ⟨_, s, hs, rfl⟩ := h
  obtain ⟨_, s', hs', rfl⟩ := h'
  rw [G1Pubs.Signature.serialize, G1Pubs.Signature.serialize, (G2Projective.denotes_iff.mp hs).toAffine.inj
    (G2Projective.denotes_iff.mp hs').toAffine]

private theorem isKey1_fn {b b' : List UInt8} {P : E1} (h : isKey1 b P) (h' : isKey1 b' P) : b = b' := by
  obtain ⟨_, s, hs, rfl⟩ := h
  obtain ⟨_, s', hs', rfl⟩ := h'
  rw [G1Pubs.PublicKey.serialize, G1Pubs.PublicKey.serialize, (G1Projective.denotes_iff.mp hs).toAffine.inj
    (G1Projective.denotes_iff.mp hs').toAffine]

private theorem isSig1_read {b : List UInt8} {S : E2} (h : isSig1 b S) :
    b.length = 96 ∧ ∃ s, G1Pubs.deserializeSignature b = some s ∧ s.s.Denotes S := by
  obtain ⟨hr, s, hs, rfl⟩ := h
  exact C25_signature_g1pubs s S hs hr

private theorem isKey1_read {b : List UInt8} {P : E1} (h : isKey1 b P) :
    b.length = 48 ∧ ∃ p, G1Pubs.deserializePublicKey b = some p ∧ p.p.Denotes P := by
  obtain ⟨hr, s, hs, rfl⟩ := h
  exact C25_publicKey_g1pubs s P hs hr

private theorem sigs1 {sha : List UInt8 → List UInt8} {H : List UInt8 → E2} {l : List Signer} {b : List UInt8}
    (hl : ∀ p ∈ l, p.key.length = 32 ∧ beNat p.key < r ∧ G1Pubs.HashesTo sha p.msg (H p.msg))
    (h : G1Pubs.CollectedSignatures sha l b) : isSig1 b (l.map fun p => beNat p.key • H p.msg).sum := by
  refine collected_sum (fun p b hb hp => ?_) (fun l hl => ?_) h hl
  · obtain ⟨s, hs, rfl⟩ := hb
    obtain ⟨hk, _⟩ := (C13_deserialize_g1pubs p.key hp.1).2.1 hp.2.1
    obtain ⟨s', h3, h4⟩ := hk.sign hp.2.2
    rw [hs, Option.some.injEq] at h3
    subst h3
    obtain ⟨_, _, _, _, hH⟩ := id hp.2.2
    exact ⟨G1Pubs.torsion_nsmul hH _, s, G2Projective.denotes_iff.mpr h4, rfl⟩
  · refine ⟨torsion_sum fun S hS => ?_, _, C29_signatures_g1pubs (l.map Prod.fst) (l.map Prod.snd) (forall₂_maps fun x hx => ?_), rfl⟩
    · obtain ⟨x, hx, rfl⟩ := List.mem_map.mp hS
      obtain ⟨b, _, h2⟩ := hl x hx
      exact h2.1
    · obtain ⟨b, h1, h2⟩ := hl x hx
      obtain ⟨_, s, h3, h4⟩ := isSig1_read h2
      rw [h1, Option.some.injEq] at h3
      exact h3 ▸ h4

private theorem keys1 {l : List Signer} {b : List UInt8} (hl : ∀ p ∈ l, p.key.length = 32 ∧ beNat p.key < r)
    (h : G1Pubs.CollectedKeys l b) : isKey1 b (l.map fun p => beNat p.key • g1Gen).sum := by
  refine collected_sum (fun p b hb hp => ?_) (fun l hl => ?_) h hl
  · obtain ⟨s, hs, rfl⟩ := hb
    obtain ⟨hk, _⟩ := (C13_deserialize_g1pubs p.key hp.1).2.1 hp.2
    obtain ⟨s', h3, h4⟩ := hk.toPub
    rw [hs, Option.some.injEq] at h3
    subst h3
    exact ⟨G1Pubs.torsion_nsmul r_smul_g1Gen _, s, G1Projective.denotes_iff.mpr h4, rfl⟩
  · refine ⟨torsion_sum fun S hS => ?_, _, C29_publicKeys_g1pubs (l.map Prod.fst) (l.map Prod.snd) (forall₂_maps fun x hx => ?_), rfl⟩
    · obtain ⟨x, hx, rfl⟩ := List.mem_map.mp hS
      obtain ⟨b, _, h2⟩ := hl x hx
      exact h2.1
    · obtain ⟨b, h1, h2⟩ := hl x hx
      obtain ⟨_, s, h3, h4⟩ := isKey1_read h2
      rw [h1, Option.some.injEq] at h3
      exact h3 ▸ h4

/-- No string in the network is refused: signers can sign, and whatever strings reach an aggregator, it can read them
all and sends a string in turn. -/
theorem C70_progress_g1pubs (sha : List UInt8 → List UInt8) (H : List UInt8 → E2) (l : List Signer)
    (hl : ∀ p ∈ l, p.key.length = 32 ∧ beNat p.key < r ∧ G1Pubs.HashesTo sha p.msg (H p.msg)) :
    (∀ p ∈ l, (∃ b, G1Pubs.SendsSignature sha p b) ∧ ∃ b, G1Pubs.SendsKey p b) ∧
    ∀ ins : List (List Signer × List UInt8), (ins.map Prod.fst).flatten.Perm l →
      ((∀ i ∈ ins, G1Pubs.CollectedSignatures sha i.1 i.2) →
        ∃ xs, List.Forall₂ (fun i x => G1Pubs.deserializeSignature i.2 = some x) ins xs ∧
          G1Pubs.CollectedSignatures sha (ins.map Prod.fst).flatten (G1Pubs.aggregateSignatures xs).serialize) ∧
      ((∀ i ∈ ins, G1Pubs.CollectedKeys i.1 i.2) →
        ∃ xs, List.Forall₂ (fun i x => G1Pubs.deserializePublicKey i.2 = some x) ins xs ∧
          G1Pubs.CollectedKeys (ins.map Prod.fst).flatten (G1Pubs.aggregatePublicKeys xs).serialize) := by
  refine ⟨fun p hp => ?_, fun ins hins => ?_⟩
  · obtain ⟨h1, h2, h3⟩ := hl p hp
    obtain ⟨hk, _⟩ := (C13_deserialize_g1pubs p.key h1).2.1 h2
    obtain ⟨s, h3, _⟩ := hk.sign h3
    obtain ⟨k, h4, _⟩ := hk.toPub
    exact ⟨⟨_, s, h3, rfl⟩, _, k, h4, rfl⟩
  · have mem : ∀ i ∈ ins, ∀ p ∈ i.1, p ∈ l := fun i hi p hp =>
      hins.subset (List.mem_flatten.mpr ⟨i.1, List.mem_map_of_mem hi, hp⟩)
    constructor
    · intro hc
      obtain ⟨xs, hx⟩ := forall₂_of_forall (R := fun i x => G1Pubs.deserializeSignature i.2 = some x) (l := ins)
        fun i hi => by
          obtain ⟨_, s, hs, _⟩ := isSig1_read (sigs1 (fun p hp => hl p (mem i hi p hp)) (hc i hi))
          exact ⟨s, hs⟩
      exact ⟨xs, hx, .gathered ins xs hc hx⟩
    · intro hc
      obtain ⟨xs, hx⟩ := forall₂_of_forall (R := fun i x => G1Pubs.deserializePublicKey i.2 = some x) (l := ins)
        fun i hi => by
          obtain ⟨_, s, hs, _⟩ := isKey1_read (keys1 (fun p hp => ⟨(hl p (mem i hi p hp)).1,
            (hl p (mem i hi p hp)).2.1⟩) (hc i hi))
          exact ⟨s, hs⟩
      exact ⟨xs, hx, .gathered ins xs hc hx⟩

/-- The shape of the network does not matter: strings collected from the same signers are the same byte for byte. -/
theorem C70_agree_g1pubs (sha : List UInt8 → List UInt8) (H : List UInt8 → E2) (l l' : List Signer) (hp : l.Perm l')
    (hl : ∀ p ∈ l, p.key.length = 32 ∧ beNat p.key < r ∧ G1Pubs.HashesTo sha p.msg (H p.msg)) (b b' : List UInt8) :
    (G1Pubs.CollectedSignatures sha l b → G1Pubs.CollectedSignatures sha l' b' → b = b' ∧ b.length = 96) ∧
    (G1Pubs.CollectedKeys l b → G1Pubs.CollectedKeys l' b' → b = b' ∧ b.length = 48) := by
  constructor
  · intro h h'
    have a := sigs1 hl h
    have a' := sigs1 (fun p m => hl p (hp.symm.subset m)) h'
    rw [← (hp.map _).sum_eq] at a'
    exact ⟨isSig1_fn a a', (isSig1_read a).1⟩
  · intro h h'
    have a := keys1 (fun p m => ⟨(hl p m).1, (hl p m).2.1⟩) h
    have a' := keys1 (fun p m => ⟨(hl p (hp.symm.subset m)).1, (hl p (hp.symm.subset m)).2.1⟩) h'
    rw [← (hp.map _).sum_eq] at a'
    exact ⟨isKey1_fn a a', (isKey1_read a).1⟩

/-- What a network has collected from signers of pairwise different non-empty messages is accepted by
`VerifyAggregate` for the keys they sent, listed in any order, unless the signatures add up to infinity. -/
theorem C70_verify_g1pubs (sha : List UInt8 → List UInt8) (H : List UInt8 → E2) (l l' : List Signer) (hp : l.Perm l')
    (hl : ∀ p ∈ l, p.key.length = 32 ∧ 0 < beNat p.key ∧ beNat p.key < r ∧ G1Pubs.HashesTo sha p.msg (H p.msg))
    (hn : (l.map Signer.msg).Nodup) (he : [] ∉ l.map Signer.msg)
    (hS : (l.map fun p => beNat p.key • H p.msg).sum ≠ 0)
    (b : List UInt8) (hb : G1Pubs.CollectedSignatures sha l b)
    (bs : List (List UInt8)) (hbs : List.Forall₂ G1Pubs.SendsKey l' bs) :
    ∃ sig pubs, G1Pubs.deserializeSignature b = some sig ∧
      List.Forall₂ (fun c p => G1Pubs.deserializePublicKey c = some p) bs pubs ∧
      sig.verifyAggregate sha pubs (l'.map Signer.msg) = some true := by
  obtain ⟨_, sig, hsig, hd⟩ := isSig1_read (sigs1 (fun p m => ⟨(hl p m).1, (hl p m).2.2⟩) hb)
  have hr := (sigs1 (fun p m => ⟨(hl p m).1, (hl p m).2.2⟩) hb).1
  have hl' : ∀ p ∈ l', p.key.length = 32 ∧ 0 < beNat p.key ∧ beNat p.key < r ∧ G1Pubs.HashesTo sha p.msg (H p.msg) :=
    fun p m => hl p (hp.symm.subset m)
  have key : ∃ batch : List (G1Pubs.PublicKey × List UInt8 × ℕ × E2),
      List.Forall₂ (fun c p => G1Pubs.deserializePublicKey c = some p) bs (batch.map fun b => b.1) ∧
      batch.map (fun b => b.2.1) = l'.map Signer.msg ∧
      batch.map (fun b => b.2.2.1 • b.2.2.2) = l'.map (fun p => beNat p.key • H p.msg) ∧
      ∀ b ∈ batch, b.1.p.Denotes (b.2.2.1 • g1Gen) ∧ ¬ r ∣ b.2.2.1 ∧ G1Pubs.HashesTo sha b.2.1 b.2.2.2 := by
    clear hp
    induction hbs with
    | nil => exact ⟨[], .nil, rfl, rfl, fun _ h => absurd h List.not_mem_nil⟩
    | @cons p c l' bs hc _ ih =>
      obtain ⟨batch, i1, i2, i3, i4⟩ := ih fun p m => hl' p (List.mem_cons_of_mem _ m)
      obtain ⟨a1, a2, a3, a4⟩ := hl' p List.mem_cons_self
      have hk := keys1 (l := [p]) (b := c) (fun x m => by rw [List.mem_singleton] at m; subst m; exact ⟨a1, a3⟩)
        (.sent p c hc)
      obtain ⟨_, pub, h1, h2⟩ := isKey1_read hk
      rw [List.map_singleton, List.sum_singleton] at h2
      refine ⟨(pub, p.msg, beNat p.key, H p.msg) :: batch, .cons h1 i1, ?_, ?_, ?_⟩
      · rw [List.map_cons, List.map_cons, i2]
      · rw [List.map_cons, List.map_cons, i3]
      · intro b hb
        rcases List.mem_cons.mp hb with rfl | hb
        · exact ⟨h2, fun h => absurd (Nat.le_of_dvd a2 h) (by omega), a4⟩
        · exact i4 b hb
  obtain ⟨batch, i1, i2, i3, i4⟩ := key
  obtain ⟨c, h1, h2⟩ := C39_exact_g1pubs sha batch i4 (by rw [i2]; exact (hp.map _).nodup_iff.mp hn)
    (by rw [i2]; exact fun h => he ((hp.map _).symm.subset h)) sig _ hd hr hS
  rw [i2] at h1
  rw [i3, (hp.map _).sum_eq] at h2
  exact ⟨sig, _, hsig, i1, by rw [h1, h2.mpr rfl]⟩

/-- One message: the signature and the aggregate key may be collected along different ways. `Verify` accepts the pair
unless the secret keys add up to 0 modulo r. -/
theorem C70_common_g1pubs (sha : List UInt8 → List UInt8) (H : E2) (m : List UInt8) (hm : G1Pubs.HashesTo sha m H)
    (l l' : List Signer) (hp : l.Perm l')
    (hl : ∀ p ∈ l, p.key.length = 32 ∧ beNat p.key < r ∧ p.msg = m) (h0 : ¬ r ∣ (l.map fun p => beNat p.key).sum)
    (b c : List UInt8) (hb : G1Pubs.CollectedSignatures sha l b) (hc : G1Pubs.CollectedKeys l' c) :
    ∃ sig pub, G1Pubs.deserializeSignature b = some sig ∧ G1Pubs.deserializePublicKey c = some pub ∧
      G1Pubs.verify sha m pub sig = some true := by
  have a := sigs1 (H := fun _ => H) (fun p h => ⟨(hl p h).1, (hl p h).2.1, (hl p h).2.2 ▸ hm⟩) hb
  have a' := keys1 (fun p h => ⟨(hl p (hp.symm.subset h)).1, (hl p (hp.symm.subset h)).2.1⟩) hc
  rw [← (hp.map _).sum_eq] at a'
  have e : ∀ {A : Type} [AddCommMonoid A] (X : A), (l.map fun p => beNat p.key • X).sum =
      (l.map fun p => beNat p.key).sum • X := by
    intro A _ X
    clear hl hp h0 hb hc a a'
    induction l with
    | nil => rw [List.map_nil, List.map_nil, List.sum_nil, List.sum_nil, zero_nsmul]
    | cons p l ih => rw [List.map_cons, List.map_cons, List.sum_cons, List.sum_cons, add_nsmul, ih]
  rw [e] at a a'
  obtain ⟨_, sig, h1, h2⟩ := isSig1_read a
  obtain ⟨_, pub, h3, h4⟩ := isKey1_read a'
  refine ⟨sig, pub, h1, h3, (G1Pubs.verify_spec hm (G1Projective.denotes_iff.mp h4) (fun z => h0 ?_)
    (G2Projective.denotes_iff.mp h2) a.1).1.mpr rfl⟩
  have := addOrderOf_dvd_of_nsmul_eq_zero z
  rwa [addOrderOf_g1Gen] at this

/-! ## g2pubs -/

/-- The bytes of signatures and keys with a given point. -/
private def isSig2 (b : List UInt8) (S : E1) : Prop :=
  r • S = 0 ∧ ∃ s : G2Pubs.Signature, s.s.Denotes S ∧ b = s.serialize

private def isKey2 (b : List UInt8) (P : E2) : Prop :=
  r • P = 0 ∧ ∃ p : G2Pubs.PublicKey, p.p.Denotes P ∧ b = p.serialize

private theorem isSig2_fn {b b' : List UInt8} {S : E1} (h : isSig2 b S) (h' : isSig2 b' S) : b = b' := by
  obtain ⟨_, s, hs, rfl⟩ := h
  obtain ⟨_, s', hs', rfl⟩ := h'
  rw [G2Pubs.Signature.serialize, G2Pubs.Signature.serialize, (G1Projective.denotes_iff.mp hs).toAffine.inj
    (G1Projective.denotes_iff.mp hs').toAffine]

private theorem isKey2_fn {b b' : List UInt8} {P : E2} (h : isKey2 b P) (h' : isKey2 b' P) : b = b' := by
  obtain ⟨_, s, hs, rfl⟩ := h
  obtain ⟨_, s', hs', rfl⟩ := h'
  rw [G2Pubs.PublicKey.serialize, G2Pubs.PublicKey.serialize, (G2Projective.denotes_iff.mp hs).toAffine.inj
    (G2Projective.denotes_iff.mp hs').toAffine]

private theorem isSig2_read {b : List UInt8} {S : E1} (h : isSig2 b S) :
    b.length = 48 ∧ ∃ s, G2Pubs.deserializeSignature b = some s ∧ s.s.Denotes S := by
  obtain ⟨hr, s, hs, rfl⟩ := h
  exact C25_signature_g2pubs s S hs hr

private theorem isKey2_read {b : List UInt8} {P : E2} (h : isKey2 b P) :
    b.length = 96 ∧ ∃ p, G2Pubs.deserializePublicKey b = some p ∧ p.p.Denotes P := by
  obtain ⟨hr, s, hs, rfl⟩ := h
  exact C25_publicKey_g2pubs s P hs hr

private theorem sigs2 {sha : List UInt8 → List UInt8} {H : List UInt8 → E1} {l : List Signer} {b : List UInt8}
    (hl : ∀ p ∈ l, p.key.length = 32 ∧ beNat p.key < r ∧ G2Pubs.HashesTo sha p.msg (H p.msg))
    (h : G2Pubs.CollectedSignatures sha l b) : isSig2 b (l.map fun p => beNat p.key • H p.msg).sum := by
  refine collected_sum (fun p b hb hp => ?_) (fun l hl => ?_) h hl
  · obtain ⟨s, hs, rfl⟩ := hb
    obtain ⟨hk, _⟩ := (C13_deserialize_g2pubs p.key hp.1).2.1 hp.2.1
    obtain ⟨s', h3, h4⟩ := hk.sign hp.2.2
    rw [hs, Option.some.injEq] at h3
    subst h3
    obtain ⟨_, _, _, _, hH⟩ := id hp.2.2
    exact ⟨G1Pubs.torsion_nsmul hH _, s, G1Projective.denotes_iff.mpr h4, rfl⟩
  · refine ⟨torsion_sum fun S hS => ?_, _, C29_signatures_g2pubs (l.map Prod.fst) (l.map Prod.snd) (forall₂_maps fun x hx => ?_), rfl⟩
    · obtain ⟨x, hx, rfl⟩ := List.mem_map.mp hS
      obtain ⟨b, _, h2⟩ := hl x hx
      exact h2.1
    · obtain ⟨b, h1, h2⟩ := hl x hx
      obtain ⟨_, s, h3, h4⟩ := isSig2_read h2
      rw [h1, Option.some.injEq] at h3
      exact h3 ▸ h4

private theorem keys2 {l : List Signer} {b : List UInt8} (hl : ∀ p ∈ l, p.key.length = 32 ∧ beNat p.key < r)
    (h : G2Pubs.CollectedKeys l b) : isKey2 b (l.map fun p => beNat p.key • g2Gen).sum := by
  refine collected_sum (fun p b hb hp => ?_) (fun l hl => ?_) h hl
  · obtain ⟨s, hs, rfl⟩ := hb
    obtain ⟨hk, _⟩ := (C13_deserialize_g2pubs p.key hp.1).2.1 hp.2
    obtain ⟨s', h3, h4⟩ := hk.toPub
    rw [hs, Option.some.injEq] at h3
    subst h3
    exact ⟨G1Pubs.torsion_nsmul r_smul_g2Gen _, s, G2Projective.denotes_iff.mpr h4, rfl⟩
  · refine ⟨torsion_sum fun S hS => ?_, _, C29_publicKeys_g2pubs (l.map Prod.fst) (l.map Prod.snd) (forall₂_maps fun x hx => ?_), rfl⟩
    · obtain ⟨x, hx, rfl⟩ := List.mem_map.mp hS
      obtain ⟨b, _, h2⟩ := hl x hx
      exact h2.1
    · obtain ⟨b, h1, h2⟩ := hl x hx
      obtain ⟨_, s, h3, h4⟩ := isKey2_read h2
      rw [h1, Option.some.injEq] at h3
      exact h3 ▸ h4

/-- No string in the network is refused: signers can sign, and whatever strings reach an aggregator, it can read them
all and sends a string in turn. -/
theorem C70_progress_g2pubs (sha : List UInt8 → List UInt8) (H : List UInt8 → E1) (l : List Signer)
    (hl : ∀ p ∈ l, p.key.length = 32 ∧ beNat p.key < r ∧ G2Pubs.HashesTo sha p.msg (H p.msg)) :
    (∀ p ∈ l, (∃ b, G2Pubs.SendsSignature sha p b) ∧ ∃ b, G2Pubs.SendsKey p b) ∧
    ∀ ins : List (List Signer × List UInt8), (ins.map Prod.fst).flatten.Perm l →
      ((∀ i ∈ ins, G2Pubs.CollectedSignatures sha i.1 i.2) →
        ∃ xs, List.Forall₂ (fun i x => G2Pubs.deserializeSignature i.2 = some x) ins xs ∧
          G2Pubs.CollectedSignatures sha (ins.map Prod.fst).flatten (G2Pubs.aggregateSignatures xs).serialize) ∧
      ((∀ i ∈ ins, G2Pubs.CollectedKeys i.1 i.2) →
        ∃ xs, List.Forall₂ (fun i x => G2Pubs.deserializePublicKey i.2 = some x) ins xs ∧
          G2Pubs.CollectedKeys (ins.map Prod.fst).flatten (G2Pubs.aggregatePublicKeys xs).serialize) := by
  refine ⟨fun p hp => ?_, fun ins hins => ?_⟩
  · obtain ⟨h1, h2, h3⟩ := hl p hp
    obtain ⟨hk, _⟩ := (C13_deserialize_g2pubs p.key h1).2.1 h2
    obtain ⟨s, h3, _⟩ := hk.sign h3
    obtain ⟨k, h4, _⟩ := hk.toPub
    exact ⟨⟨_, s, h3, rfl⟩, _, k, h4, rfl⟩
  · have mem : ∀ i ∈ ins, ∀ p ∈ i.1, p ∈ l := fun i hi p hp =>
      hins.subset (List.mem_flatten.mpr ⟨i.1, List.mem_map_of_mem hi, hp⟩)
    constructor
    · intro hc
      obtain ⟨xs, hx⟩ := forall₂_of_forall (R := fun i x => G2Pubs.deserializeSignature i.2 = some x) (l := ins)
        fun i hi => by
          obtain ⟨_, s, hs, _⟩ := isSig2_read (sigs2 (fun p hp => hl p (mem i hi p hp)) (hc i hi))
          exact ⟨s, hs⟩
      exact ⟨xs, hx, .gathered ins xs hc hx⟩
    · intro hc
      obtain ⟨xs, hx⟩ := forall₂_of_forall (R := fun i x => G2Pubs.deserializePublicKey i.2 = some x) (l := ins)
        fun i hi => by
          obtain ⟨_, s, hs, _⟩ := isKey2_read (keys2 (fun p hp => ⟨(hl p (mem i hi p hp)).1,
            (hl p (mem i hi p hp)).2.1⟩) (hc i hi))
          exact ⟨s, hs⟩
      exact ⟨xs, hx, .gathered ins xs hc hx⟩

/-- The shape of the network does not matter: strings collected from the same signers are the same byte for byte. -/
theorem C70_agree_g2pubs (sha : List UInt8 → List UInt8) (H : List UInt8 → E1) (l l' : List Signer) (hp : l.Perm l')
    (hl : ∀ p ∈ l, p.key.length = 32 ∧ beNat p.key < r ∧ G2Pubs.HashesTo sha p.msg (H p.msg)) (b b' : List UInt8) :
    (G2Pubs.CollectedSignatures sha l b → G2Pubs.CollectedSignatures sha l' b' → b = b' ∧ b.length = 48) ∧
    (G2Pubs.CollectedKeys l b → G2Pubs.CollectedKeys l' b' → b = b' ∧ b.length = 96) := by
  constructor
  · intro h h'
    have a := sigs2 hl h
    have a' := sigs2 (fun p m => hl p (hp.symm.subset m)) h'
    rw [← (hp.map _).sum_eq] at a'
    exact ⟨isSig2_fn a a', (isSig2_read a).1⟩
  · intro h h'
    have a := keys2 (fun p m => ⟨(hl p m).1, (hl p m).2.1⟩) h
    have a' := keys2 (fun p m => ⟨(hl p (hp.symm.subset m)).1, (hl p (hp.symm.subset m)).2.1⟩) h'
    rw [← (hp.map _).sum_eq] at a'
    exact ⟨isKey2_fn a a', (isKey2_read a).1⟩

/-- What a network has collected from signers of pairwise different non-empty messages is accepted by
`VerifyAggregate` for the keys they sent, listed in any order, unless the signatures add up to infinity. -/
theorem C70_verify_g2pubs (sha : List UInt8 → List UInt8) (H : List UInt8 → E1) (l l' : List Signer) (hp : l.Perm l')
    (hl : ∀ p ∈ l, p.key.length = 32 ∧ 0 < beNat p.key ∧ beNat p.key < r ∧ G2Pubs.HashesTo sha p.msg (H p.msg))
    (hn : (l.map Signer.msg).Nodup) (he : [] ∉ l.map Signer.msg)
    (hS : (l.map fun p => beNat p.key • H p.msg).sum ≠ 0)
    (b : List UInt8) (hb : G2Pubs.CollectedSignatures sha l b)
    (bs : List (List UInt8)) (hbs : List.Forall₂ G2Pubs.SendsKey l' bs) :
    ∃ sig pubs, G2Pubs.deserializeSignature b = some sig ∧
      List.Forall₂ (fun c p => G2Pubs.deserializePublicKey c = some p) bs pubs ∧
      sig.verifyAggregate sha pubs (l'.map Signer.msg) = some true := by
  obtain ⟨_, sig, hsig, hd⟩ := isSig2_read (sigs2 (fun p m => ⟨(hl p m).1, (hl p m).2.2⟩) hb)
  have hr := (sigs2 (fun p m => ⟨(hl p m).1, (hl p m).2.2⟩) hb).1
  have hl' : ∀ p ∈ l', p.key.length = 32 ∧ 0 < beNat p.key ∧ beNat p.key < r ∧ G2Pubs.HashesTo sha p.msg (H p.msg) :=
    fun p m => hl p (hp.symm.subset m)
  have key : ∃ batch : List (G2Pubs.PublicKey × List UInt8 × ℕ × E1),
      List.Forall₂ (fun c p => G2Pubs.deserializePublicKey c = some p) bs (batch.map fun b => b.1) ∧
      batch.map (fun b => b.2.1) = l'.map Signer.msg ∧
      batch.map (fun b => b.2.2.1 • b.2.2.2) = l'.map (fun p => beNat p.key • H p.msg) ∧
      ∀ b ∈ batch, b.1.p.Denotes (b.2.2.1 • g2Gen) ∧ ¬ r ∣ b.2.2.1 ∧ G2Pubs.HashesTo sha b.2.1 b.2.2.2 := by
    clear hp
    induction hbs with
    | nil => exact ⟨[], .nil, rfl, rfl, fun _ h => absurd h List.not_mem_nil⟩
    | @cons p c l' bs hc _ ih =>
      obtain ⟨batch, i1, i2, i3, i4⟩ := ih fun p m => hl' p (List.mem_cons_of_mem _ m)
      obtain ⟨a1, a2, a3, a4⟩ := hl' p List.mem_cons_self
      have hk := keys2 (l := [p]) (b := c) (fun x m => by rw [List.mem_singleton] at m; subst m; exact ⟨a1, a3⟩)
        (.sent p c hc)
      obtain ⟨_, pub, h1, h2⟩ := isKey2_read hk
      rw [List.map_singleton, List.sum_singleton] at h2
      refine ⟨(pub, p.msg, beNat p.key, H p.msg) :: batch, .cons h1 i1, ?_, ?_, ?_⟩
      · rw [List.map_cons, List.map_cons, i2]
      · rw [List.map_cons, List.map_cons, i3]
      · intro b hb
        rcases List.mem_cons.mp hb with rfl | hb
        · exact ⟨h2, fun h => absurd (Nat.le_of_dvd a2 h) (by omega), a4⟩
        · exact i4 b hb
  obtain ⟨batch, i1, i2, i3, i4⟩ := key
  obtain ⟨c, h1, h2⟩ := C39_exact_g2pubs sha batch i4 (by rw [i2]; exact (hp.map _).nodup_iff.mp hn)
    (by rw [i2]; exact fun h => he ((hp.map _).symm.subset h)) sig _ hd hr hS
  rw [i2] at h1
  rw [i3, (hp.map _).sum_eq] at h2
  exact ⟨sig, _, hsig, i1, by rw [h1, h2.mpr rfl]⟩

/-- One message: the signature and the aggregate key may be collected along different ways. `Verify` accepts the pair
unless the secret keys add up to 0 modulo r. -/
theorem C70_common_g2pubs (sha : List UInt8 → List UInt8) (H : E1) (m : List UInt8) (hm : G2Pubs.HashesTo sha m H)
    (l l' : List Signer) (hp : l.Perm l')
    (hl : ∀ p ∈ l, p.key.length = 32 ∧ beNat p.key < r ∧ p.msg = m) (h0 : ¬ r ∣ (l.map fun p => beNat p.key).sum)
    (b c : List UInt8) (hb : G2Pubs.CollectedSignatures sha l b) (hc : G2Pubs.CollectedKeys l' c) :
    ∃ sig pub, G2Pubs.deserializeSignature b = some sig ∧ G2Pubs.deserializePublicKey c = some pub ∧
      G2Pubs.verify sha m pub sig = some true := by
  have a := sigs2 (H := fun _ => H) (fun p h => ⟨(hl p h).1, (hl p h).2.1, (hl p h).2.2 ▸ hm⟩) hb
  have a' := keys2 (fun p h => ⟨(hl p (hp.symm.subset h)).1, (hl p (hp.symm.subset h)).2.1⟩) hc
  rw [← (hp.map _).sum_eq] at a'
  have e : ∀ {A : Type} [AddCommMonoid A] (X : A), (l.map fun p => beNat p.key • X).sum =
      (l.map fun p => beNat p.key).sum • X := by
    intro A _ X
    clear hl hp h0 hb hc a a'
    induction l with
    | nil => rw [List.map_nil, List.map_nil, List.sum_nil, List.sum_nil, zero_nsmul]
    | cons p l ih => rw [List.map_cons, List.map_cons, List.sum_cons, List.sum_cons, add_nsmul, ih]
  rw [e] at a a'
  obtain ⟨_, sig, h1, h2⟩ := isSig2_read a
  obtain ⟨_, pub, h3, h4⟩ := isKey2_read a'
  refine ⟨sig, pub, h1, h3, (G2Pubs.verify_spec hm (G2Projective.denotes_iff.mp h4) (fun z => h0 ?_)
    (G1Projective.denotes_iff.mp h2) a.1).1.mpr rfl⟩
  have := addOrderOf_dvd_of_nsmul_eq_zero z
  rwa [addOrderOf_g2Gen] at this

/-! ## One aggregate string -/

private theorem exact_sum_g2pubs (sha : List UInt8 → List UInt8)
    (batch : List (List UInt8 × G2Pubs.PublicKey × List UInt8 × E1))
    (h : ∀ x ∈ batch, x.1.length = 96 ∧ G2Pubs.deserializePublicKey x.1 = some x.2.1 ∧
      G2Pubs.HashesTo sha x.2.2.1 x.2.2.2) :
    ∃ T : E1, ∀ (sig : G2Pubs.Signature) (S : E1), sig.s.Denotes S → r • S = 0 →
      sig.verifyAggregate sha (batch.map fun x => x.2.1) (batch.map fun x => x.2.2.1) = some true → S = T ∧ S ≠ 0 := by
  have key : ∃ e : List (G2Pubs.PublicKey × List UInt8 × ℕ × E1),
      (e.map fun b => b.1) = (batch.map fun x => x.2.1) ∧ (e.map fun b => b.2.1) = (batch.map fun x => x.2.2.1) ∧
      ∀ b ∈ e, b.1.p.Denotes (b.2.2.1 • g2Gen) ∧ G2Pubs.HashesTo sha b.2.1 b.2.2.2 := by
    induction batch with
    | nil => exact ⟨[], rfl, rfl, fun _ h => absurd h List.not_mem_nil⟩
    | cons x l ih =>
      obtain ⟨e, e1, e2, e3⟩ := ih fun y m => h y (List.mem_cons_of_mem _ m)
      obtain ⟨h1, h2, h3⟩ := h x List.mem_cons_self
      obtain ⟨k, _, hk⟩ := C26_publicKey_g2pubs x.1 h1 x.2.1 h2
      refine ⟨(x.2.1, x.2.2.1, k, x.2.2.2) :: e, ?_, ?_, ?_⟩
      · rw [List.map_cons, List.map_cons, e1]
      · rw [List.map_cons, List.map_cons, e2]
      · intro b hb
        rcases List.mem_cons.mp hb with rfl | hb
        · exact ⟨hk, h3⟩
        · exact e3 b hb
  obtain ⟨e, e1, e2, e3⟩ := key
  refine ⟨(e.map fun b => b.2.2.1 • b.2.2.2).sum, fun sig S hs hr hv => ?_⟩
  rw [← e1, ← e2] at hv
  have hn : (e.map fun b => b.2.1).Nodup := by
    by_contra hn
    rw [C38_guards_g2pubs _ _ _ _ (.inr hn)] at hv
    cases hv
  have he : [] ∉ e.map fun b => b.2.1 := by
    intro he
    rw [C38_empty_g2pubs_false.1 _ _ _ _ he] at hv
    cases hv
  have c64 := C64_aggregate_g2pubs sha (e.map fun b => (b.1, b.2.1, b.2.2.1 • g2Gen, b.2.2.2)) (by
    intro b hb
    obtain ⟨x, hx, rfl⟩ := List.mem_map.mp hb
    obtain ⟨h1, h, hh, hd, _⟩ := e3 x hx
    exact ⟨h1, h, hh, hd⟩) sig S hs
  simp only [List.map_map, Function.comp_def] at c64
  have hnz := mt c64.mpr (by rw [hv]; exact Option.some_ne_none _)
  rw [not_and, not_and, not_or] at hnz
  obtain ⟨hS, hk⟩ := hnz hn he
  refine ⟨?_, hS⟩
  obtain ⟨c, h1, h2⟩ := C39_exact_g2pubs sha e (fun b hb => ⟨(e3 b hb).1, fun hd => hk ⟨_, List.mem_map_of_mem hb, .inr (by
    obtain ⟨t, ht⟩ := hd
    show 13 • b.2.2.1 • g2Gen = 0
    rw [ht, mul_nsmul, r_smul_g2Gen, nsmul_zero, nsmul_zero])⟩, (e3 b hb).2⟩) hn he sig S hs hr hS
  rw [hv, Option.some.injEq] at h1
  exact h2.mp h1.symm

/-- For g2pubs there is at most one signature string for a list of keys and messages: two strings of 48 bytes that
are read and then accepted by `VerifyAggregate` are the same. -/
theorem C70_unique_g2pubs (sha : List UInt8 → List UInt8)
    (batch : List (List UInt8 × G2Pubs.PublicKey × List UInt8 × E1))
    (h : ∀ x ∈ batch, x.1.length = 96 ∧ G2Pubs.deserializePublicKey x.1 = some x.2.1 ∧
      G2Pubs.HashesTo sha x.2.2.1 x.2.2.2)
    (b b' : List UInt8) (hb : b.length = 48) (hb' : b'.length = 48) (sig sig' : G2Pubs.Signature)
    (hs : G2Pubs.deserializeSignature b = some sig) (hs' : G2Pubs.deserializeSignature b' = some sig')
    (hv : sig.verifyAggregate sha (batch.map fun x => x.2.1) (batch.map fun x => x.2.2.1) = some true)
    (hv' : sig'.verifyAggregate sha (batch.map fun x => x.2.1) (batch.map fun x => x.2.2.1) = some true) : b = b' := by
  obtain ⟨T, hT⟩ := exact_sum_g2pubs sha batch h
  have key : ∀ (b : List UInt8) (g : G2Pubs.Signature), b.length = 48 → G2Pubs.deserializeSignature b = some g →
      g.verifyAggregate sha (batch.map fun x => x.2.1) (batch.map fun x => x.2.2.1) = some true →
      ∃ a : G1Affine, a.Rep T ∧ a.compress = b := by
    intro b g hl hg hv
    obtain ⟨a, ha, rfl⟩ := Option.map_eq_some_iff.mp hg
    obtain ⟨S, hS, hr⟩ := (C26_g1 b hl a).2 ha
    have hS := G1Affine.denotes_iff.mp hS
    obtain ⟨rfl, _⟩ := hT ⟨a.toProjective⟩ S (G1Projective.denotes_iff.mpr hS.toProjective) hr hv
    exact ⟨a, hS, C27_g1 b hl a ha⟩
  obtain ⟨a, ha, rfl⟩ := key b sig hb hs hv
  obtain ⟨a', ha', rfl⟩ := key b' sig' hb' hs' hv'
  rw [ha.inj ha']

private theorem exact_sum_g1pubs (sha : List UInt8 → List UInt8)
    (batch : List (List UInt8 × G1Pubs.PublicKey × List UInt8 × E2))
    (h : ∀ x ∈ batch, x.1.length = 48 ∧ G1Pubs.deserializePublicKey x.1 = some x.2.1 ∧
      G1Pubs.HashesTo sha x.2.2.1 x.2.2.2) :
    ∃ T : E2, ∀ (sig : G1Pubs.Signature) (S : E2), sig.s.Denotes S → r • S = 0 →
      sig.verifyAggregate sha (batch.map fun x => x.2.1) (batch.map fun x => x.2.2.1) = some true → S = T ∧ S ≠ 0 := by
  have key : ∃ e : List (G1Pubs.PublicKey × List UInt8 × ℕ × E2),
      (e.map fun b => b.1) = (batch.map fun x => x.2.1) ∧ (e.map fun b => b.2.1) = (batch.map fun x => x.2.2.1) ∧
      ∀ b ∈ e, b.1.p.Denotes (b.2.2.1 • g1Gen) ∧ G1Pubs.HashesTo sha b.2.1 b.2.2.2 := by
    induction batch with
    | nil => exact ⟨[], rfl, rfl, fun _ h => absurd h List.not_mem_nil⟩
    | cons x l ih =>
      obtain ⟨e, e1, e2, e3⟩ := ih fun y m => h y (List.mem_cons_of_mem _ m)
      obtain ⟨h1, h2, h3⟩ := h x List.mem_cons_self
      obtain ⟨k, _, hk⟩ := C26_publicKey_g1pubs x.1 h1 x.2.1 h2
      refine ⟨(x.2.1, x.2.2.1, k, x.2.2.2) :: e, ?_, ?_, ?_⟩
      · rw [List.map_cons, List.map_cons, e1]
      · rw [List.map_cons, List.map_cons, e2]
      · intro b hb
        rcases List.mem_cons.mp hb with rfl | hb
        · exact ⟨hk, h3⟩
        · exact e3 b hb
  obtain ⟨e, e1, e2, e3⟩ := key
  refine ⟨(e.map fun b => b.2.2.1 • b.2.2.2).sum, fun sig S hs hr hv => ?_⟩
  rw [← e1, ← e2] at hv
  have hn : (e.map fun b => b.2.1).Nodup := by
    by_contra hn
    rw [C38_guards_g1pubs _ _ _ _ (.inr hn)] at hv
    cases hv
  have he : [] ∉ e.map fun b => b.2.1 := by
    intro he
    rw [C38_empty_g1pubs_false.1 _ _ _ _ he] at hv
    cases hv
  have c64 := C64_aggregate_g1pubs sha (e.map fun b => (b.1, b.2.1, b.2.2.1 • g1Gen, b.2.2.2)) (by
    intro b hb
    obtain ⟨x, hx, rfl⟩ := List.mem_map.mp hb
    obtain ⟨h1, h, hh, hd, _, hH⟩ := e3 x hx
    exact ⟨h1, ⟨h, hh, hd⟩, hH⟩) sig S hs
  rw [thirteen_of_r hr] at c64
  simp only [List.map_map, Function.comp_def] at c64
  have hnz := mt c64.mpr (by rw [hv]; exact Option.some_ne_none _)
  rw [not_and, not_and, not_or] at hnz
  obtain ⟨hS, hk⟩ := hnz hn he
  refine ⟨?_, hS⟩
  obtain ⟨c, h1, h2⟩ := C39_exact_g1pubs sha e (fun b hb => ⟨(e3 b hb).1, fun hd => hk ⟨_, List.mem_map_of_mem hb, .inl (by
    obtain ⟨t, ht⟩ := hd
    show b.2.2.1 • g1Gen = 0
    rw [ht, mul_nsmul, r_smul_g1Gen, nsmul_zero])⟩, (e3 b hb).2⟩) hn he sig S hs hr hS
  rw [hv, Option.some.injEq] at h1
  exact h2.mp h1.symm

/-- For g1pubs the same, for signatures whose x coordinate has no zero coefficient (C27_g2_exact). -/
theorem C70_unique_g1pubs (sha : List UInt8 → List UInt8)
    (batch : List (List UInt8 × G1Pubs.PublicKey × List UInt8 × E2))
    (h : ∀ x ∈ batch, x.1.length = 48 ∧ G1Pubs.deserializePublicKey x.1 = some x.2.1 ∧
      G1Pubs.HashesTo sha x.2.2.1 x.2.2.2)
    (b b' : List UInt8) (hb : b.length = 96) (hb' : b'.length = 96) (sig sig' : G1Pubs.Signature)
    (hs : G1Pubs.deserializeSignature b = some sig) (hs' : G1Pubs.deserializeSignature b' = some sig')
    (hv : sig.verifyAggregate sha (batch.map fun x => x.2.1) (batch.map fun x => x.2.2.1) = some true)
    (hv' : sig'.verifyAggregate sha (batch.map fun x => x.2.1) (batch.map fun x => x.2.2.1) = some true)
    (hx : ∀ (S : E2) (x y : Fq2), sig.s.Denotes S → IsAt S x y → x.c0 ≠ 0 ∧ x.c1 ≠ 0) : b = b' := by
  obtain ⟨T, hT⟩ := exact_sum_g1pubs sha batch h
  obtain ⟨S, hS, hSr⟩ := C26_signature_g1pubs b hb sig hs
  obtain ⟨rfl, hS0⟩ := hT sig S hS hSr hv
  have key : ∀ (b : List UInt8) (g : G1Pubs.Signature), b.length = 96 → G1Pubs.deserializeSignature b = some g →
      g.verifyAggregate sha (batch.map fun x => x.2.1) (batch.map fun x => x.2.2.1) = some true →
      ∃ a : G2Affine, a.Rep S ∧ a.compress = b := by
    intro b g hl hg hv
    obtain ⟨a, ha, rfl⟩ := Option.map_eq_some_iff.mp hg
    obtain ⟨S', hS', hr⟩ := (C26_g2 b hl a).2 ha
    have hS'' := G2Affine.denotes_iff.mp hS'
    obtain ⟨rfl, _⟩ := hT ⟨a.toProjective⟩ S' (G2Projective.denotes_iff.mpr hS''.toProjective) hr hv
    refine ⟨a, hS'', ?_⟩
    rcases id hS'' with ⟨_, rfl⟩ | ⟨_, x, y, _, _, hP⟩
    · exact absurd rfl hS0
    · exact C27_g2_point b hl a ha x y _ hS' hP (hx _ x y hS hP)
  obtain ⟨a, ha, rfl⟩ := key b sig hb hs hv
  obtain ⟨a', ha', rfl⟩ := key b' sig' hb' hs' hv'
  rw [ha.inj ha']

/-! ## The hypotheses can be met -/

/-- Two signers with different messages, whose signatures go through one aggregator each and then through a third:
all hypotheses of C70_verify_g1pubs hold. -/
theorem C70_case_g1pubs : ∃ (sha : List UInt8 → List UInt8) (H : List UInt8 → E2) (l : List Signer) (b : List UInt8),
    l.length = 2 ∧
    (∀ p ∈ l, p.key.length = 32 ∧ 0 < beNat p.key ∧ beNat p.key < r ∧ G1Pubs.HashesTo sha p.msg (H p.msg)) ∧
    (l.map Signer.msg).Nodup ∧ [] ∉ l.map Signer.msg ∧ (l.map fun p => beNat p.key • H p.msg).sum ≠ 0 ∧
    (∃ bs, List.Forall₂ G1Pubs.SendsKey l bs) ∧ G1Pubs.CollectedSignatures sha l b := by
  obtain ⟨H, hH⟩ := Cases.case2
  obtain ⟨_, _, _, H0, Hr⟩ := id (hH [])
  let k : List UInt8 := List.replicate 32 1
  have hk : k.length = 32 ∧ 0 < beNat k ∧ beNat k < r ∧ 2 * beNat k ≠ 0 ∧ 2 * beNat k < r := by
    rw [r_eq]; decide +kernel
  have ok : ∀ p ∈ [Signer.mk k [1], Signer.mk k [2]], p.key.length = 32 ∧ 0 < beNat p.key ∧ beNat p.key < r ∧
      G1Pubs.HashesTo Cases.sha2 p.msg H :=
    forall_pair ⟨hk.1, hk.2.1, hk.2.2.1, hH _⟩ ⟨hk.1, hk.2.1, hk.2.2.1, hH _⟩
  have ok' := fun p h => And.intro (ok p h).1 (ok p h).2.2
  obtain ⟨sends, gather⟩ := C70_progress_g1pubs Cases.sha2 (fun _ => H) _ ok'
  obtain ⟨⟨b₁, h₁⟩, c₁, d₁⟩ := sends ⟨k, [1]⟩ (by simp)
  obtain ⟨⟨b₂, h₂⟩, c₂, d₂⟩ := sends ⟨k, [2]⟩ (by simp)
  obtain ⟨x₁, _, e₁⟩ := ((C70_progress_g1pubs Cases.sha2 (fun _ => H) [⟨k, [1]⟩]
    (fun p h => ok' p (by rw [List.mem_singleton] at h; subst h; simp))).2 [([⟨k, [1]⟩], b₁)] (by simp)).1
    (fun i hi => by rw [List.mem_singleton] at hi; subst hi; exact .sent _ _ h₁)
  obtain ⟨x₂, _, e₂⟩ := ((C70_progress_g1pubs Cases.sha2 (fun _ => H) [⟨k, [2]⟩]
    (fun p h => ok' p (by rw [List.mem_singleton] at h; subst h; simp))).2 [([⟨k, [2]⟩], b₂)] (by simp)).1
    (fun i hi => by rw [List.mem_singleton] at hi; subst hi; exact .sent _ _ h₂)
  obtain ⟨x, _, e⟩ := (gather [([⟨k, [1]⟩], _), ([⟨k, [2]⟩], _)] (by simp)).1 (forall_pair e₁ e₂)
  refine ⟨_, fun _ => H, _, _, rfl, ok, by simp, by simp, ?_, ⟨_, .cons d₁ (.cons d₂ .nil)⟩, e⟩
  have s : ([Signer.mk k [1], Signer.mk k [2]].map fun p => beNat p.key • H).sum = (2 * beNat k) • H := by
    simp [two_mul, add_nsmul]
  rw [s]
  exact G1Pubs.nsmul_ne_of_lt H0 Hr hk.2.2.2.1 hk.2.2.2.2

/-- Two signers with different messages, whose signatures go through one aggregator each and then through a third:
all hypotheses of C70_verify_g2pubs hold. -/
theorem C70_case_g2pubs : ∃ (sha : List UInt8 → List UInt8) (H : List UInt8 → E1) (l : List Signer) (b : List UInt8),
    l.length = 2 ∧
    (∀ p ∈ l, p.key.length = 32 ∧ 0 < beNat p.key ∧ beNat p.key < r ∧ G2Pubs.HashesTo sha p.msg (H p.msg)) ∧
    (l.map Signer.msg).Nodup ∧ [] ∉ l.map Signer.msg ∧ (l.map fun p => beNat p.key • H p.msg).sum ≠ 0 ∧
    (∃ bs, List.Forall₂ G2Pubs.SendsKey l bs) ∧ G2Pubs.CollectedSignatures sha l b := by
  obtain ⟨H, hH⟩ := Cases.case1
  obtain ⟨_, _, _, H0, Hr⟩ := id (hH [])
  let k : List UInt8 := List.replicate 32 1
  have hk : k.length = 32 ∧ 0 < beNat k ∧ beNat k < r ∧ 2 * beNat k ≠ 0 ∧ 2 * beNat k < r := by
    rw [r_eq]; decide +kernel
  have ok : ∀ p ∈ [Signer.mk k [1], Signer.mk k [2]], p.key.length = 32 ∧ 0 < beNat p.key ∧ beNat p.key < r ∧
      G2Pubs.HashesTo Cases.sha1 p.msg H :=
    forall_pair ⟨hk.1, hk.2.1, hk.2.2.1, hH _⟩ ⟨hk.1, hk.2.1, hk.2.2.1, hH _⟩
  have ok' := fun p h => And.intro (ok p h).1 (ok p h).2.2
  obtain ⟨sends, gather⟩ := C70_progress_g2pubs Cases.sha1 (fun _ => H) _ ok'
  obtain ⟨⟨b₁, h₁⟩, c₁, d₁⟩ := sends ⟨k, [1]⟩ (by simp)
  obtain ⟨⟨b₂, h₂⟩, c₂, d₂⟩ := sends ⟨k, [2]⟩ (by simp)
  obtain ⟨x₁, _, e₁⟩ := ((C70_progress_g2pubs Cases.sha1 (fun _ => H) [⟨k, [1]⟩]
    (fun p h => ok' p (by rw [List.mem_singleton] at h; subst h; simp))).2 [([⟨k, [1]⟩], b₁)] (by simp)).1
    (fun i hi => by rw [List.mem_singleton] at hi; subst hi; exact .sent _ _ h₁)
  obtain ⟨x₂, _, e₂⟩ := ((C70_progress_g2pubs Cases.sha1 (fun _ => H) [⟨k, [2]⟩]
    (fun p h => ok' p (by rw [List.mem_singleton] at h; subst h; simp))).2 [([⟨k, [2]⟩], b₂)] (by simp)).1
    (fun i hi => by rw [List.mem_singleton] at hi; subst hi; exact .sent _ _ h₂)
  obtain ⟨x, _, e⟩ := (gather [([⟨k, [1]⟩], _), ([⟨k, [2]⟩], _)] (by simp)).1 (forall_pair e₁ e₂)
  refine ⟨_, fun _ => H, _, _, rfl, ok, by simp, by simp, ?_, ⟨_, .cons d₁ (.cons d₂ .nil)⟩, e⟩
  have s : ([Signer.mk k [1], Signer.mk k [2]].map fun p => beNat p.key • H).sum = (2 * beNat k) • H := by
    simp [two_mul, add_nsmul]
  rw [s]
  exact G1Pubs.nsmul_ne_of_lt H0 Hr hk.2.2.2.1 hk.2.2.2.2

/-- And so do those of C70_unique_g1pubs but the condition on the coordinates. -/
example : ∃ (sha : List UInt8 → List UInt8) (batch : List (List UInt8 × G1Pubs.PublicKey × List UInt8 × E2)) (b : List UInt8)
    (sig : G1Pubs.Signature), batch.length = 2 ∧ (∀ x ∈ batch, x.1.length = 48 ∧
      G1Pubs.deserializePublicKey x.1 = some x.2.1 ∧ G1Pubs.HashesTo sha x.2.2.1 x.2.2.2) ∧
    b.length = 96 ∧ G1Pubs.deserializeSignature b = some sig ∧
    sig.verifyAggregate sha (batch.map fun x => x.2.1) (batch.map fun x => x.2.2.1) = some true := by
  obtain ⟨sha, H, l, b, hl, ok, hn, he, hS, ⟨bs, hbs⟩, hb⟩ := C70_case_g1pubs
  obtain ⟨sig, pubs, h1, h2, h3⟩ := C70_verify_g1pubs sha H l l (.refl _) ok hn he hS b hb bs hbs
  have h4 := ((C70_agree_g1pubs sha H l l (.refl _) (fun p m => ⟨(ok p m).1, (ok p m).2.2⟩) b b).1 hb hb).2
  have len : ∀ p ∈ l, ∀ c, G1Pubs.SendsKey p c → c.length = 48 := fun p m c hc =>
    ((C70_agree_g1pubs sha H [p] [p] (.refl _) (fun x mx => by
      rw [List.mem_singleton] at mx; subst mx; exact ⟨(ok x m).1, (ok x m).2.2⟩) c c).2 (.sent p c hc) (.sent p c hc)).2
  match l, hl, bs, hbs, pubs, h2 with
  | [p₁, p₂], _, [c₁, c₂], .cons a₁ (.cons a₂ .nil), [k₁, k₂], .cons e₁ (.cons e₂ .nil) =>
    exact ⟨sha, [(c₁, k₁, p₁.msg, H p₁.msg), (c₂, k₂, p₂.msg, H p₂.msg)], b, sig, rfl,
      forall_pair ⟨len p₁ (by simp) c₁ a₁, e₁, (ok p₁ (by simp)).2.2.2⟩ ⟨len p₂ (by simp) c₂ a₂, e₂, (ok p₂ (by simp)).2.2.2⟩,
      h4, h1, h3⟩

/-- And so do those of C70_unique_g2pubs. -/
example : ∃ (sha : List UInt8 → List UInt8) (batch : List (List UInt8 × G2Pubs.PublicKey × List UInt8 × E1)) (b : List UInt8)
    (sig : G2Pubs.Signature), batch.length = 2 ∧ (∀ x ∈ batch, x.1.length = 96 ∧
      G2Pubs.deserializePublicKey x.1 = some x.2.1 ∧ G2Pubs.HashesTo sha x.2.2.1 x.2.2.2) ∧
    b.length = 48 ∧ G2Pubs.deserializeSignature b = some sig ∧
    sig.verifyAggregate sha (batch.map fun x => x.2.1) (batch.map fun x => x.2.2.1) = some true := by
  obtain ⟨sha, H, l, b, hl, ok, hn, he, hS, ⟨bs, hbs⟩, hb⟩ := C70_case_g2pubs
  obtain ⟨sig, pubs, h1, h2, h3⟩ := C70_verify_g2pubs sha H l l (.refl _) ok hn he hS b hb bs hbs
  have h4 := ((C70_agree_g2pubs sha H l l (.refl _) (fun p m => ⟨(ok p m).1, (ok p m).2.2⟩) b b).1 hb hb).2
  have len : ∀ p ∈ l, ∀ c, G2Pubs.SendsKey p c → c.length = 96 := fun p m c hc =>
    ((C70_agree_g2pubs sha H [p] [p] (.refl _) (fun x mx => by
      rw [List.mem_singleton] at mx; subst mx; exact ⟨(ok x m).1, (ok x m).2.2⟩) c c).2 (.sent p c hc) (.sent p c hc)).2
  match l, hl, bs, hbs, pubs, h2 with
  | [p₁, p₂], _, [c₁, c₂], .cons a₁ (.cons a₂ .nil), [k₁, k₂], .cons e₁ (.cons e₂ .nil) =>
    exact ⟨sha, [(c₁, k₁, p₁.msg, H p₁.msg), (c₂, k₂, p₂.msg, H p₂.msg)], b, sig, rfl,
      forall_pair ⟨len p₁ (by simp) c₁ a₁, e₁, (ok p₁ (by simp)).2.2.2⟩ ⟨len p₂ (by simp) c₂ a₂, e₂, (ok p₂ (by simp)).2.2.2⟩,
      h4, h1, h3⟩

end Bls.Props
