import Verif.Proof.Queries
import Verif.Props.Hash
import Verif.Model.G1Pubs
import Verif.Model.G2Pubs
/-
C83: what the functions that hash ask SHA-256 for, and what follows for the hashes of different messages.
-/
namespace Bls.Props
open Bls

/-! ## What is asked -/

private theorem blocks_of_agree {sha sha' : List UInt8 → List UInt8} {D : List UInt8} {c i : UInt8}
    (h : ∀ b ∈ blockQueries D c i, sha' b = sha b) : blockOf sha' D c i = blockOf sha D c i := by
  rw [blockOf, blockOf, h _ (mem_blockQueries.mpr (.inl rfl)), h _ (mem_blockQueries.mpr (.inr rfl))]

/-- `HashG1` depends on the hash function only through its five queries, and so do signing and verification. -/
theorem C83_asks_g1 (sha sha' : List UInt8 → List UInt8) (m : List UInt8) (h : ∀ b ∈ queriesG1 sha m, sha' b = sha b) :
    hashG1 sha' m = hashG1 sha m ∧ (∀ sk, G2Pubs.sign sha' m sk = G2Pubs.sign sha m sk) ∧
      ∀ pub sig, G2Pubs.verify sha' m pub sig = G2Pubs.verify sha m pub sig := by
  have e : hashG1 sha' m = hashG1 sha m := by
    have h0 := h (1 :: m) (by simp [queriesG1])
    refine hashG1_congr ?_ ?_ <;> rw [h0] <;> refine blocks_of_agree fun b hb => h b ?_ <;> simp [queriesG1, hb]
  exact ⟨e, fun sk => by rw [G2Pubs.sign, G2Pubs.sign, e], fun pub sig => by rw [G2Pubs.verify, G2Pubs.verify, e]⟩

/-- `HashG2` depends on the hash function only through its nine queries, and so do signing and verification. -/
theorem C83_asks_g2 (sha sha' : List UInt8 → List UInt8) (m : List UInt8) (h : ∀ b ∈ queriesG2 sha m, sha' b = sha b) :
    hashG2 sha' m = hashG2 sha m ∧ (∀ sk, G1Pubs.sign sha' m sk = G1Pubs.sign sha m sk) ∧
      ∀ pub sig, G1Pubs.verify sha' m pub sig = G1Pubs.verify sha m pub sig := by
  have e : hashG2 sha' m = hashG2 sha m := by
    have h0 := h (1 :: m) (by simp [queriesG2])
    refine hashG2_congr fun c i hc hi => ?_
    rw [h0]
    refine blocks_of_agree fun b hb => h b ?_
    rcases hc with rfl | rfl <;> rcases hi with rfl | rfl <;> simp [queriesG2, hb]
  exact ⟨e, fun sk => by rw [G1Pubs.sign, G1Pubs.sign, e], fun pub sig => by rw [G1Pubs.verify, G1Pubs.verify, e]⟩

/-- `HashSecretKey` depends on the hash function only through its three queries. -/
theorem C83_asks_key (sha sha' : List UInt8 → List UInt8) (seed : List UInt8)
    (h : ∀ b ∈ queriesKey sha seed, sha' b = sha b) : hashSecretKey sha' seed = hashSecretKey sha seed := by
  refine hashSecretKey_congr ?_
  rw [h seed (by simp [queriesKey])]
  exact blocks_of_agree fun b hb => h b (by simp [queriesKey, hb])

/-- `HashG2WithDomain` depends on the hash function only through its two queries, and so do signing and verification. -/
theorem C83_asks_domain (sha sha' : List UInt8 → List UInt8) (m d : List UInt8)
    (h : ∀ b ∈ queriesDomain m d, sha' b = sha b) :
    hashG2WithDomain sha' m d = hashG2WithDomain sha m d ∧
      (∀ sk, G1Pubs.signWithDomain sha' m sk d = G1Pubs.signWithDomain sha m sk d) ∧
      ∀ pub sig, G1Pubs.verifyWithDomain sha' m pub sig d = G1Pubs.verifyWithDomain sha m pub sig d := by
  have e : hashG2WithDomain sha' m d = hashG2WithDomain sha m d :=
    hashDomain_congr (h _ (by simp [queriesDomain])) (h _ (by simp [queriesDomain]))
  exact ⟨e, fun sk => by rw [G1Pubs.signWithDomain, G1Pubs.signWithDomain, e],
    fun pub sig => by rw [G1Pubs.verifyWithDomain, G1Pubs.verifyWithDomain, e]⟩

/-! ## Separation -/

/-- A query of `HashG2` is the message with its prefix, or a block. -/
private theorem mem_queriesG2 {sha : List UInt8 → List UInt8} {m b : List UInt8} (h : b ∈ queriesG2 sha m) :
    b = 1 :: m ∨ ∃ c i j, b = sha (1 :: m) ++ [c, i, j] := by
  simp only [queriesG2, List.mem_append, mem_blockQueries, List.mem_singleton] at h
  rcases h with (((h | h | h) | h | h) | h | h) | h | h
  · exact .inl h
  all_goals exact .inr ⟨_, _, _, h⟩

/-- Two messages with different digests have no query in common, unless one of them is 34 bytes long. -/
theorem C83_separate (sha : List UInt8 → List UInt8) (hs : Digests32 sha) (m m' : List UInt8) (hm : m.length ≠ 34)
    (hm' : m'.length ≠ 34) (h : sha (1 :: m) ≠ sha (1 :: m')) : ∀ b ∈ queriesG2 sha m, b ∉ queriesG2 sha m' := by
  intro b hb hb'
  rcases mem_queriesG2 hb with rfl | ⟨c, i, j, rfl⟩ <;> rcases mem_queriesG2 hb' with e | ⟨c', i', j', e⟩
  · exact h (by rw [e])
  · have := congrArg List.length e
    simp [hs _] at this
    omega
  · have := congrArg List.length e
    simp [hs _] at this
    omega
  · exact h (List.append_inj_left e (by rw [hs, hs]))

/-- A message and a seed with different digests have no query in common. -/
theorem C83_separate_key (sha : List UInt8 → List UInt8) (hs : Digests32 sha) (m seed : List UInt8) (hm : m.length ≠ 34)
    (hl : seed.length = 32) (h : sha (1 :: m) ≠ sha seed) : ∀ b ∈ queriesG2 sha m, b ∉ queriesKey sha seed := by
  intro b hb hb'
  simp only [queriesKey, List.mem_append, mem_blockQueries, List.mem_singleton] at hb'
  rcases mem_queriesG2 hb with rfl | ⟨c, i, j, rfl⟩ <;> rcases hb' with e | e | e
  · exact h (by rw [e])
  · have := congrArg List.length e
    simp [hs _] at this
    omega
  · have := congrArg List.length e
    simp [hs _] at this
    omega
  · have := congrArg List.length e
    simp [hs _, hl] at this
  · exact h (List.append_inj_left e (by rw [hs, hs]))
  · exact h (List.append_inj_left e (by rw [hs, hs]))

/-- Different pairs of a message and a domain have no query in common. -/
theorem C83_separate_domain (m m' d d' : List UInt8) (hm : m.length = 32) (hm' : m'.length = 32) (hd : d.length = 8)
    (hd' : d'.length = 8) (h : (m, d) ≠ (m', d')) : ∀ b ∈ queriesDomain m d, b ∉ queriesDomain m' d' := by
  intro b hb hb'
  simp only [queriesDomain, List.mem_cons, List.not_mem_nil, or_false] at hb hb'
  have key : ∀ x y : UInt8, m ++ d ++ [x] = m' ++ d' ++ [y] → False := by
    intro x y e
    have e1 := List.append_inj_left e (by simp [hm, hm', hd, hd'])
    obtain ⟨rfl, rfl⟩ := List.append_inj e1 (by rw [hm, hm'])
    exact h rfl
  rcases hb with rfl | rfl <;> rcases hb' with e | e <;> exact key _ _ e

/-- A message and a message with a domain have no query in common, unless the first is 40 bytes long. -/
theorem C83_separate_cross (sha : List UInt8 → List UInt8) (hs : Digests32 sha) (m m' d' : List UInt8) (hm : m.length ≠ 40)
    (hm' : m'.length = 32) (hd' : d'.length = 8) : ∀ b ∈ queriesG2 sha m, b ∉ queriesDomain m' d' := by
  intro b hb hb'
  have hl : b.length = 41 := by
    simp only [queriesDomain, List.mem_cons, List.not_mem_nil, or_false] at hb'
    rcases hb' with rfl | rfl <;> simp [hm', hd']
  rcases mem_queriesG2 hb with rfl | ⟨c, i, j, rfl⟩ <;> simp [hs _] at hl
  exact hm hl

/-- The bound is needed: a message of 34 bytes can be a block of another message. -/
theorem C83_separate_34 : ∃ sha, Digests32 sha ∧ ∃ m m' : List UInt8, m.length = 34 ∧ m'.length = 0 ∧
    sha (1 :: m) ≠ sha (1 :: m') ∧ ∃ b ∈ queriesG1 sha m, b ∈ queriesG1 sha m' := by
  refine ⟨fun b => if b.length = 35 then List.replicate 32 0 else List.replicate 32 1, fun b => ?_,
    List.replicate 31 1 ++ [0, 1, 1], [], rfl, rfl, ?_, 1 :: (List.replicate 31 1 ++ [0, 1, 1]), ?_, ?_⟩
  · dsimp only
    split <;> rfl
  · decide
  · simp [queriesG1]
  · decide

/-- A case: a hash function, two messages, a seed and two domains that meet the hypotheses. -/
example : ∃ sha, Digests32 sha ∧ ∃ m m' seed d d' : List UInt8, m.length ≠ 34 ∧ m'.length ≠ 34 ∧ seed.length = 32 ∧
    d.length = 8 ∧ d'.length = 8 ∧ d ≠ d' ∧ sha (1 :: m) ≠ sha (1 :: m') ∧ sha (1 :: m) ≠ sha seed :=
  ⟨fun b => UInt8.ofNat b.length :: List.replicate 31 0, fun _ => rfl, [5], [6, 7], List.replicate 32 9,
    List.replicate 8 0, List.replicate 8 1, by decide, by decide, rfl, rfl, rfl, by decide, by decide, by decide⟩

/-! ## Independence -/

/-- The hashes of one message are independent of all others: whatever they are under some hash function, they are under
one that gives every other message, seed, and message with a domain the hash it had. -/
theorem C83_free (sha sha₀ : List UInt8 → List UInt8) (hs : Digests32 sha) (h₀ : Digests32 sha₀) (m : List UInt8)
    (hm : m.length ≠ 34) : ∃ sha', Digests32 sha' ∧ hashG1 sha' m = hashG1 sha₀ m ∧ hashG2 sha' m = hashG2 sha₀ m ∧
      (∀ m', m'.length ≠ 34 → sha (1 :: m') ≠ sha (1 :: m) →
        hashG1 sha' m' = hashG1 sha m' ∧ hashG2 sha' m' = hashG2 sha m') ∧
      (∀ seed, seed.length = 32 → sha seed ≠ sha (1 :: m) → hashSecretKey sha' seed = hashSecretKey sha seed) ∧
      ∀ m' d', m'.length = 32 → d'.length = 8 → hashG2WithDomain sha' m' d' = hashG2WithDomain sha m' d' := by
  have k : ∀ m' : List UInt8, m'.length ≠ 34 →
      reprogram sha (sha (1 :: m)) sha₀ (sha₀ (1 :: m)) (1 :: m') = sha (1 :: m') :=
    fun m' h => reprogram_ne (by simpa using h)
  refine ⟨reprogram sha (sha (1 :: m)) sha₀ (sha₀ (1 :: m)), reprogram_length hs h₀, ?_, ?_, fun m' h' hne => ⟨?_, ?_⟩,
    fun seed hl hne => ?_, fun m' d' h1 h2 => ?_⟩
  · refine hashG1_congr ?_ ?_ <;> rw [k m hm, reprogram_blockOf (hs _)]
  · refine hashG2_congr fun c i _ _ => ?_
    rw [k m hm, reprogram_blockOf (hs _)]
  · refine hashG1_congr ?_ ?_ <;> rw [k m' h', reprogram_blockOf_other (hs _) hne]
  · refine hashG2_congr fun c i _ _ => ?_
    rw [k m' h', reprogram_blockOf_other (hs _) hne]
  · refine hashSecretKey_congr ?_
    rw [reprogram_ne (by omega), reprogram_blockOf_other (hs _) hne]
  · refine hashDomain_congr ?_ ?_ <;> exact reprogram_ne (by simp [h1, h2])

/-- So the hashes of any number of messages with different digests can be any points that are hashes, together. -/
theorem C83_joint (sha : List UInt8 → List UInt8) (hs : Digests32 sha)
    (l : List (List UInt8 × (List UInt8 → List UInt8))) (hl : ∀ x ∈ l, x.1.length ≠ 34 ∧ Digests32 x.2)
    (hd : l.Pairwise fun x y => sha (1 :: x.1) ≠ sha (1 :: y.1)) :
    ∃ sha', Digests32 sha' ∧ ∀ x ∈ l, hashG1 sha' x.1 = hashG1 x.2 x.1 ∧ hashG2 sha' x.1 = hashG2 x.2 x.1 := by
  suffices H : ∃ sha', Digests32 sha' ∧ (∀ b : List UInt8, b.length ≠ 35 → sha' b = sha b) ∧
      ∀ x ∈ l, hashG1 sha' x.1 = hashG1 x.2 x.1 ∧ hashG2 sha' x.1 = hashG2 x.2 x.1 by
    obtain ⟨s, h1, _, h3⟩ := H
    exact ⟨s, h1, h3⟩
  induction l with
  | nil => exact ⟨sha, hs, fun _ _ => rfl, fun x hx => absurd hx List.not_mem_nil⟩
  | cons a l ih =>
    obtain ⟨s, h1, h2, h3⟩ := ih (fun x hx => hl x (List.mem_cons_of_mem _ hx)) (List.pairwise_cons.mp hd).2
    obtain ⟨ha, hd0⟩ := hl a List.mem_cons_self
    have k : ∀ m' : List UInt8, m'.length ≠ 34 →
        reprogram s (s (1 :: a.1)) a.2 (a.2 (1 :: a.1)) (1 :: m') = s (1 :: m') :=
      fun m' h => reprogram_ne (by simpa using h)
    refine ⟨reprogram s (s (1 :: a.1)) a.2 (a.2 (1 :: a.1)), reprogram_length h1 hd0, fun b hb => ?_, fun x hx => ?_⟩
    · rw [reprogram_ne hb, h2 b hb]
    · rcases List.mem_cons.mp hx with rfl | hx
      · constructor
        · refine hashG1_congr ?_ ?_ <;> rw [k _ ha, reprogram_blockOf (h1 _)]
        · refine hashG2_congr fun c i _ _ => ?_
          rw [k _ ha, reprogram_blockOf (h1 _)]
      · have hx34 := (hl x (List.mem_cons_of_mem _ hx)).1
        have hne : s (1 :: x.1) ≠ s (1 :: a.1) := by
          rw [h2 _ (by simpa using hx34), h2 _ (by simpa using ha)]
          exact ((List.pairwise_cons.mp hd).1 x hx).symm
        rw [← (h3 x hx).1, ← (h3 x hx).2]
        constructor
        · refine hashG1_congr ?_ ?_ <;> rw [k _ hx34, reprogram_blockOf_other (h1 _) hne]
        · refine hashG2_congr fun c i _ _ => ?_
          rw [k _ hx34, reprogram_blockOf_other (h1 _) hne]

/-- The same for messages with domains, whatever the digests. -/
theorem C83_joint_domain (l : List ((List UInt8 × List UInt8) × (List UInt8 → List UInt8)))
    (hl : ∀ x ∈ l, x.1.1.length = 32 ∧ x.1.2.length = 8 ∧ Digests32 x.2) (hd : l.Pairwise fun x y => x.1 ≠ y.1) :
    ∃ sha', Digests32 sha' ∧ ∀ x ∈ l, hashG2WithDomain sha' x.1.1 x.1.2 = hashG2WithDomain x.2 x.1.1 x.1.2 := by
  induction l with
  | nil => exact ⟨fun _ => List.replicate 32 0, fun _ => rfl, fun x hx => absurd hx List.not_mem_nil⟩
  | cons a l ih =>
    obtain ⟨s, h1, h2⟩ := ih (fun x hx => hl x (List.mem_cons_of_mem _ hx)) (List.pairwise_cons.mp hd).2
    obtain ⟨ha, hb, hc⟩ := hl a List.mem_cons_self
    refine ⟨fun b => if b ∈ queriesDomain a.1.1 a.1.2 then a.2 b else s b, fun b => ?_, fun x hx => ?_⟩
    · dsimp only
      split
      · exact hc b
      · exact h1 b
    · rcases List.mem_cons.mp hx with rfl | hx
      · exact (C83_asks_domain _ _ _ _ fun b hb => if_pos hb).1
      · obtain ⟨hx1, hx2, _⟩ := hl x (List.mem_cons_of_mem _ hx)
        rw [← h2 x hx]
        exact (C83_asks_domain _ _ _ _ fun b hb' => if_neg
          (C83_separate_domain _ _ _ _ hx1 ha hx2 hb (((List.pairwise_cons.mp hd).1 x hx).symm) b hb')).1

/-- A case: three messages with different digests and hash functions with different values for them. -/
example : ∃ sha, Digests32 sha ∧ ∃ l : List (List UInt8 × (List UInt8 → List UInt8)), l.length = 3 ∧
    (∀ x ∈ l, x.1.length ≠ 34 ∧ Digests32 x.2) ∧ l.Pairwise fun x y => sha (1 :: x.1) ≠ sha (1 :: y.1) := by
  let s : UInt8 → List UInt8 → List UInt8 := fun x b => UInt8.ofNat b.length :: List.replicate 31 x
  have hs : ∀ x, Digests32 (s x) := fun _ _ => rfl
  refine ⟨s 0, hs 0, [([], s 1), ([1], s 2), ([1, 2], s 3)], rfl, fun x hx => ?_, ?_⟩
  · simp only [List.mem_cons, List.not_mem_nil, or_false] at hx
    rcases hx with rfl | rfl | rfl
    exacts [⟨by decide, hs 1⟩, ⟨by decide, hs 2⟩, ⟨by decide, hs 3⟩]
  · simp [s]

/-- A case: one message in two domains. -/
example : ∃ l : List ((List UInt8 × List UInt8) × (List UInt8 → List UInt8)), l.length = 2 ∧
    (∀ x ∈ l, x.1.1.length = 32 ∧ x.1.2.length = 8 ∧ Digests32 x.2) ∧ l.Pairwise fun x y => x.1 ≠ y.1 := by
  refine ⟨[((List.replicate 32 5, List.replicate 8 0), fun _ => List.replicate 32 1),
    ((List.replicate 32 5, List.replicate 8 1), fun _ => List.replicate 32 2)], rfl, fun x hx => ?_, ?_⟩
  · simp only [List.mem_cons, List.not_mem_nil, or_false] at hx
    rcases hx with rfl | rfl <;> exact ⟨rfl, rfl, fun _ => rfl⟩
  · simp

/-! ## What is shared -/

/-- `HashG1` and `HashG2` of one message ask for the same: the prefix does not tell the two functions apart. -/
theorem C83_shared (sha : List UInt8 → List UInt8) (m : List UInt8) : ∀ b ∈ queriesG1 sha m, b ∈ queriesG2 sha m := by
  intro b hb
  simp only [queriesG1, queriesG2, List.mem_append] at hb ⊢
  tauto

/-- A secret key made from a seed with first byte 1 and the hash to G1 of the rest of the seed are made from the same
number: the key is its remainder by `r`, the first element of the field that is mapped to the curve its remainder by
`q`. -/
theorem C83_key (sha : List UInt8 → List UInt8) (m : List UInt8) :
    (∀ b ∈ queriesKey sha (1 :: m), b ∈ queriesG1 sha m) ∧
    ∃ (f : FR) (t : FQ), hashSecretKey sha (1 :: m) = some (some f) ∧ hp sha (1 :: m) 0 = some t ∧
      f.int = hashToField sha (1 :: m) 0 1 % r ∧ t.int = hashToField sha (1 :: m) 0 1 % q := by
  refine ⟨fun b hb => ?_, ?_⟩
  · simp only [queriesKey, queriesG1, List.mem_append] at hb ⊢
    tauto
  · obtain ⟨f, h1, h2⟩ := hashSecretKey_spec sha (1 :: m)
    obtain ⟨t, h3, h4⟩ := hp_spec sha (1 :: m) 0
    exact ⟨f, t, h1, h3, h2.int_eq, h4.int_eq⟩

end Bls.Props
