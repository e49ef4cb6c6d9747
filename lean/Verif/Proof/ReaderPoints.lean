import Verif.Proof.Reader
/-
Counting byte streams for programs that draw bytes and integers in a loop.
-/
namespace Bls.Reader
open Finset

local instance : Fintype UInt8 := Fintype.ofEquiv (Fin 256) ⟨fun i => ⟨⟨i⟩⟩, fun b => b.toBitVec.toFin, fun _ => rfl, fun _ => rfl⟩

abbrev Bytes (n : ℕ) := List.Vector UInt8 n

/-- Every value is drawn by the same number of streams, and the rest of the stream is free. -/
def Even {D : Type} (draw : List UInt8 → Option (D × List UInt8)) : Prop :=
  ∀ N : ℕ, ∃ a : ℕ → ℕ, ∀ (d : D) (p : List UInt8 → Prop),
    Nat.card {t : Bytes N // ∃ rest, draw t.1 = some (d, rest) ∧ p rest} =
      ∑ j ∈ range N, a j * Nat.card {s : Bytes j // p s.1}

theorem card_append {k n : ℕ} (p : List UInt8 → Prop) :
    Nat.card {x : Bytes (k + n) // p x.1} = ∑ b : Bytes k, Nat.card {v : Bytes n // p (b.1 ++ v.1)} := by
  rw [← Nat.card_sigma]
  refine Nat.card_congr ⟨fun x => ⟨⟨x.1.1.take k, by rw [List.length_take, x.1.2]; omega⟩, ⟨x.1.1.drop k, by
      rw [List.length_drop, x.1.2]; omega⟩, by
        change p (x.1.1.take k ++ x.1.1.drop k)
        rw [List.take_append_drop]; exact x.2⟩,
    fun y => ⟨⟨y.1.1 ++ y.2.1.1, by rw [List.length_append, y.1.2, y.2.1.2]⟩, y.2.2⟩,
    fun x => Subtype.ext (Subtype.ext (List.take_append_drop k _)), fun y => ?_⟩
  obtain ⟨⟨b, hb⟩, ⟨⟨v, hv⟩, h⟩⟩ := y
  have h1 : (b ++ v).take k = b := List.take_left' hb
  have h2 : (b ++ v).drop k = v := List.drop_left' hb
  refine Sigma.ext (Subtype.ext h1) ?_
  have h3 : (⟨(b ++ v).take k, by rw [h1]; exact hb⟩ : Bytes k) = ⟨b, hb⟩ := Subtype.ext h1
  refine (Subtype.heq_iff_coe_eq fun x => ?_).mpr (Subtype.ext h2)
  change p ((b ++ v).take k ++ _) ↔ p (b ++ _)
  rw [h1]

/-- A byte. -/
def byte : List UInt8 → Option (UInt8 × List UInt8)
  | [] => none
  | b :: t => some (b, t)

theorem byte_even : Even byte := by
  intro N
  cases N with
  | zero =>
    refine ⟨fun _ => 0, fun d p => ?_⟩
    rw [range_zero, sum_empty, Nat.card_eq_zero]
    refine Or.inl ⟨fun x => ?_⟩
    obtain ⟨⟨t, ht⟩, rest, h, _⟩ := x
    obtain rfl := List.length_eq_zero_iff.mp ht
    cases h
  | succ N =>
    refine ⟨fun j => if j = N then 1 else 0, fun d p => ?_⟩
    rw [sum_eq_single N (fun j _ h => by beta_reduce; rw [if_neg h, zero_mul]) (fun h => absurd (self_mem_range_succ N) h)]
    beta_reduce
    rw [if_pos rfl, one_mul]
    refine Nat.card_congr ⟨fun x => ⟨x.1.tail, ?_⟩, fun s => ⟨d ::ᵥ s.1, s.1.1, rfl, s.2⟩, fun x => ?_, fun s => rfl⟩
    · obtain ⟨⟨t, ht⟩, rest, h, hp⟩ := x
      match t, ht with
      | b :: t, ht => cases h; exact hp
    · obtain ⟨⟨t, ht⟩, rest, h, hp⟩ := x
      match t, ht with
      | b :: t, ht => cases h; rfl

/-- An integer below `max`. -/
def int (max : ℕ) (l : List UInt8) : Option (Fin max × List UInt8) :=
  match randInt max l with
  | (some v, rest) => if h : v < max then some (⟨v, h⟩, rest) else none
  | (none, _) => none

variable {max k M c : ℕ}

theorem int_even (s : Shape max k M c) : Even (int max) := by
  intro N
  induction N using Nat.strong_induction_on with
  | _ N ih =>
    rcases Nat.lt_or_ge N k with hN | hN
    · refine ⟨fun _ => 0, fun d p => ?_⟩
      simp only [zero_mul, sum_const_zero]
      rw [Nat.card_eq_zero]
      refine Or.inl ⟨fun x => ?_⟩
      obtain ⟨⟨t, ht⟩, rest, h, _⟩ := x
      rw [int, s.short t (by rw [ht]; exact hN)] at h
      cases h
    · obtain ⟨n, rfl⟩ := Nat.exists_eq_add_of_le hN
      have hk := s.pos
      obtain ⟨a, ha⟩ := ih n (by omega)
      refine ⟨fun j => c * (if j = n then 1 else 0) + c * (M - max) * if j < n then a j else 0, fun d p => ?_⟩
      rw [card_append (fun t => ∃ rest, int max t = some (d, rest) ∧ p rest)]
      refine Eq.trans ?_ ((sum_cases s (fun o => Nat.card {x : Bytes n // (match o with
        | some w => w = d.1 ∧ p x.1
        | none => ∃ rest, int max x.1 = some (d, rest) ∧ p rest)}) d.1 d.2 ?_).trans ?_)
      · refine sum_congr rfl fun b _ => Nat.card_congr (Equiv.subtypeEquivRight fun x => ?_)
        rw [int, s.run _ _ b.2]
        by_cases h : beNat b.1 % M < max
        · rw [if_pos h, if_pos h]
          simp only [dif_pos h, Option.some.injEq, Prod.mk.injEq, Fin.ext_iff]
          exact ⟨fun ⟨_, ⟨h1, h2⟩, h3⟩ => ⟨h1, h2 ▸ h3⟩, fun ⟨h1, h2⟩ => ⟨_, ⟨h1, rfl⟩, h2⟩⟩
        · rw [if_neg h, if_neg h]
          rfl
      · intro w hw
        rw [Nat.card_eq_zero]
        exact Or.inl ⟨fun x => hw x.2.1⟩
      · have e1 : Nat.card {x : Bytes n // d.1 = d.1 ∧ p x.1} = Nat.card {x : Bytes n // p x.1} :=
          Nat.card_congr (Equiv.subtypeEquivRight fun x => and_iff_right rfl)
        have hn : n < k + n := by omega
        rw [sum_congr rfl fun j _ => add_mul _ _ _, sum_add_distrib]
        refine congrArg₂ (· + ·) ?_ ?_
        · refine (congrArg (c * ·) e1).trans ?_
          rw [sum_eq_single n (fun j _ h => by rw [if_neg h, mul_zero, zero_mul])
            (fun h => absurd (mem_range.mpr hn) h), if_pos rfl, mul_one]
        · refine (congrArg (c * (M - max) * ·) (ha d p)).trans ?_
          rw [mul_sum]
          have hsub : range n ⊆ range (k + n) := range_subset_range.mpr (by omega)
          rw [← sum_subset hsub (fun j _ h => by
            rw [if_neg (fun h' => h (mem_range.mpr h')), mul_zero, zero_mul])]
          exact sum_congr rfl fun j hj => by rw [if_pos (mem_range.mp hj), ← mul_assoc]

/-- One draw after the other. -/
def andThen {D D' : Type} (f : List UInt8 → Option (D × List UInt8)) (g : List UInt8 → Option (D' × List UInt8))
    (l : List UInt8) : Option ((D × D') × List UInt8) :=
  (f l).bind fun x => (g x.2).map fun y => ((x.1, y.1), y.2)

theorem andThen_iff {D D' : Type} {f : List UInt8 → Option (D × List UInt8)} {g : List UInt8 → Option (D' × List UInt8)}
    {l : List UInt8} {d : D × D'} {rest : List UInt8} :
    andThen f g l = some (d, rest) ↔ ∃ rest', f l = some (d.1, rest') ∧ g rest' = some (d.2, rest) := by
  rw [andThen, Option.bind_eq_some_iff]
  constructor
  · rintro ⟨⟨x, r'⟩, h1, h2⟩
    obtain ⟨⟨y, r''⟩, h3, h4⟩ := Option.map_eq_some_iff.mp h2
    cases h4
    exact ⟨r', h1, h3⟩
  · rintro ⟨r', h1, h2⟩
    exact ⟨_, h1, by rw [h2]; rfl⟩

theorem Even.andThen {D D' : Type} {f : List UInt8 → Option (D × List UInt8)} {g : List UInt8 → Option (D' × List UInt8)}
    (hf : Even f) (hg : Even g) : Even (Reader.andThen f g) := by
  intro N
  obtain ⟨a, ha⟩ := hf N
  choose a' ha' using hg
  refine ⟨fun i => ∑ j ∈ range N, if i < j then a j * a' j i else 0, fun d p => ?_⟩
  have e : ∀ t : Bytes N, (∃ rest, Reader.andThen f g t.1 = some (d, rest) ∧ p rest) ↔
      ∃ rest', f t.1 = some (d.1, rest') ∧ ∃ rest, g rest' = some (d.2, rest) ∧ p rest := fun t => by
    constructor
    · rintro ⟨rest, h, hp⟩
      obtain ⟨r', h1, h2⟩ := andThen_iff.mp h
      exact ⟨r', h1, rest, h2, hp⟩
    · rintro ⟨r', h1, rest, h2, hp⟩
      exact ⟨rest, andThen_iff.mpr ⟨r', h1, h2⟩, hp⟩
  rw [Nat.card_congr (Equiv.subtypeEquivRight e), ha d.1 fun l => ∃ rest, g l = some (d.2, rest) ∧ p rest]
  simp only [ha', mul_sum, sum_mul]
  rw [sum_comm]
  refine sum_congr rfl fun j hj => ?_
  have hsub : range j ⊆ range N := range_subset_range.mpr (mem_range.mp hj).le
  rw [← sum_subset hsub (fun i _ h => by rw [if_neg (fun h' => h (mem_range.mpr h')), zero_mul])]
  exact sum_congr rfl fun i hi => by rw [if_pos (mem_range.mp hi), mul_assoc]

/-- A loop of draws, each of which gives a result (`acc`) or leads to another (`rej`), gives all results that are given by
the same number of draws by the same number of streams. -/
theorem loop_even {D X : Type} [Finite D] {draw : List UInt8 → Option (D × List UInt8)} (hd : Even draw)
    (run : List UInt8 → X → Prop) (acc : D → X → Prop) (rej : D → Prop) (hex : ∀ d P, acc d P → ¬ rej d)
    (hrun : ∀ l P, run l P ↔ ∃ d rest, draw l = some (d, rest) ∧ (acc d P ∨ rej d ∧ run rest P))
    {P P' : X} (hP : Nat.card {d // acc d P} = Nat.card {d // acc d P'}) (N : ℕ) :
    Nat.card {t : Bytes N // run t.1 P} = Nat.card {t : Bytes N // run t.1 P'} := by
  classical
  have := Fintype.ofFinite D
  induction N using Nat.strong_induction_on with
  | _ N ih =>
    obtain ⟨a, ha⟩ := hd N
    have key : ∀ P, Nat.card {t : Bytes N // run t.1 P} = ∑ j ∈ range N, a j *
        (Nat.card {d // acc d P} * Nat.card (Bytes j) + Nat.card {d // rej d} * Nat.card {s : Bytes j // run s.1 P}) := by
      intro P
      have e1 : Nat.card {t : Bytes N // run t.1 P} =
          ∑ d : D, Nat.card {t : Bytes N // ∃ rest, draw t.1 = some (d, rest) ∧ (acc d P ∨ rej d ∧ run rest P)} := by
        rw [← Nat.card_sigma]
        refine Nat.card_congr (Equiv.ofBijective (fun y : Σ d, {t : Bytes N // ∃ rest, draw t.1 = some (d, rest) ∧
          (acc d P ∨ rej d ∧ run rest P)} => (⟨y.2.1, (hrun _ _).mpr ⟨y.1, y.2.2⟩⟩ : {t : Bytes N // run t.1 P}))
          ⟨fun y y' h => ?_, fun x => ?_⟩).symm
        · obtain ⟨d, t, r1, h1, _⟩ := y
          obtain ⟨d', t', r1', h1', h2'⟩ := y'
          obtain rfl : t = t' := congrArg Subtype.val h
          rw [h1] at h1'
          cases h1'
          rfl
        · obtain ⟨d, h⟩ := (hrun _ _).mp x.2
          exact ⟨⟨d, x.1, h⟩, rfl⟩
      have e2 : ∀ (d : D) (j : ℕ), Nat.card {s : Bytes j // acc d P ∨ rej d ∧ run s.1 P} =
          (if acc d P then Nat.card (Bytes j) else 0) + if rej d then Nat.card {s : Bytes j // run s.1 P} else 0 := by
        intro d j
        by_cases h : acc d P
        · rw [if_pos h, if_neg (hex d P h), add_zero]
          exact Nat.card_congr (Equiv.subtypeUnivEquiv fun _ => Or.inl h)
        · by_cases h' : rej d
          · rw [if_neg h, if_pos h', zero_add]
            exact Nat.card_congr (Equiv.subtypeEquivRight fun s => by tauto)
          · rw [if_neg h, if_neg h', Nat.card_eq_zero]
            exact Or.inl ⟨fun s => by have := s.2; tauto⟩
      rw [e1]
      simp only [ha _ fun rest => acc _ P ∨ rej _ ∧ run rest P, e2]
      rw [sum_comm]
      refine sum_congr rfl fun j _ => ?_
      rw [← mul_sum, sum_add_distrib, ← sum_filter, ← sum_filter, sum_const, sum_const, smul_eq_mul, smul_eq_mul,
        ← Fintype.card_subtype, ← Fintype.card_subtype, ← Nat.card_eq_fintype_card, ← Nat.card_eq_fintype_card]
    rw [key, key, hP]
    exact sum_congr rfl fun j hj => by rw [ih j (mem_range.mp hj)]

theorem randInt_length (s : Shape max k M c) (l : List UInt8) : (randInt max l).2.length ≤ l.length := by
  rcases h : randInt max l with ⟨o, rest⟩
  cases o with
  | some v =>
    obtain ⟨bs, b, _, _, _, _, rfl⟩ := s.some_iff.mp h
    rw [List.length_append]
    exact Nat.le_add_left _ _
  | none =>
    obtain ⟨bs, h1, ⟨t, h2, rfl⟩ | ⟨b, rest', h2, h3, rfl⟩⟩ := s.split l
    · rw [s.none bs t h1 h2] at h
      cases h
      simp
    · rw [s.some_iff.mpr ⟨bs, b, h1, h2, rfl, h3, rfl⟩] at h
      cases h

end Bls.Reader
