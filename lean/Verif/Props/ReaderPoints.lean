import Verif.Proof.ReaderPoints
import Verif.Props.Reader
import Verif.Props.Uniform
/-
C89, the random points: `RandG1` and `RandG2` on the bytes of a reader. Each non-zero point of order r is the result for the
same number of byte streams of each length.
-/
set_option exponentiation.threshold 1000
namespace Bls.Props
open Bls Bls.Reader

theorem int_some {l : List UInt8} {v : ℕ} {rest : List UInt8} (h : randInt q l = (some v, rest)) :
    int q l = some (⟨v, shapeQ.lt h⟩, rest) := by
  rw [int, h]
  exact dif_pos (shapeQ.lt h)

theorem int_none {l : List UInt8} {rest : List UInt8} (h : randInt q l = (none, rest)) : int q l = none := by
  rw [int, h]

theorem int_length {l : List UInt8} {v : Fin q} {rest : List UInt8} (h : int q l = some (v, rest)) : rest.length ≤ l.length := by
  rcases hd : randInt q l with ⟨o, rest'⟩
  cases o with
  | none => rw [int_none hd] at h; cases h
  | some w =>
    rw [int_some hd] at h
    cases h
    have := randInt_length shapeQ l
    rw [hd] at this
    exact this

theorem int_iff {l : List UInt8} {v : Fin q} {rest : List UInt8} (h : int q l = some (v, rest)) :
    randInt q l = (some v.1, rest) := by
  rcases hd : randInt q l with ⟨o, rest'⟩
  cases o with
  | none => rw [int_none hd] at h; cases h
  | some w =>
    rw [int_some hd] at h
    cases h
    rfl

theorem int_prefix {l : List UInt8} {v : Fin q} {rest : List UInt8} (h : int q l = some (v, rest)) :
    ∃ u, l = u ++ rest ∧ ∀ t, int q (u ++ t) = some (v, t) := by
  obtain ⟨bs, b, h1, h2, h3, h4, rfl⟩ := shapeQ.some_iff.mp (int_iff h)
  exact ⟨bs.flatten ++ b, rfl, fun t => int_some (shapeQ.some_iff.mpr ⟨bs, b, h1, h2, h3, h4, rfl⟩)⟩

theorem int_of (v : Fin q) : ∃ b : List UInt8, b.length = 48 ∧ ∀ t, int q (b ++ t) = some (v, t) := by
  obtain ⟨b, hb⟩ := (blockEquiv shapeQ.mul).surjective (⟨0, by decide⟩, ⟨v.1, v.2.trans_le shapeQ.le⟩)
  have hv : beNat b.1 % 2 ^ 381 = v.1 := by rw [← blockEquiv_snd shapeQ.mul, hb]
  refine ⟨b.1, b.2, fun t => ?_⟩
  exact int_some (shapeQ.some_iff.mpr ⟨[], b.1, fun _ h => absurd h List.not_mem_nil, b.2, hv, v.2, rfl⟩)

theorem randInt_none_rest {l rest : List UInt8} (h : randInt q l = (none, rest)) : rest = [] := by
  obtain ⟨bs, h1, ⟨t, h2, rfl⟩ | ⟨b, rest', h2, h3, rfl⟩⟩ := shapeQ.split l
  · rw [shapeQ.none bs t h1 h2] at h
    cases h
    rfl
  · rw [shapeQ.some_iff.mpr ⟨bs, b, h1, h2, rfl, h3, rfl⟩] at h
    cases h

/-- The draws of one iteration of `RandG1`. -/
def read1 : List UInt8 → Option ((UInt8 × Fin q) × List UInt8) := andThen byte (int q)

theorem read1_even : Even read1 := byte_even.andThen (int_even shapeQ)

theorem read1_length {l : List UInt8} {d : UInt8 × Fin q} {rest : List UInt8} (h : read1 l = some (d, rest)) :
    rest.length < l.length := by
  obtain ⟨r', h1, h2⟩ := andThen_iff.mp h
  match l, h1 with
  | b :: t, h1 =>
    cases h1
    exact Nat.lt_succ_of_le (int_length h2)

theorem read1_prefix {l : List UInt8} {d : UInt8 × Fin q} {rest : List UInt8} (h : read1 l = some (d, rest)) :
    ∃ u, u ≠ [] ∧ l = u ++ rest ∧ ∀ t, read1 (u ++ t) = some (d, t) := by
  obtain ⟨r', h1, h2⟩ := andThen_iff.mp h
  match l, h1 with
  | b :: t, h1 =>
    obtain ⟨d1, d2⟩ := d
    cases h1
    obtain ⟨u, rfl, hu⟩ := int_prefix h2
    exact ⟨d1 :: u, List.cons_ne_nil _ _, rfl, fun t => andThen_iff.mpr ⟨u ++ t, rfl, hu t⟩⟩

/-- An iteration on a reader. -/
theorem loop1_read {l : List UInt8} {d : UInt8 × Fin q} {rest : List UInt8} (h : read1 l = some (d, rest)) :
    ((∃ T p, Uniform.Sel xOf1 gr1 d T ∧ p.Rep (h1 • T) ∧ randG1Step (some d.1) (some (Int.ofNat d.2.1)) = .ok (some p) ∧
        ∀ n, randG1Loop (n + 1) l = (.ok p, rest)) ∨
      (¬ ∃ T, Uniform.Sel xOf1 gr1 d T) ∧ ∀ n, randG1Loop (n + 1) l = randG1Loop n rest) := by
  obtain ⟨r', h1', h2'⟩ := andThen_iff.mp h
  match l, h1' with
  | b :: t, h1' =>
    obtain ⟨o, e, k1, k2⟩ := step1 d
    obtain ⟨d1, d2⟩ := d
    cases h1'
    have hd := int_iff h2'
    have e' : randG1Step (some d1) (some (Int.ofNat d2.1)) = .ok o := e
    cases o with
    | none =>
      refine .inr ⟨k2 rfl, fun n => ?_⟩
      rw [randG1Loop, qNat, hd]
      dsimp only
      rw [Option.map_some, e']
    | some p =>
      obtain ⟨T, hT, hp⟩ := k1 p rfl
      refine .inl ⟨T, p, hT, hp, e', fun n => ?_⟩
      rw [randG1Loop, qNat, hd]
      dsimp only
      rw [Option.map_some, e']

theorem loop1_end {l : List UInt8} (h : read1 l = none) (n : ℕ) : randG1Loop (n + 1) l = (.err, []) := by
  match l with
  | [] => rfl
  | b :: t =>
    rcases hd : randInt q t with ⟨o', rest'⟩
    cases o' with
    | some v => rw [read1, andThen, byte, Option.bind_some, int_some hd] at h; cases h
    | none =>
      rw [randG1Loop, qNat, hd, randInt_none_rest hd]
      rfl

theorem loop1_fuel (n m : ℕ) (l : List UInt8) (hn : l.length < n) (hm : l.length < m) : randG1Loop n l = randG1Loop m l := by
  induction n generalizing m l with
  | zero => omega
  | succ n ih =>
    obtain ⟨m, rfl⟩ : ∃ k, m = k + 1 := ⟨m - 1, by omega⟩
    cases h : read1 l with
    | none => rw [loop1_end h, loop1_end h]
    | some x =>
      obtain ⟨d, rest⟩ := x
      have hl := read1_length h
      have hr := ih m rest (by omega) (by omega)
      rcases loop1_read h with ⟨T, p, hT, hp, k, e⟩ | ⟨hT, e⟩
      · rw [e, e]
      · rw [e, e, hr]

theorem from1_read {l : List UInt8} {d : UInt8 × Fin q} {rest : List UInt8} (h : read1 l = some (d, rest)) :
    ((∃ T p, Uniform.Sel xOf1 gr1 d T ∧ p.Rep (h1 • T) ∧ randG1Step (some d.1) (some (Int.ofNat d.2.1)) = .ok (some p) ∧
        randG1From l = (.ok p, rest)) ∨
      (¬ ∃ T, Uniform.Sel xOf1 gr1 d T) ∧ randG1From l = randG1From rest) := by
  have hl := read1_length h
  rcases loop1_read h with ⟨T, p, hT, hp, k, e⟩ | ⟨hT, e⟩
  · exact .inl ⟨T, p, hT, hp, k, e _⟩
  · exact .inr ⟨hT, (e _).trans (loop1_fuel _ _ _ hl (Nat.lt_succ_self _))⟩

/-- `RandG1` on a reader: a result is a point of the subgroup and depends only on the bytes that are read; the error comes
when the reader ends; and there is no other outcome. -/
theorem C89_randG1_outcomes (l : List UInt8) :
    (∃ p P used rest, l = used ++ rest ∧ used ≠ [] ∧ (∀ t, randG1From (used ++ t) = (.ok p, t)) ∧ p.Denotes P ∧ r • P = 0) ∨
      randG1From l = (.err, []) := by
  suffices ∀ n, ∀ l : List UInt8, l.length < n →
      (∃ p P used rest, l = used ++ rest ∧ used ≠ [] ∧ (∀ t, randG1From (used ++ t) = (.ok p, t)) ∧ p.Denotes P ∧ r • P = 0) ∨
        randG1From l = (.err, []) from this _ l (Nat.lt_succ_self _)
  intro n
  induction n with
  | zero => intro l h; omega
  | succ n ih =>
    intro l hln
    cases h : read1 l with
    | none => exact .inr (loop1_end h _)
    | some x =>
      obtain ⟨d, rest⟩ := x
      have hl := read1_length h
      obtain ⟨u, hu, rfl, hpre⟩ := read1_prefix h
      rcases from1_read h with ⟨T, p, hT, hp, k, e⟩ | ⟨hn, e⟩
      · refine .inl ⟨p, _, u, rest, rfl, hu, fun t => ?_, G1Projective.denotes_iff.mpr hp, ?_⟩
        · rcases from1_read (hpre t) with ⟨T', p', _, _, k', e'⟩ | ⟨h', _⟩
          · rw [k] at k'
            cases k'
            exact e'
          · exact absurd ⟨T, hT⟩ h'
        · exact E1.cofactor_torsion T
      · rw [e]
        rcases ih rest (by omega) with ⟨p, P, used, rest', rfl, h2, h3, h4⟩ | h1
        · refine .inl ⟨p, P, u ++ used, rest', (List.append_assoc _ _ _).symm, fun h => hu (List.append_eq_nil_iff.mp h).1,
            fun t => ?_, h4⟩
          rw [List.append_assoc]
          rcases from1_read (hpre (used ++ t)) with ⟨T, _, hT, _⟩ | ⟨_, e'⟩
          · exact absurd ⟨T, hT⟩ hn
          · rw [e', h3]
        · exact .inr h1

/-- Each non-zero point of order r is the result of `RandG1` for the same number of byte streams of `N` bytes. -/
theorem C89_randG1 (N : ℕ) (P P' : E1) (hP : r • P = 0) (hP' : r • P' = 0) (h0 : P ≠ 0) (h0' : P' ≠ 0) :
    Nat.card {b : List.Vector UInt8 N // ∃ p rest, randG1From b.toList = (.ok p, rest) ∧ p.Denotes P} =
    Nat.card {b : List.Vector UInt8 N // ∃ p rest, randG1From b.toList = (.ok p, rest) ∧ p.Denotes P'} := by
  have : Finite UInt8 := Nat.finite_of_card_ne_zero (by rw [card_u8]; decide)
  refine loop_even (D := UInt8 × Fin q) (X := E1) read1_even
    (fun l P => ∃ p rest, randG1From l = (.ok p, rest) ∧ p.Denotes P)
    (fun d P => ∃ T, Uniform.Sel xOf1 gr1 d T ∧ h1 • T = P) (fun d => ¬ ∃ T, Uniform.Sel xOf1 gr1 d T)
    (fun d P h h' => h' ⟨_, h.choose_spec.1⟩) (fun l P => ?_) ?_ N
  · cases h : read1 l with
    | none =>
      have e : randG1From l = (.err, []) := loop1_end h _
      rw [e]
      constructor
      · rintro ⟨_, _, h, _⟩; cases h
      · rintro ⟨_, _, h, _⟩; cases h
    | some x =>
      obtain ⟨d, rest⟩ := x
      have hx : (∃ d' rest', some (d, rest) = some (d', rest') ∧ ((∃ T, Uniform.Sel xOf1 gr1 d' T ∧ h1 • T = P) ∨
          (¬ ∃ T, Uniform.Sel xOf1 gr1 d' T) ∧ ∃ p r, randG1From rest' = (.ok p, r) ∧ p.Denotes P)) ↔
          ((∃ T, Uniform.Sel xOf1 gr1 d T ∧ h1 • T = P) ∨
          (¬ ∃ T, Uniform.Sel xOf1 gr1 d T) ∧ ∃ p r, randG1From rest = (.ok p, r) ∧ p.Denotes P) :=
        ⟨fun ⟨_, _, h, h'⟩ => by cases h; exact h', fun h => ⟨_, _, rfl, h⟩⟩
      refine Iff.trans ?_ hx.symm
      rcases from1_read h with ⟨T, p, hT, hp, k, e⟩ | ⟨hT, e⟩
      · rw [e]
        constructor
        · rintro ⟨p', _, hp', hP⟩
          cases hp'
          exact .inl ⟨T, hT, hp.fn (G1Projective.denotes_iff.mp hP)⟩
        · rintro (⟨T', hT', rfl⟩ | ⟨h, _⟩)
          · rw [Uniform.Sel.unique inj1 hT' hT]
            exact ⟨p, _, rfl, G1Projective.denotes_iff.mpr hp⟩
          · exact absurd ⟨T, hT⟩ h
      · rw [e]
        exact ⟨fun h => .inr ⟨hT, h⟩, fun h => h.elim (fun ⟨T, h, _⟩ => absurd ⟨T, h⟩ hT) And.right⟩
  · rw [fibre1 P hP, fibre1 P' hP', if_neg h0, if_neg h0']

/-- 49 bytes are enough for every such point. -/
theorem C89_randG1_all (P : E1) (hP : r • P = 0) (h0 : P ≠ 0) :
    ∃ (b : List UInt8) (p : G1Projective), b.length = 49 ∧ randG1From b = (.ok p, []) ∧ p.Denotes P := by
  have hc : 0 < Nat.card {d // ∃ T, Uniform.Sel xOf1 gr1 d T ∧ h1 • T = P} := by
    rw [fibre1 P hP, if_neg h0, h1]
    decide +kernel
  obtain ⟨⟨⟨b, v⟩, T, hT, rfl⟩⟩ := (Nat.card_pos_iff.mp hc).1
  obtain ⟨w, hw, hi⟩ := int_of v
  have hr : read1 (b :: w) = some ((b, v), []) :=
    andThen_iff.mpr ⟨w, rfl, by rw [← List.append_nil w]; exact hi []⟩
  rcases from1_read hr with ⟨T', p, hT', hp, _, e⟩ | ⟨h, _⟩
  · rw [Uniform.Sel.unique inj1 hT' hT] at hp
    exact ⟨_, p, by rw [List.length_cons, hw], e, G1Projective.denotes_iff.mpr hp⟩
  · exact absurd ⟨T, hT⟩ h

/-- The draws of one iteration of `RandG2`. -/
def read2 : List UInt8 → Option ((UInt8 × Fin q × Fin q) × List UInt8) := andThen byte (andThen (int q) (int q))

theorem read2_even : Even read2 := byte_even.andThen ((int_even shapeQ).andThen (int_even shapeQ))

theorem read2_length {l : List UInt8} {d : UInt8 × Fin q × Fin q} {rest : List UInt8} (h : read2 l = some (d, rest)) :
    rest.length < l.length := by
  obtain ⟨r', h1, h2⟩ := andThen_iff.mp h
  match l, h1 with
  | b :: t, h1 =>
    cases h1
    obtain ⟨r2, h3, h4⟩ := andThen_iff.mp h2
    exact Nat.lt_succ_of_le ((int_length h4).trans (int_length h3))

theorem read2_prefix {l : List UInt8} {d : UInt8 × Fin q × Fin q} {rest : List UInt8} (h : read2 l = some (d, rest)) :
    ∃ u, u ≠ [] ∧ l = u ++ rest ∧ ∀ t, read2 (u ++ t) = some (d, t) := by
  obtain ⟨r', h1, h2⟩ := andThen_iff.mp h
  match l, h1 with
  | b :: t, h1 =>
    obtain ⟨d1, d2⟩ := d
    cases h1
    obtain ⟨r2, h3, h4⟩ := andThen_iff.mp h2
    obtain ⟨u, rfl, hu⟩ := int_prefix h3
    obtain ⟨v, rfl, hv⟩ := int_prefix h4
    exact ⟨d1 :: (u ++ v), List.cons_ne_nil _ _, by rw [List.cons_append, List.append_assoc], fun t => andThen_iff.mpr ⟨(u ++ v) ++ t, rfl,
      andThen_iff.mpr ⟨v ++ t, by rw [List.append_assoc]; exact hu _, hv t⟩⟩⟩

/-- An iteration on a reader. -/
theorem loop2_read {l : List UInt8} {d : UInt8 × Fin q × Fin q} {rest : List UInt8} (h : read2 l = some (d, rest)) :
    ((∃ T p, Uniform.Sel xOf2 gr2 d T ∧ p.Rep (h2 • T) ∧ randG2Step (some d.1) (some (Int.ofNat d.2.1.1)) (some (Int.ofNat d.2.2.1)) = .ok (some p) ∧
        ∀ n, randG2Loop (n + 1) l = (.ok p, rest)) ∨
      (¬ ∃ T, Uniform.Sel xOf2 gr2 d T) ∧ ∀ n, randG2Loop (n + 1) l = randG2Loop n rest) := by
  obtain ⟨r', h1', h2'⟩ := andThen_iff.mp h
  match l, h1' with
  | b :: t, h1' =>
    obtain ⟨o, e, k1, k2⟩ := step2 d
    obtain ⟨d1, d2⟩ := d
    cases h1'
    obtain ⟨r2, h3', h4'⟩ := andThen_iff.mp h2'
    have hd := int_iff h3'
    have hd2 := int_iff h4'
    have e' : randG2Step (some d1) (some (Int.ofNat d2.1.1)) (some (Int.ofNat d2.2.1)) = .ok o := e
    cases o with
    | none =>
      refine .inr ⟨k2 rfl, fun n => ?_⟩
      rw [randG2Loop, qNat, hd]
      dsimp only
      rw [Option.isSome_some, if_pos rfl, hd2]
      dsimp only
      rw [Option.map_some, Option.map_some, e']
    | some p =>
      obtain ⟨T, hT, hp⟩ := k1 p rfl
      refine .inl ⟨T, p, hT, hp, e', fun n => ?_⟩
      rw [randG2Loop, qNat, hd]
      dsimp only
      rw [Option.isSome_some, if_pos rfl, hd2]
      dsimp only
      rw [Option.map_some, Option.map_some, e']

theorem loop2_end {l : List UInt8} (h : read2 l = none) (n : ℕ) : randG2Loop (n + 1) l = (.err, []) := by
  match l with
  | [] => rfl
  | b :: t =>
    rcases hd : randInt q t with ⟨o', rest'⟩
    cases o' with
    | none =>
      rw [randG2Loop, qNat, hd, randInt_none_rest hd]
      rfl
    | some v =>
      rw [randG2Loop, qNat, hd]
      dsimp only
      rw [Option.isSome_some, if_pos rfl]
      rcases hd2 : randInt q rest' with ⟨o2, rest2⟩
      cases o2 with
      | none =>
        obtain ⟨f, e, _⟩ := FQ.rand_spec (z := v) (by omega) (by exact_mod_cast shapeQ.lt hd)
        have e' : FQ.rand (some (Int.ofNat v)) = some (some f) := e
        rw [randInt_none_rest hd2]
        dsimp only
        rw [Option.map_some, Option.map_none, randG2Step, FQ2.rand, e']
        rfl
      | some w => rw [read2, andThen, byte, Option.bind_some, andThen, int_some hd, Option.bind_some, int_some hd2] at h; cases h

theorem loop2_fuel (n m : ℕ) (l : List UInt8) (hn : l.length < n) (hm : l.length < m) : randG2Loop n l = randG2Loop m l := by
  induction n generalizing m l with
  | zero => omega
  | succ n ih =>
    obtain ⟨m, rfl⟩ : ∃ k, m = k + 1 := ⟨m - 1, by omega⟩
    cases h : read2 l with
    | none => rw [loop2_end h, loop2_end h]
    | some x =>
      obtain ⟨d, rest⟩ := x
      have hl := read2_length h
      have hr := ih m rest (by omega) (by omega)
      rcases loop2_read h with ⟨T, p, hT, hp, k, e⟩ | ⟨hT, e⟩
      · rw [e, e]
      · rw [e, e, hr]

theorem from2_read {l : List UInt8} {d : UInt8 × Fin q × Fin q} {rest : List UInt8} (h : read2 l = some (d, rest)) :
    ((∃ T p, Uniform.Sel xOf2 gr2 d T ∧ p.Rep (h2 • T) ∧ randG2Step (some d.1) (some (Int.ofNat d.2.1.1)) (some (Int.ofNat d.2.2.1)) = .ok (some p) ∧
        randG2From l = (.ok p, rest)) ∨
      (¬ ∃ T, Uniform.Sel xOf2 gr2 d T) ∧ randG2From l = randG2From rest) := by
  have hl := read2_length h
  rcases loop2_read h with ⟨T, p, hT, hp, k, e⟩ | ⟨hT, e⟩
  · exact .inl ⟨T, p, hT, hp, k, e _⟩
  · exact .inr ⟨hT, (e _).trans (loop2_fuel _ _ _ hl (Nat.lt_succ_self _))⟩

/-- `RandG2` on a reader: a result is a point of the subgroup and depends only on the bytes that are read; the error comes
when the reader ends; and there is no other outcome. -/
theorem C89_randG2_outcomes (l : List UInt8) :
    (∃ p P used rest, l = used ++ rest ∧ used ≠ [] ∧ (∀ t, randG2From (used ++ t) = (.ok p, t)) ∧ p.Denotes P ∧ r • P = 0) ∨
      randG2From l = (.err, []) := by
  suffices ∀ n, ∀ l : List UInt8, l.length < n →
      (∃ p P used rest, l = used ++ rest ∧ used ≠ [] ∧ (∀ t, randG2From (used ++ t) = (.ok p, t)) ∧ p.Denotes P ∧ r • P = 0) ∨
        randG2From l = (.err, []) from this _ l (Nat.lt_succ_self _)
  intro n
  induction n with
  | zero => intro l h; omega
  | succ n ih =>
    intro l hln
    cases h : read2 l with
    | none => exact .inr (loop2_end h _)
    | some x =>
      obtain ⟨d, rest⟩ := x
      have hl := read2_length h
      obtain ⟨u, hu, rfl, hpre⟩ := read2_prefix h
      rcases from2_read h with ⟨T, p, hT, hp, k, e⟩ | ⟨hn, e⟩
      · refine .inl ⟨p, _, u, rest, rfl, hu, fun t => ?_, G2Projective.denotes_iff.mpr hp, ?_⟩
        · rcases from2_read (hpre t) with ⟨T', p', _, _, k', e'⟩ | ⟨h', _⟩
          · rw [k] at k'
            cases k'
            exact e'
          · exact absurd ⟨T, hT⟩ h'
        · exact E2.cofactor_torsion T
      · rw [e]
        rcases ih rest (by omega) with ⟨p, P, used, rest', rfl, h2, h3, h4⟩ | h1
        · refine .inl ⟨p, P, u ++ used, rest', (List.append_assoc _ _ _).symm, fun h => hu (List.append_eq_nil_iff.mp h).1,
            fun t => ?_, h4⟩
          rw [List.append_assoc]
          rcases from2_read (hpre (used ++ t)) with ⟨T, _, hT, _⟩ | ⟨_, e'⟩
          · exact absurd ⟨T, hT⟩ hn
          · rw [e', h3]
        · exact .inr h1

/-- Each non-zero point of order r is the result of `RandG2` for the same number of byte streams of `N` bytes. -/
theorem C89_randG2 (N : ℕ) (P P' : E2) (hP : r • P = 0) (hP' : r • P' = 0) (h0 : P ≠ 0) (h0' : P' ≠ 0) :
    Nat.card {b : List.Vector UInt8 N // ∃ p rest, randG2From b.toList = (.ok p, rest) ∧ p.Denotes P} =
    Nat.card {b : List.Vector UInt8 N // ∃ p rest, randG2From b.toList = (.ok p, rest) ∧ p.Denotes P'} := by
  have : Finite UInt8 := Nat.finite_of_card_ne_zero (by rw [card_u8]; decide)
  refine loop_even (D := UInt8 × Fin q × Fin q) (X := E2) read2_even
    (fun l P => ∃ p rest, randG2From l = (.ok p, rest) ∧ p.Denotes P)
    (fun d P => ∃ T, Uniform.Sel xOf2 gr2 d T ∧ h2 • T = P) (fun d => ¬ ∃ T, Uniform.Sel xOf2 gr2 d T)
    (fun d P h h' => h' ⟨_, h.choose_spec.1⟩) (fun l P => ?_) ?_ N
  · cases h : read2 l with
    | none =>
      have e : randG2From l = (.err, []) := loop2_end h _
      rw [e]
      constructor
      · rintro ⟨_, _, h, _⟩; cases h
      · rintro ⟨_, _, h, _⟩; cases h
    | some x =>
      obtain ⟨d, rest⟩ := x
      have hx : (∃ d' rest', some (d, rest) = some (d', rest') ∧ ((∃ T, Uniform.Sel xOf2 gr2 d' T ∧ h2 • T = P) ∨
          (¬ ∃ T, Uniform.Sel xOf2 gr2 d' T) ∧ ∃ p r, randG2From rest' = (.ok p, r) ∧ p.Denotes P)) ↔
          ((∃ T, Uniform.Sel xOf2 gr2 d T ∧ h2 • T = P) ∨
          (¬ ∃ T, Uniform.Sel xOf2 gr2 d T) ∧ ∃ p r, randG2From rest = (.ok p, r) ∧ p.Denotes P) :=
        ⟨fun ⟨_, _, h, h'⟩ => by cases h; exact h', fun h => ⟨_, _, rfl, h⟩⟩
      refine Iff.trans ?_ hx.symm
      rcases from2_read h with ⟨T, p, hT, hp, k, e⟩ | ⟨hT, e⟩
      · rw [e]
        constructor
        · rintro ⟨p', _, hp', hP⟩
          cases hp'
          exact .inl ⟨T, hT, hp.fn (G2Projective.denotes_iff.mp hP)⟩
        · rintro (⟨T', hT', rfl⟩ | ⟨h, _⟩)
          · rw [Uniform.Sel.unique inj2 hT' hT]
            exact ⟨p, _, rfl, G2Projective.denotes_iff.mpr hp⟩
          · exact absurd ⟨T, hT⟩ h
      · rw [e]
        exact ⟨fun h => .inr ⟨hT, h⟩, fun h => h.elim (fun ⟨T, h, _⟩ => absurd ⟨T, h⟩ hT) And.right⟩
  · rw [fibre2 P hP, fibre2 P' hP', if_neg h0, if_neg h0']

/-- 97 bytes are enough for every such point. -/
theorem C89_randG2_all (P : E2) (hP : r • P = 0) (h0 : P ≠ 0) :
    ∃ (b : List UInt8) (p : G2Projective), b.length = 97 ∧ randG2From b = (.ok p, []) ∧ p.Denotes P := by
  have hc : 0 < Nat.card {d // ∃ T, Uniform.Sel xOf2 gr2 d T ∧ h2 • T = P} := by
    rw [fibre2 P hP, if_neg h0, h2]
    decide +kernel
  obtain ⟨⟨⟨b, v, v'⟩, T, hT, rfl⟩⟩ := (Nat.card_pos_iff.mp hc).1
  obtain ⟨w, hw, hi⟩ := int_of v
  obtain ⟨w', hw', hi'⟩ := int_of v'
  have hr : read2 (b :: (w ++ w')) = some ((b, v, v'), []) :=
    andThen_iff.mpr ⟨w ++ w', rfl, andThen_iff.mpr ⟨w', hi w', by rw [← List.append_nil w']; exact hi' []⟩⟩
  rcases from2_read hr with ⟨T', p, hT', hp, _, e⟩ | ⟨h, _⟩
  · rw [Uniform.Sel.unique inj2 hT' hT] at hp
    exact ⟨_, p, by rw [List.length_cons, List.length_append, hw, hw'], e, G2Projective.denotes_iff.mpr hp⟩
  · exact absurd ⟨T, hT⟩ h

/-- Non-vacuity: the generators are such points. -/
example : r • g1Gen = 0 ∧ g1Gen ≠ 0 ∧ r • g2Gen = 0 ∧ g2Gen ≠ 0 :=
  ⟨r_smul_g1Gen, g1Gen_ne_zero, r_smul_g2Gen, g2Gen_ne_zero⟩

end Bls.Props
