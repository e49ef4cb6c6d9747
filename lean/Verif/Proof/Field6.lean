import Verif.Proof.Field12
import Verif.Proof.History6
/-
Programs on `FQ6` and `FQ12` compute in the fields Fq6 and Fq12 (spec: Verif/Spec/History6.lean).
-/
namespace Bls.Heap12

/-- Variable by variable, `s` denotes `t`. -/
abbrev All6 (s : List (Option FQ6)) (t : List (Option Fq6)) : Prop := List.Forall₂ (Option.Rel FQ6.Rep) s t

/-- Both fail, or both give variables that denote the same elements and the same booleans. -/
def AgreeF6 (a : Option (List (Option FQ6) × List Bool)) (b : Option (List (Option Fq6) × List Bool)) : Prop :=
  (a = none ∧ b = none) ∨ ∃ s t o, a = some (s, o) ∧ b = some (t, o) ∧ All6 s t

theorem All6.live {s : List (Option FQ6)} {t : List (Option Fq6)} (h : All6 s t) : ∀ i : Nat,
    (live s i = none ∧ live t i = none) ∨ ∃ a x, live s i = some a ∧ live t i = some x ∧ FQ6.Rep a x := by
  induction h with
  | nil => intro i; exact .inl ⟨rfl, rfl⟩
  | cons h _ ih =>
    intro i
    cases i with
    | zero =>
      cases h with
      | none => exact .inl ⟨rfl, rfl⟩
      | some h => exact .inr ⟨_, _, rfl, rfl, h⟩
    | succ i => exact ih i

theorem All6.mine {s : List (Option FQ6)} {t : List (Option Fq6)} (h : All6 s t) (i : Nat) :
    (mine s i = none ∧ mine t i = none) ∨ ∃ a x, mine s i = some a ∧ mine t i = some x ∧ FQ6.Rep a x := by
  unfold Heap12.mine
  split
  · exact h.live i
  · exact .inl ⟨rfl, rfl⟩

theorem All6.set {s : List (Option FQ6)} {t : List (Option Fq6)} (h : All6 s t) {a : Option FQ6} {x : Option Fq6}
    (r : Option.Rel FQ6.Rep a x) : ∀ i : Nat, All6 (s.set i a) (t.set i x) := by
  induction h with
  | nil => intro i; exact .nil
  | cons h h2 ih =>
    intro i
    cases i with
    | zero => exact .cons r h2
    | succ i => exact .cons h (ih i)

theorem All6.push {s : List (Option FQ6)} {t : List (Option Fq6)} (h : All6 s t) {a : FQ6} {x : Fq6} (r : a.Rep x) :
    All6 (s ++ [some a]) (t ++ [some x]) := List.rel_append h (.cons (.some r) .nil)

theorem AgreeF6.some' {s : List (Option FQ6)} {t : List (Option Fq6)} {o p : List Bool} (e : o = p) (h : All6 s t) :
    AgreeF6 (some (s, o)) (some (t, p)) := .inr ⟨s, t, o, rfl, by rw [e], h⟩

theorem unary6 {s : List (Option FQ6)} {t : List (Option Fq6)} (h : All6 s t) (i : Nat) (f : FQ6 → FQ6) (g : Fq6 → Fq6)
    (k : ∀ {a x}, FQ6.Rep a x → (f a).Rep (g x)) :
    AgreeF6 ((mine s i).map fun x => (s.set i (some (f x)), [])) ((mine t i).map fun x => (t.set i (some (g x)), [])) := by
  rcases h.mine i with ⟨a, b⟩ | ⟨a, x, e1, e2, r⟩
  · rw [a, b]; exact .inl ⟨rfl, rfl⟩
  · rw [e1, e2]; exact .some' rfl (h.set (.some (k r)) i)

theorem binary6 {s : List (Option FQ6)} {t : List (Option Fq6)} (h : All6 s t) (i j : Nat) (f : FQ6 → FQ6 → FQ6)
    (g : Fq6 → Fq6 → Fq6) (k : ∀ {a b x y}, FQ6.Rep a x → FQ6.Rep b y → (f a b).Rep (g x y)) :
    AgreeF6 ((mine s i).bind fun x => (live s j).map fun y => (s.set i (some (f x y)), []))
      ((mine t i).bind fun x => (live t j).map fun y => (t.set i (some (g x y)), [])) := by
  rcases h.mine i with ⟨a, b⟩ | ⟨a, x, e1, e2, r⟩
  · rw [a, b]; exact .inl ⟨rfl, rfl⟩
  · rw [e1, e2]
    rcases h.live j with ⟨a, b⟩ | ⟨b, y, e3, e4, r'⟩
    · rw [a, b]; exact .inl ⟨rfl, rfl⟩
    · rw [e3, e4]; exact .some' rfl (h.set (.some (k r r')) i)

theorem mulBy1_field {s : List (Option FQ6)} {t : List (Option Fq6)} (h : All6 s t) (i : Nat) {c1 : FQ2}
    (h1 : c1.isValid = true) :
    AgreeF6 ((mine s i).map fun x => (s.set i (some (x.mulBy1 c1)), []))
      ((mine t i).map fun x => (t.set i (some (x * ⟨0, c1.fld, 0⟩)), [])) := by
  have k := fun {a x} (r : FQ6.Rep a x) => r.mulBy1 (FQ2.rep h1)
  exact unary6 h i _ _ k

theorem mulBy01_field {s : List (Option FQ6)} {t : List (Option Fq6)} (h : All6 s t) (i : Nat) {c0 c1 : FQ2}
    (h0 : c0.isValid = true) (h1 : c1.isValid = true) :
    AgreeF6 ((mine s i).map fun x => (s.set i (some (x.mulBy01 c0 c1)), []))
      ((mine t i).map fun x => (t.set i (some (x * ⟨c0.fld, c1.fld, 0⟩)), [])) := by
  have k := fun {a x} (r : FQ6.Rep a x) => r.mulBy01 (FQ2.rep h0) (FQ2.rep h1)
  exact unary6 h i _ _ k

open Classical in
theorem op6_field {s : List (Option FQ6)} {t : List (Option Fq6)} (h : All6 s t) (op : Op6)
    (c : (Call.six op).Canonical) : AgreeF6 (op.onValues s) (op.onField t) := by
  cases op <;> simp only [Op6.onValues, Op6.onField]
  case new c0 c1 c2 => exact .some' rfl (h.push ⟨FQ2.rep c.1, FQ2.rep c.2.1, FQ2.rep c.2.2⟩)
  case rand c0 c1 c2 => exact .some' rfl (h.push ⟨FQ2.rep c.1, FQ2.rep c.2.1, FQ2.rep c.2.2⟩)
  case copy i =>
    rcases h.live i with ⟨a, b⟩ | ⟨a, x, e1, e2, r⟩
    · rw [a, b]; exact .inl ⟨rfl, rfl⟩
    · rw [e1, e2]; exact .some' rfl (h.push r)
  case exp i n => exact False.elim c
  case double i => exact unary6 h i _ _ fun r => by rw [two_mul]; exact r.double
  case neg i => exact unary6 h i _ _ fun r => r.neg
  case square i => exact unary6 h i _ _ fun r => by rw [sq]; exact r.square
  case nonresidue i => exact unary6 h i _ _ fun r => by rw [mul_comm]; exact r.mulByNonresidue
  case frobenius i k => exact unary6 h i _ _ fun r => r.frobeniusMap k
  case mulBy1 i c1 => exact mulBy1_field h i c
  case mulBy01 i c0 c1 => exact mulBy01_field h i c.1 c.2
  case add i j => exact binary6 h i j _ _ fun r r' => r.add r'
  case sub i j => exact binary6 h i j _ _ fun r r' => r.sub r'
  case mul i j =>
    simp only [if_neg (show ¬ i = j from c)]
    exact binary6 h i j _ _ fun r r' => r.mul r'
  case inverse i =>
    rcases h.mine i with ⟨a, b⟩ | ⟨a, x, e1, e2, r⟩
    · rw [a, b]; exact .inl ⟨rfl, rfl⟩
    · rw [e1, e2, Option.map_some, Option.map_some]
      refine .some' (decide_of ?_) (h.set (.some r.inverse) i)
      by_cases hx : x = 0
      · subst hx; rw [r.inverse_zero]; simp
      · simp [(r.inverse_ne hx).1, hx]
  case equals i j =>
    rcases h.live i with ⟨a, b⟩ | ⟨a, x, e1, e2, r⟩
    · rw [a, b]; exact .inl ⟨rfl, rfl⟩
    · rw [e1, e2]
      rcases h.live j with ⟨a, b⟩ | ⟨b, y, e3, e4, r'⟩
      · rw [a, b]; exact .inl ⟨rfl, rfl⟩
      · rw [e3, e4]; exact .some' (decide_of (r.equals r')) h
  case isZero i =>
    rcases h.live i with ⟨a, b⟩ | ⟨a, x, e1, e2, r⟩
    · rw [a, b]; exact .inl ⟨rfl, rfl⟩
    · rw [e1, e2]; exact .some' (decide_of r.isZero) h

/-- Both fail, or both give variables that denote the same elements and the same booleans. -/
def AgreeFV (a : Option (Vars FQ6 FQ12 × List Bool)) (b : Option (Vars Fq6 Fq12 × List Bool)) : Prop :=
  (a = none ∧ b = none) ∨ ∃ s t o, a = some (s, o) ∧ b = some (t, o) ∧ All6 s.six t.six ∧ All s.twelve t.twelve

theorem of_add_w (x y : Fq6) : Fq12.of x + Fq12.of y * Fq12.w = ⟨x, y⟩ := by
  ext <;> simp [Fq12.of, Fq12.w]

theorem call_field {s : Vars FQ6 FQ12} {t : Vars Fq6 Fq12} (h : All6 s.six t.six) (h' : All s.twelve t.twelve) (c : Call)
    (hc : c.Canonical) : AgreeFV (c.onValues s) (c.onField t) := by
  cases c with
  | six op =>
    simp only [Call.onField, Call.onValues]
    rcases op6_field h op hc with ⟨a, b⟩ | ⟨s', t', o, a, b, k⟩
    · rw [a, b]; exact .inl ⟨rfl, rfl⟩
    · rw [a, b]; exact .inr ⟨_, _, _, rfl, rfl, k, h'⟩
  | twelve op =>
    simp only [Call.onField, Call.onValues]
    rcases op_field h' op hc with ⟨a, b⟩ | ⟨s', t', o, a, b, k⟩
    · rw [a, b]; exact .inl ⟨rfl, rfl⟩
    · rw [a, b]; exact .inr ⟨_, _, _, rfl, rfl, h, k⟩
  | newFQ12 i j =>
    simp only [Call.onField, Call.onValues]
    by_cases hij : i = j
    · rw [if_pos hij, if_pos hij]; exact .inl ⟨rfl, rfl⟩
    rw [if_neg hij, if_neg hij]
    rcases h.mine i with ⟨a, b⟩ | ⟨a, x, e1, e2, r⟩
    · rw [a, b]; exact .inl ⟨rfl, rfl⟩
    rcases h.mine j with ⟨a', b⟩ | ⟨a', y, e3, e4, r'⟩
    · rw [e1, e2, a', b]; exact .inl ⟨rfl, rfl⟩
    rw [e1, e2, e3, e4, Option.bind_some, Option.bind_some, Option.map_some, Option.map_some, of_add_w]
    exact .inr ⟨_, _, _, rfl, rfl, (h.set .none i).set .none j, h'.push ⟨r, r'⟩⟩

theorem calls_field (cs : List Call) (c : ∀ x ∈ cs, x.Canonical) : ∀ {s : Vars FQ6 FQ12} {t : Vars Fq6 Fq12},
    All6 s.six t.six → All s.twelve t.twelve → AgreeFV (callsOnValues cs s) (callsOnField cs t) := by
  induction cs with
  | nil => intro s t h h'; exact .inr ⟨_, _, _, rfl, rfl, h, h'⟩
  | cons op ops ih =>
    intro s t h h'
    unfold callsOnValues callsOnField
    rcases call_field h h' op (c op (.head _)) with ⟨a, b⟩ | ⟨s', t', o, a, b, k, k'⟩
    · rw [a, b]; exact .inl ⟨rfl, rfl⟩
    · rw [a, b, Option.bind_some, Option.bind_some]
      dsimp only
      rcases ih (fun op h => c op (.tail _ h)) k k' with ⟨a, b⟩ | ⟨s2, t2, o2, a, b, k2, k2'⟩
      · rw [a, b]; exact .inl ⟨rfl, rfl⟩
      · rw [a, b]; exact .inr ⟨_, _, _, rfl, rfl, k2, k2'⟩

theorem All6.out {s : List (Option FQ6)} {t : List (Option Fq6)} (h : All6 s t) :
    (∀ a, some a ∈ s → a.isValid) ∧ s.map (Option.map FQ6.fld) = t := by
  induction h with
  | nil => exact ⟨by simp, rfl⟩
  | cons h _ ih =>
    cases h with
    | none =>
      refine ⟨fun a ha => ?_, by rw [List.map_cons, ih.2]; rfl⟩
      rcases List.mem_cons.mp ha with ha | ha
      · cases ha
      · exact ih.1 a ha
    | some h =>
      refine ⟨fun a ha => ?_, by rw [List.map_cons, ih.2, Option.map_some, h.out.2]⟩
      rcases List.mem_cons.mp ha with ha | ha
      · cases ha; exact h.out.1
      · exact ih.1 a ha

theorem executeCalls_field (cs : List Call) (c : ∀ x ∈ cs, x.Canonical) :
    (executeCalls cs).map (fun t => (⟨t.1.six.map (Option.map FQ6.fld), t.1.twelve.map FQ12.fld⟩, t.2)) =
      callsOnField cs ⟨[some 0, some 1], [0, 1]⟩ ∧
    ∀ s o, executeCalls cs = some (s, o) → (∀ a, some a ∈ s.six → a.isValid) ∧ ∀ a ∈ s.twelve, a.isValid := by
  rw [executeCalls_eq]
  rcases calls_field cs c (s := ⟨[some FQ6.zero, some FQ6.one], [FQ12.zero, FQ12.one]⟩) (t := ⟨[some 0, some 1], [0, 1]⟩)
    (.cons (.some FQ6.zero_rep) (.cons (.some FQ6.one_rep) .nil))
    (.cons FQ12.zero_rep (.cons FQ12.one_rep .nil)) with ⟨a, b⟩ | ⟨s, t, o, a, b, h, h'⟩
  · rw [a, b]; exact ⟨rfl, fun _ _ h => by cases h⟩
  · rw [a, b]
    refine ⟨by rw [Option.map_some, h.out.2, h'.out.2], fun _ _ e => ?_⟩
    cases e
    exact ⟨h.out.1, h'.out.1⟩

end Bls.Heap12
