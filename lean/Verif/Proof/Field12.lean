import Verif.Spec.Field12
import Verif.Proof.TowerVal
import Verif.Proof.Cards
import Verif.Proof.FinalExp
import Verif.Proof.History12
/-
Programs on `FQ12` compute in the field Fq12 (spec: Verif/Spec/Field12.lean).
-/
namespace Bls.Heap12

/-- Value by value, `s` denotes `t`. -/
abbrev All (s : List FQ12) (t : List Fq12) : Prop := List.Forall₂ FQ12.Rep s t

/-- Both fail, or both give lists that denote the same elements and the same booleans. -/
def AgreeF (a : Option (List FQ12 × List Bool)) (b : Option (List Fq12 × List Bool)) : Prop :=
  (a = none ∧ b = none) ∨ ∃ s t o, a = some (s, o) ∧ b = some (t, o) ∧ All s t

theorem All.getV {s : List FQ12} {t : List Fq12} (h : All s t) : ∀ i : Nat,
    (s[i]? = none ∧ t[i]? = none) ∨ ∃ a x, s[i]? = some a ∧ t[i]? = some x ∧ FQ12.Rep a x := by
  induction h with
  | nil => intro i; exact .inl ⟨rfl, rfl⟩
  | cons h _ ih =>
    intro i
    cases i with
    | zero => exact .inr ⟨_, _, rfl, rfl, h⟩
    | succ i => exact ih i

theorem All.own {s : List FQ12} {t : List Fq12} (h : All s t) (i : Nat) :
    (Heap12.own s i = none ∧ Heap12.own t i = none) ∨ ∃ a x, Heap12.own s i = some a ∧ Heap12.own t i = some x ∧ FQ12.Rep a x := by
  unfold Heap12.own
  split
  · exact h.getV i
  · exact .inl ⟨rfl, rfl⟩

theorem All.set {s : List FQ12} {t : List Fq12} (h : All s t) {a : FQ12} {x : Fq12} (r : a.Rep x) : ∀ i : Nat,
    All (s.set i a) (t.set i x) := by
  induction h with
  | nil => intro i; exact .nil
  | cons h h2 ih =>
    intro i
    cases i with
    | zero => exact .cons r h2
    | succ i => exact .cons h (ih i)

theorem All.push {s : List FQ12} {t : List Fq12} (h : All s t) {a : FQ12} {x : Fq12} (r : a.Rep x) :
    All (s ++ [a]) (t ++ [x]) := List.rel_append h (.cons r .nil)

theorem AgreeF.some' {s : List FQ12} {t : List Fq12} {o p : List Bool} (e : o = p) (h : All s t) :
    AgreeF (some (s, o)) (some (t, p)) := .inr ⟨s, t, o, rfl, by rw [e], h⟩

theorem unary {s : List FQ12} {t : List Fq12} (h : All s t) (i : Nat) (f : FQ12 → FQ12) (g : Fq12 → Fq12)
    (k : ∀ {a x}, FQ12.Rep a x → (f a).Rep (g x)) :
    AgreeF ((own s i).map fun x => (s.set i (f x), [])) ((own t i).map fun x => (t.set i (g x), [])) := by
  rcases h.own i with ⟨a, b⟩ | ⟨a, x, e1, e2, r⟩
  · rw [a, b]; exact .inl ⟨rfl, rfl⟩
  · rw [e1, e2]; exact .some' rfl (h.set (k r) i)

theorem binary {s : List FQ12} {t : List Fq12} (h : All s t) (i j : Nat) (f : FQ12 → FQ12 → FQ12)
    (g : Fq12 → Fq12 → Fq12) (k : ∀ {a b x y}, FQ12.Rep a x → FQ12.Rep b y → (f a b).Rep (g x y)) :
    AgreeF ((own s i).bind fun x => s[j]?.map fun y => (s.set i (f x y), []))
      ((own t i).bind fun x => t[j]?.map fun y => (t.set i (g x y), [])) := by
  rcases h.own i with ⟨a, b⟩ | ⟨a, x, e1, e2, r⟩
  · rw [a, b]; exact .inl ⟨rfl, rfl⟩
  · rw [e1, e2]
    rcases h.getV j with ⟨a, b⟩ | ⟨b, y, e3, e4, r'⟩
    · rw [a, b]; exact .inl ⟨rfl, rfl⟩
    · rw [e3, e4]; exact .some' rfl (h.set (k r r') i)

theorem fresh {s : List FQ12} {t : List Fq12} (h : All s t) (i : Nat) (f : FQ12 → FQ12) (g : Fq12 → Fq12)
    (k : ∀ {a x}, FQ12.Rep a x → (f a).Rep (g x)) :
    AgreeF (s[i]?.map fun x => (s ++ [f x], [])) (t[i]?.map fun x => (t ++ [g x], [])) := by
  rcases h.getV i with ⟨a, b⟩ | ⟨a, x, e1, e2, r⟩
  · rw [a, b]; exact .inl ⟨rfl, rfl⟩
  · rw [e1, e2]; exact .some' rfl (h.push (k r))

theorem decide_of {b : Bool} {p : Prop} [Decidable p] (h : b = true ↔ p) : [b] = [decide p] := by
  rw [List.cons.injEq]; exact ⟨Bool.eq_iff_iff.mpr (by rw [h, decide_eq_true_eq]), rfl⟩

theorem mulBy014_field {s : List FQ12} {t : List Fq12} (h : All s t) (i : Nat) {c0 c1 c4 : FQ2}
    (h0 : c0.isValid = true) (h1 : c1.isValid = true) (h4 : c4.isValid = true) :
    AgreeF ((own s i).map fun x => (s.set i (x.mulBy014 c0 c1 c4), []))
      ((own t i).map fun x => (t.set i (x * ⟨⟨c0.fld, c1.fld, 0⟩, ⟨0, c4.fld, 0⟩⟩), [])) := by
  have k := fun {a x} (r : FQ12.Rep a x) => r.mulBy014 (FQ2.rep h0) (FQ2.rep h1) (FQ2.rep h4)
  exact unary h i _ _ k

open Classical in
theorem op_field {s : List FQ12} {t : List Fq12} (h : All s t) (op : Op) (c : op.Canonical) :
    AgreeF (op.onValues s) (op.onField t) := by
  cases op with
  | conjugate i => simp only [Op.onValues, Op.onField]; exact unary h i _ _ fun r => by rw [← Fq12.conj_eq]; exact r.conjugate
  | double i => simp only [Op.onValues, Op.onField]; exact unary h i _ _ fun r => by rw [two_mul]; exact r.double
  | neg i => simp only [Op.onValues, Op.onField]; exact unary h i _ _ fun r => r.neg
  | square i => simp only [Op.onValues, Op.onField]; exact unary h i _ _ fun r => by rw [sq]; exact r.square
  | frobenius i k => simp only [Op.onValues, Op.onField]; exact unary h i _ _ fun r => r.frobeniusMap k
  | mulBy014 i c0 c1 c4 =>
    simp only [Op.onValues, Op.onField]
    simp only [Op.Canonical] at c
    exact mulBy014_field h i c.1 c.2.1 c.2.2
  | add i j => simp only [Op.onValues, Op.onField]; exact binary h i j _ _ fun r r' => r.add r'
  | sub i j => simp only [Op.onValues, Op.onField]; exact binary h i j _ _ fun r r' => r.sub r'
  | mul i j => simp only [Op.onValues, Op.onField]; exact binary h i j _ _ fun r r' => r.mul r'
  | inverse i =>
    simp only [Op.onValues, Op.onField]
    rcases h.own i with ⟨a, b⟩ | ⟨a, x, e1, e2, r⟩
    · rw [a, b]; exact .inl ⟨rfl, rfl⟩
    · rw [e1, e2, Option.map_some, Option.map_some]
      refine .some' (decide_of ?_) (h.set r.inverse i)
      by_cases hx : x = 0
      · subst hx; rw [r.inverse_zero]; simp
      · simp [(r.inverse_ne hx).1, hx]
  | equals i j =>
    simp only [Op.onValues, Op.onField]
    rcases h.getV i with ⟨a, b⟩ | ⟨a, x, e1, e2, r⟩
    · rw [a, b]; exact .inl ⟨rfl, rfl⟩
    · rw [e1, e2]
      rcases h.getV j with ⟨a, b⟩ | ⟨b, y, e3, e4, r'⟩
      · rw [a, b]; exact .inl ⟨rfl, rfl⟩
      · rw [e3, e4]; exact .some' (decide_of (r.equals r')) h
  | isZero i =>
    simp only [Op.onValues, Op.onField]
    rcases h.getV i with ⟨a, b⟩ | ⟨a, x, e1, e2, r⟩
    · rw [a, b]; exact .inl ⟨rfl, rfl⟩
    · rw [e1, e2]; exact .some' (decide_of r.isZero) h
  | rand a b => exact .some' rfl (h.push ⟨FQ6.rep c.1, FQ6.rep c.2⟩)
  | copy i => simp only [Op.onValues, Op.onField]; exact fresh h i id id fun r => r
  | exp i n => simp only [Op.onValues, Op.onField]; exact fresh h i _ _ fun r => r.exp n
  | finalExponentiation i =>
    simp only [Op.onValues, Op.onField]
    rcases h.getV i with ⟨a, b⟩ | ⟨a, x, e1, e2, r⟩
    · rw [a, b]; exact .inl ⟨rfl, rfl⟩
    · rw [e1, e2, Option.map_some, Option.map_some]
      by_cases hx : x = 0
      · subst hx
        rw [r.finalExponentiation_zero, if_pos rfl]
        exact .some' rfl (by rw [Option.toList_none, List.append_nil]; exact h)
      · obtain ⟨g, e, rg⟩ := r.finalExponentiation hx
        rw [fullExp] at rg
        rw [e, if_neg hx]
        exact .some' rfl (h.push rg)
  | millerLoop _ => exact False.elim c
  | pairing _ _ => exact False.elim c
  | compareTwoPairings _ _ _ _ => exact False.elim c

theorem run_field (ops : List Op) (c : ∀ op ∈ ops, op.Canonical) : ∀ {s : List FQ12} {t : List Fq12}, All s t →
    AgreeF (valuesRun ops s) (fieldRun ops t) := by
  induction ops with
  | nil => intro s t h; exact .some' rfl h
  | cons op ops ih =>
    intro s t h
    unfold valuesRun fieldRun
    rcases op_field h op (c op (.head _)) with ⟨a, b⟩ | ⟨s', t', o, a, b, h'⟩
    · rw [a, b]; exact .inl ⟨rfl, rfl⟩
    · rw [a, b, Option.bind_some, Option.bind_some]
      dsimp only
      rcases ih (fun op h => c op (.tail _ h)) h' with ⟨a, b⟩ | ⟨s2, t2, o2, a, b, h2⟩
      · rw [a, b]; exact .inl ⟨rfl, rfl⟩
      · rw [a, b]; exact .some' rfl h2

theorem All.out {s : List FQ12} {t : List Fq12} (h : All s t) : (∀ a ∈ s, a.isValid) ∧ s.map FQ12.fld = t := by
  induction h with
  | nil => exact ⟨by simp, rfl⟩
  | cons h _ ih => exact ⟨List.forall_mem_cons.mpr ⟨h.out.1, ih.1⟩, by rw [List.map_cons, h.out.2, ih.2]⟩

theorem execute_field (ops : List Op) (c : ∀ op ∈ ops, op.Canonical) :
    (execute ops).map (fun t => (t.1.map FQ12.fld, t.2)) = fieldRun ops [0, 1] ∧
      ∀ s o, execute ops = some (s, o) → ∀ a ∈ s, a.isValid := by
  rw [execute_eq]
  rcases run_field ops c (.cons FQ12.zero_rep (.cons FQ12.one_rep .nil)) with ⟨a, b⟩ | ⟨s, t, o, a, b, h⟩
  · rw [a, b]; exact ⟨rfl, fun _ _ h => by cases h⟩
  · rw [a, b]
    exact ⟨by rw [Option.map_some, h.out.2], fun _ _ e => by cases e; exact h.out.1⟩

end Bls.Heap12
