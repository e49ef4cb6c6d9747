import Verif.Spec.Params
import Verif.Proof.Sort
import Mathlib.Algebra.BigOperators.Group.List.Basic
import Mathlib.Algebra.Group.Basic
import Mathlib.Data.List.Forall2
/-
Lists of values and what they denote.
-/
namespace Bls

theorem forall₂_of_forall {α β : Type*} {R : α → β → Prop} {l : List α} (h : ∀ a ∈ l, ∃ b, R a b) :
    ∃ l', List.Forall₂ R l l' := by
  induction l with
  | nil => exact ⟨[], .nil⟩
  | cons a l ih =>
    obtain ⟨l', hl⟩ := ih fun x hx => h x (List.mem_cons_of_mem _ hx)
    obtain ⟨b, hb⟩ := h a List.mem_cons_self
    exact ⟨b :: l', .cons hb hl⟩

theorem forall₂_perm {α β : Type*} {R : α → β → Prop} {l l' : List α} (hp : l.Perm l') {m : List β}
    (h : List.Forall₂ R l m) : ∃ m', List.Forall₂ R l' m' ∧ m.Perm m' := by
  induction hp generalizing m with
  | nil => exact ⟨m, h, .refl _⟩
  | cons a _ ih =>
    cases h with
    | cons h1 h2 =>
      obtain ⟨m', h3, h4⟩ := ih h2
      exact ⟨_, .cons h1 h3, .cons _ h4⟩
  | swap a b l =>
    cases h with
    | cons h1 h2 =>
      cases h2 with
      | cons h2 h3 => exact ⟨_, .cons h2 (.cons h1 h3), .swap _ _ _⟩
  | trans _ _ ih1 ih2 =>
    obtain ⟨m1, h1, h2⟩ := ih1 h
    obtain ⟨m2, h3, h4⟩ := ih2 h1
    exact ⟨m2, h3, h2.trans h4⟩

theorem forall₂_map {α β γ : Type*} {R : α → β → Prop} {R' : α → γ → Prop} {f : β → γ}
    (hf : ∀ a b, R a b → R' a (f b)) {l : List α} {m : List β} (h : List.Forall₂ R l m) :
    List.Forall₂ R' l (m.map f) := by
  induction h with
  | nil => exact .nil
  | cons h _ ih => exact .cons (hf _ _ h) ih

theorem sum_nsmul_eq {A : Type*} [AddCommMonoid A] (l : List ℕ) (x : A) : l.sum • x = (l.map fun k => k • x).sum := by
  induction l with
  | nil => simp
  | cons k l ih => rw [List.sum_cons, List.map_cons, List.sum_cons, add_nsmul, ih]

theorem nsmul_mod_r {A : Type*} [AddCommGroup A] {x : A} (h : r • x = 0) {k : ℕ} : k • x = (k % r) • x := by
  conv_lhs => rw [← Nat.div_add_mod k r, add_nsmul, mul_comm, mul_nsmul', h, nsmul_zero, zero_add]

theorem bytesCompare_lex (a b : List UInt8) : bytesCompare a b = -1 ↔ List.Lex (· < ·) a b := by
  induction a generalizing b with
  | nil => cases b <;> simp [bytesCompare]
  | cons x s ih =>
    cases b with
    | nil => simp [bytesCompare]
    | cons y t =>
      rw [bytesCompare]
      constructor
      · intro h
        split_ifs at h with h1 h2
        · exact .rel h1
        · obtain rfl : x = y := UInt8.le_antisymm (UInt8.not_lt.mp h2) (UInt8.not_lt.mp h1)
          exact .cons ((ih t).mp h)
      · intro h
        cases h with
        | rel h => rw [if_pos h]
        | cons h => rw [if_neg (UInt8.lt_irrefl _), if_neg (UInt8.lt_irrefl _)]; exact (ih t).mpr h

theorem forall_pair {α : Type*} {P : α → Prop} {a b : α} (ha : P a) (hb : P b) : ∀ x ∈ [a, b], P x := by
  intro x hx
  rcases List.mem_cons.mp hx with rfl | hx
  · exact ha
  · rw [List.mem_singleton.mp hx]; exact hb

end Bls
