import Verif.Spec.Calc
import Verif.Proof.Groups
/-
Two machines whose operations agree up to a relation between values give related variables and see the same.
-/
namespace Bls.Calc

open Groups (rel_bind rel_map rel_get rel_push)

variable {V W : Kind → Type}

/-- Values related one by one. -/
def ArgsRel (R : ∀ s, V s → W s → Prop) : (d : List Kind) → Args V d → Args W d → Prop
  | [], _, _ => True
  | s :: d, (x, a), (y, b) => R s x y ∧ ArgsRel R d a b

/-- The machines agree up to the relation. -/
structure Related (M : Machine V) (N : Machine W) (R : ∀ s, V s → W s → Prop) : Prop where
  op : ∀ {d : List Kind} {s : Kind} (o : Op d s) {a : Args V d} {b : Args W d}, ArgsRel R d a b →
    Option.Rel (R s) (M.op o a) (N.op o b)
  look : ∀ {d : List Kind} (o : Look d) {a : Args V d} {b : Args W d}, ArgsRel R d a b → M.look o a = N.look o b

variable {M : Machine V} {N : Machine W} {R : ∀ s, V s → W s → Prop}

theorem push_rel {v : Vars V} {w : Vars W} (h : ∀ s, List.Forall₂ (R s) (v s) (w s)) {s : Kind} {x : V s} {y : W s}
    (hx : R s x y) (t : Kind) : List.Forall₂ (R t) (v.push s x t) (w.push s y t) := by
  unfold Vars.push
  by_cases e : s = t
  · subst e
    simp only [dif_pos]
    exact rel_push (h s) hx
  · simp only [dif_neg e]
    exact h t

theorem get_rel {v : Vars V} {w : Vars W} (h : ∀ s, List.Forall₂ (R s) (v s) (w s)) :
    ∀ (d : List Kind) (l : List ℕ), Option.Rel (ArgsRel R d) (v.get d l) (w.get d l)
  | [], [] => .some trivial
  | [], _ :: _ => .none
  | _ :: _, [] => .none
  | s :: d, i :: l => rel_bind (rel_get (h s) i) fun _ _ hx => rel_map (get_rel h d l) fun _ _ ht => ⟨hx, ht⟩

/-- Every program gives related variables and sees the same with both machines, or has no result with both. -/
theorem Related.run (H : Related M N R) : ∀ (p : Prog) {v : Vars V} {w : Vars W}, (∀ s, List.Forall₂ (R s) (v s) (w s)) →
    Option.Rel (fun x y => (∀ s, List.Forall₂ (R s) (x.1 s) (y.1 s)) ∧ x.2 = y.2) (p.run M v) (p.run N w)
  | .done, _, _, h => .some ⟨h, rfl⟩
  | .call o args p, _, _, h => rel_bind (get_rel h _ args) fun _ _ ha => rel_bind (H.op o ha) fun _ _ hx =>
      H.run p (push_rel h hx)
  | .look o args p, _, _, h => rel_bind (get_rel h _ args) fun _ _ ha => by
      rw [H.look o ha]
      exact rel_map (H.run (p _) h) fun _ _ hx => ⟨hx.1, congrArg _ hx.2⟩

end Bls.Calc
