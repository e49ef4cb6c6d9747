import Verif.Proof.CalcLib
/-
C86: a program that uses elements of the four fields and points of both curves computes in the fields and in the groups of
the curves. Programs, and what they compute on paper: Verif/Spec/Calc.lean.
-/
namespace Bls.Props

open Calc

/-- One choice of square roots and of a generator of each subgroup explains every program: started on variables that denote
elements and points, the program has no result (an inverse, a root, a point or a coordinate that does not exist) exactly if it
has none on paper, and otherwise it sees the same and leaves variables that denote what the program makes on paper. -/
theorem C86_calc : ∃ c : Choice, c.Lawful ∧ ∀ (p : Prog) (v : Vars Lib) (w : Vars Paper), Denote v w →
    (p.run library v = none ↔ p.run (paper c) w = none) ∧
    ∀ v' o, p.run library v = some (v', o) → ∃ w', p.run (paper c) w = some (w', o) ∧ Denote v' w' := by
  refine ⟨choice, lawful, fun p v w h => ?_⟩
  unfold Denote at h ⊢
  rw [denotes_eq] at h ⊢
  have hr := related.run p h
  constructor
  · generalize p.run library v = y at hr
    generalize p.run (paper choice) w = x at hr
    cases hr with
    | none => exact ⟨fun _ => rfl, fun _ => rfl⟩
    | some => exact ⟨fun h => (Option.some_ne_none _ h).elim, fun h => (Option.some_ne_none _ h).elim⟩
  · intro v' o e
    rw [e] at hr
    cases hr' : p.run (paper choice) w with
    | none => rw [hr'] at hr; cases hr
    | some x =>
      rw [hr'] at hr
      cases hr with
      | some hx =>
        refine ⟨x.1, ?_, hx.1⟩
        have e2 : o = x.2 := hx.2
        rw [e2]

/-- What a program sees, and whether it has a result, depends on the elements and points its variables denote and not on how
they are represented. -/
theorem C86_same (p : Prog) (v v' : Vars Lib) (w : Vars Paper) (h : Denote v w) (h' : Denote v' w) :
    (p.run library v).map (·.2) = (p.run library v').map (·.2) := by
  unfold Denote at h h'
  rw [denotes_eq] at h h'
  have hr := related.run p h
  have hr' := related.run p h'
  generalize p.run (paper choice) w = x at hr hr'
  generalize p.run library v = y at hr
  generalize p.run library v' = z at hr'
  cases hr with
  | none => cases hr'; rfl
  | some hx => cases hr' with | some hx' => exact congrArg some (hx.2.trans hx'.2.symm)

/-- Programs never make a variable that is not canonical or not on its curve. -/
theorem C86_closed (p : Prog) (v v' : Vars Lib) (w : Vars Paper) (o : List Obs) (h : Denote v w)
    (e : p.run library v = some (v', o)) : ∃ w', Denote v' w' := by
  obtain ⟨c, -, hc⟩ := C86_calc
  obtain ⟨w', -, hw⟩ := (hc p v w h).2 v' o e
  exact ⟨w', hw⟩

/-! ## Cases that meet the hypotheses -/

/-- No variables denote no elements. -/
theorem Calc.denote_nil : Denote (fun _ => []) (fun _ => []) := fun _ => .nil

/-- What a program sees on paper is what it sees with the library. -/
theorem Calc.seen {c : Choice} {p : Prog} {v : Vars Lib} {w : Vars Paper}
    (h : (p.run library v = none ↔ p.run (paper c) w = none) ∧
      ∀ v' o, p.run library v = some (v', o) → ∃ w', p.run (paper c) w = some (w', o) ∧ Denote v' w') :
    (p.run library v).map (·.2) = (p.run (paper c) w).map (·.2) := by
  cases hr : p.run library v with
  | none => rw [h.1.mp hr]; rfl
  | some x => obtain ⟨w', hw, -⟩ := h.2 x.1 x.2 hr; rw [hw]; rfl

theorem Calc.call {V : Kind → Type} {M : Machine V} {d : List Kind} {s : Kind} {o : Op d s} {l : List ℕ} {p : Prog} {v : Vars V}
    {a : Args V d} {x : V s} (hg : v.get d l = some a) (ho : M.op o a = some x) :
    (Prog.call o l p).run M v = p.run M (v.push s x) := by
  rw [Prog.run, hg, Option.bind_some, ho, Option.bind_some]

theorem Calc.stop {V : Kind → Type} {M : Machine V} {d : List Kind} {s : Kind} {o : Op d s} {l : List ℕ} {p : Prog} {v : Vars V}
    {a : Args V d} (hg : v.get d l = some a) (ho : M.op o a = none) : (Prog.call o l p).run M v = none := by
  rw [Prog.run, hg, Option.bind_some, ho, Option.bind_none]

theorem Calc.look {V : Kind → Type} {M : Machine V} {d : List Kind} {o : Look d} {l : List ℕ} {p : Obs → Prog} {v : Vars V}
    {a : Args V d} {x : Obs} (hg : v.get d l = some a) (ho : M.look o a = x) :
    (Prog.look o l p).run M v = see x ((p x).run M v) := by
  rw [Prog.run, hg, Option.bind_some, ho]

/-- The square root of the square of a number, squared, compared with the square of the number. -/
def progRoot (n : FQRepr) : Prog :=
  .call (.num n) [] (.call (.square .q) [0] (.call .sqrt [1] (.call (.square .q) [2] (.look (.equals .q) [1, 3] fun _ =>
    .done))))

/-- They are equal, for every number. -/
example (n : FQRepr) : ((progRoot n).run library fun _ => []).map (·.2) = some [.bool true] := by
  obtain ⟨c, hc, h⟩ := C86_calc
  rw [Calc.seen (h (progRoot n) _ _ Calc.denote_nil)]
  obtain ⟨x, hx⟩ : ∃ x : Fq, (paper c).op (.num n) () = some x := ⟨_, rfl⟩
  have hs : IsSquare (x * x) := ⟨x, rfl⟩
  have e := hc.sqrt _ hs
  unfold progRoot
  rw [Calc.call (M := paper c) (o := .num n) (a := ()) rfl hx, Calc.call (M := paper c) (o := .square .q) (a := (x, ())) (x := (x * x : Fq)) rfl rfl,
    Calc.call (M := paper c) (o := .sqrt) (a := ((x * x : Fq), ())) (x := c.sqrt (x * x)) rfl (if_pos hs),
    Calc.call (M := paper c) (o := .square .q) (a := (c.sqrt (x * x), ())) (x := (c.sqrt (x * x) * c.sqrt (x * x) : Fq)) rfl rfl,
    Calc.look (M := paper c) (o := .equals .q) (a := ((x * x : Fq), (c.sqrt (x * x) * c.sqrt (x * x) : Fq), ())) (x := .bool true) rfl
      (congrArg Obs.bool (@decide_eq_true _ (_) e.symm))]
  rfl

/-- A point with a given x, multiplied by the cofactor, and checked for membership in the subgroup. -/
def progTorsion (n : FQRepr) (g : Bool) : Prog :=
  .call (.num n) [] (.call (.fromX1 g) [0] (.call .cofactor1 [0] (.look .subgroup1 [1] fun _ => .done)))

/-- There is no such point, or the multiple is in the subgroup. -/
example (n : FQRepr) (g : Bool) : ((progTorsion n g).run library fun _ => []).map (·.2) = none ∨
    ((progTorsion n g).run library fun _ => []).map (·.2) = some [.bool true] := by
  obtain ⟨c, hc, h⟩ := C86_calc
  rw [Calc.seen (h (progTorsion n g) _ _ Calc.denote_nil)]
  obtain ⟨x, hx⟩ : ∃ x : Fq, (paper c).op (.num n) () = some x := ⟨_, rfl⟩
  unfold progTorsion
  rw [Calc.call (M := paper c) (o := .num n) (a := ()) rfl hx]
  cases hP : (paper c).op (.fromX1 g) (x, ()) with
  | none =>
    left
    rw [Calc.stop (M := paper c) (o := .fromX1 g) (a := (x, ())) rfl hP]; rfl
  | some P' =>
    let P : E1 := P'
    right
    rw [Calc.call (M := paper c) (o := .fromX1 g) (a := (x, ())) rfl hP,
      Calc.call (M := paper c) (o := .cofactor1) (a := (P', ())) (x := (h1 • P : E1)) rfl rfl,
      Calc.look (M := paper c) (o := .subgroup1) (a := ((h1 • P : E1), ())) (x := .bool true) rfl
        (congrArg Obs.bool (@decide_eq_true _ (_) (E1.cofactor_torsion P)))]
    rfl

/-- The same point in two representations, and an element of Fq12. -/
example (a : FQ12) (ha : a.isValid = true) : ∃ v v' w, Denote v w ∧ Denote v' w ∧ v .p1 ≠ v' .p1 ∧ v (.fld .q12) = [a] := by
  have hg : G1Projective.one.Rep g1Gen := G1Affine.one_rep.toProjective
  let v : Vars Lib := Vars.push (V := Lib) (fun _ => []) (.fld .q12) a
  let w : Vars Paper := Vars.push (V := Paper) (fun _ => []) (.fld .q12) a.fld
  have h0 : ∀ s, List.Forall₂ (R s) (v s) (w s) := push_rel (R := R) (s := .fld .q12) (fun _ => .nil) (FQ12.rep ha)
  refine ⟨Vars.push v .p1 G1Projective.one.double, Vars.push v .p1 G1Projective.one.double.toAffine.toProjective,
    Vars.push w .p1 (g1Gen + g1Gen), ?_, ?_, ?_, rfl⟩
  · unfold Denote; rw [denotes_eq]; exact push_rel (s := .p1) h0 hg.double
  · unfold Denote; rw [denotes_eq]; exact push_rel (s := .p1) h0 hg.double.toAffine.toProjective
  · intro e
    have e' : [G1Projective.one.double] = [G1Projective.one.double.toAffine.toProjective] := e
    have hz := congrArg G1Projective.z (List.cons.inj e').1
    revert hz
    decide +kernel

end Bls.Props
