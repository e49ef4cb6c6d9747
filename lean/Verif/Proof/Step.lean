import Lean
/-
A tactic to walk through straight-line code written as nested `let (x, y) := e; …`.
For a goal `(match e with | (x, y) => body x y) = r → C`, `pair_step x y h` introduces `x`, `y`
and `h : e = (x, y)` and leaves `body x y = r → C`. `let`s at the head are substituted.
-/
namespace Bls

theorem pair_elim {α β γ : Type} {C : Prop} {r : γ} (p : α × β) (k : α → β → γ)
    (h : ∀ x y, p = (x, y) → k x y = r → C) : k p.1 p.2 = r → C := h p.1 p.2 rfl

open Lean Meta Elab Tactic in
/-- Substitute `let`s and beta-reduce at the head. -/
partial def headZeta (e : Expr) : Expr :=
  match e with
  | .letE _ _ v b _ => headZeta (b.instantiate1 v)
  | .mdata _ e => headZeta e
  | e => let e' := e.headBeta; if e' == e then e else headZeta e'

open Lean Meta Elab Tactic in
elab "pair_step " x:ident y:ident h:ident : tactic => withMainContext do
  let g ← getMainGoal
  let tgt ← instantiateMVars (← g.getType)
  let .forallE nm eqn C bi := tgt.consumeMData | throwError "pair_step: not an implication"
  let some (_, lhs, r) := eqn.eq? | throwError "pair_step: not an equation"
  let lhs := headZeta lhs
  let some app ← matchMatcherApp? lhs | throwError "pair_step: not a match {lhs}"
  unless app.discrs.size == 1 && app.alts.size == 1 do throwError "pair_step: bad match"
  let p := app.discrs[0]!
  let k := app.alts[0]!
  let .app (.app (.const ``Prod _) α) β ← whnf (← inferType p) | throwError "pair_step: pair expected"
  let hty ← withLocalDeclD x.getId α fun a => withLocalDeclD y.getId β fun b => do
    let heq ← mkEq p (← mkAppM ``Prod.mk #[a, b])
    withLocalDeclD h.getId heq fun hh => do
      let body := headZeta (mkAppN k #[a, b])
      let e ← mkEq body r
      mkForallFVars #[a, b, hh] (.forallE nm e C bi)
  let m ← mkFreshExprSyntheticOpaqueMVar hty
  let pf ← mkAppM ``pair_elim #[p, k, m]
  g.assign pf
  let (_, g') ← m.mvarId!.introN 3 [x.getId, y.getId, h.getId]
  replaceMainGoal [g']

end Bls
