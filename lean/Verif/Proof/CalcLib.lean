import Verif.Proof.Calc
import Verif.Proof.GroupsLib
import Verif.Proof.SwEncode
import Verif.Proof.Domain
import Verif.Props.Tower
import Verif.Props.Hash
/-
The library's operations on field elements and points agree with those on paper.
-/
namespace Bls.Calc

open Groups (bool_eq)

/-- A value of the library denotes an element or a point. -/
def R : (s : Kind) → Lib s → Paper s → Prop
  | .fld .q => FQ.Rep
  | .fld .q2 => FQ2.Rep
  | .fld .q6 => FQ6.Rep
  | .fld .q12 => FQ12.Rep
  | .p1 => G1Projective.Rep
  | .p2 => G2Projective.Rep

theorem denotes_eq : Denotes = R := by
  funext s
  match s with
  | .fld .q =>
    funext (a : FQ) (x : Fq)
    refine propext ⟨fun h => ?_, fun h => ⟨h.isValid, ?_⟩⟩
    · exact h.2 ▸ FQ.rep_int h.1
    · rw [h.int, ZMod.natCast_zmod_val]
  | .fld .q2 => funext (a : FQ2) (x : Fq2); exact propext FQ2.rep_iff.symm
  | .fld .q6 => funext (a : FQ6) (x : Fq6); exact propext FQ6.rep_iff.symm
  | .fld .q12 => funext (a : FQ12) (x : Fq12); exact propext FQ12.rep_iff.symm
  | .p1 => funext (a : G1Projective) (x : E1); exact propext G1Projective.denotes_iff
  | .p2 => funext (a : G2Projective) (x : E2); exact propext G2Projective.denotes_iff

/-- The library's roots and generators. -/
noncomputable def choice : Choice where
  sqrt x := (FQ.exists_rep x).choose.sqrt.1.val
  sqrt2 x := (FQ2.exists_rep x).choose.sqrt.1.fld
  G := g1Gen
  H := g2Gen

theorem sqrt_rep {a : FQ} {x : Fq} (h : a.Rep x) (hs : IsSquare x) :
    a.sqrt.2 = true ∧ a.sqrt.1.Rep (choice.sqrt x) ∧ choice.sqrt x * choice.sqrt x = x := by
  obtain ⟨h1, s, h2, h3⟩ := h.sqrt.1 hs
  have e : choice.sqrt x = s := by
    show (FQ.exists_rep x).choose.sqrt.1.val = s
    rw [(FQ.exists_rep x).choose_spec.inj h]
    exact h2.2
  rw [e]
  exact ⟨h1, h2, h3⟩

theorem sqrt2_rep {a : FQ2} {x : Fq2} (h : a.Rep x) (hs : IsSquare x) :
    a.sqrt.2 = true ∧ a.sqrt.1.Rep (choice.sqrt2 x) ∧ choice.sqrt2 x * choice.sqrt2 x = x := by
  obtain ⟨h1, s, h2, h3⟩ := h.sqrt.1 hs
  have e : choice.sqrt2 x = s := by
    show (FQ2.exists_rep x).choose.sqrt.1.fld = s
    rw [(FQ2.exists_rep x).choose_spec.inj h]
    exact h2.out.2
  rw [e]
  exact ⟨h1, h2, h3⟩

theorem lawful : choice.Lawful where
  sqrt x h := (sqrt_rep (FQ.exists_rep x).choose_spec h).2.2
  sqrt2 x h := (sqrt2_rep (FQ2.exists_rep x).choose_spec h).2.2
  G := ⟨g1Gen_ne_zero, r_smul_g1Gen⟩
  H := ⟨g2Gen_ne_zero, r_smul_g2Gen⟩

theorem choose_some {β : Type} {p : β → Prop} {_ : Decidable (∃ z, p z)} {y : β} (hy : p y) (u : ∀ z, p z → z = y) :
    (if h : ∃ z, p z then some h.choose else none) = some y := by
  have h : ∃ z, p z := ⟨y, hy⟩
  rw [dif_pos h, u _ h.choose_spec]

theorem choose_none {β : Type} {p : β → Prop} {_ : Decidable (∃ z, p z)} (h : ¬ ∃ z, p z) :
    (if h : ∃ z, p z then some h.choose else none) = none := dif_neg h

theorem rel_ex {α β : Type} {S : α → β → Prop} {x : Option α} {y : β} (h : ∃ o, x = some o ∧ S o y) :
    Option.Rel S x (some y) := by
  obtain ⟨o, rfl, h⟩ := h
  exact .some h

theorem rel_inverse {α β : Type} [Field β] {S : α → β → Prop} {a : α × Bool} {x : β} {_ : Decidable (x = 0)}
    (hn : x ≠ 0 → a.2 = true ∧ S a.1 x⁻¹) (hz : x = 0 → a.2 = false) :
    Option.Rel S (flagged a) (if x = 0 then none else some x⁻¹) := by
  unfold flagged
  by_cases h : x = 0
  · rw [if_pos h, hz h]; exact .none
  · rw [if_neg h, (hn h).1]; exact .some (hn h).2

theorem rel_sqrt {α β : Type} [Field β] {S : α → β → Prop} {a : α × Bool} {x y : β} {_ : Decidable (IsSquare x)}
    (hs : IsSquare x → a.2 = true ∧ S a.1 y) (hn : ¬ IsSquare x → a.2 = false) :
    Option.Rel S (flagged a) (if IsSquare x then some y else none) := by
  unfold flagged
  by_cases h : IsSquare x
  · rw [if_pos h, (hs h).1]; exact .some (hs h).2
  · rw [if_neg h, hn h]; exact .none

theorem rel_inverse_q {a : FQ} {x : Fq} {_ : Decidable (x = 0)} (h : a.Rep x) :
    Option.Rel FQ.Rep (a.inverse?.bind flagged) (if x = 0 then none else some x⁻¹) := by
  by_cases hx : x = 0
  · subst hx
    rw [if_pos rfl, h.inverse?_zero]; exact .none
  · obtain ⟨g, e, hg⟩ := h.inverse?_ne hx
    rw [if_neg hx, e]; exact .some hg

theorem exp_q {a : FQ} {x : Fq} (h : a.Rep x) (n : FQRepr) : ∃ o, a.exp? n = some o ∧ o.Rep (x ^ n.toNat) := by
  have e := FQ.exp?_eq_some a n
  refine ⟨_, e, ?_⟩
  have := h.exp n
  unfold FQ.exp at this
  rwa [e, Option.getD_some] at this

theorem exp_q2 {a : FQ2} {x : Fq2} (h : a.Rep x) (n : FQRepr) : ∃ o, a.exp? n = some o ∧ o.Rep (x ^ n.toNat) := by
  have e := FQ2.exp?_eq_some a n
  refine ⟨_, e, ?_⟩
  have := h.exp n
  unfold FQ2.exp at this
  rwa [e, Option.getD_some] at this

theorem num_rep (n : FQRepr) : (FQ.ofRepr n).Rep ((if n.toNat < q then n.toNat else 0 : ℕ) : Fq) := by
  split_ifs with h
  · exact FQ.ofRepr_rep h
  · rw [Nat.cast_zero]; exact FQ.ofRepr_of_le (not_lt.mp h)

/-! ## Coordinates on E1 -/

theorem point1_rel {a b : FQ} {x y : Fq} {_ : Decidable (∃ P : E1, IsAt P x y)} (ha : a.Rep x) (hb : b.Rep y) :
    Option.Rel G1Projective.Rep (if (G1Affine.new a b).isOnCurve then some (G1Affine.new a b).toProjective else none)
      (if h : ∃ P : E1, IsAt P x y then some h.choose else none) := by
  have hon := G1Affine.isOnCurve_iff (a := G1Affine.new a b) ha hb rfl
  by_cases h : y ^ 2 = x ^ 3 + 4
  · rw [if_pos (hon.mpr h), choose_some (y := pt x y h) (p := fun P : E1 => IsAt P x y) (pt_isAt h) fun P hP => hP.inj (pt_isAt h)]
    exact .some (G1Affine.Rep.toProjective (Or.inr ⟨rfl, x, y, ha, hb, pt_isAt h⟩))
  · rw [if_neg (mt hon.mp h), choose_none (fun ⟨P, hP⟩ => h hP.on)]
    exact .none

theorem fromX1_rel {a : FQ} {x : Fq} (g : Bool) {_ : Decidable (∃ P : E1, ∃ y, IsAt P x y ∧ (g = true ↔ Fq.Greater y (-y)))}
    (ha : a.Rep x) : Option.Rel G1Projective.Rep ((G1Affine.getPointFromX a g).map G1Affine.toProjective)
      (if h : ∃ P : E1, ∃ y, IsAt P x y ∧ (g = true ↔ Fq.Greater y (-y)) then some h.choose else none) := by
  cases e : G1Affine.getPointFromX a g with
  | none =>
    rw [choose_none]
    · exact .none
    · rintro ⟨P, y, hP, -⟩
      exact (G1Affine.getPointFromX_none ha g).mp e ⟨y, by rw [← hP.on, sq]⟩
  | some c =>
    obtain ⟨h1, h2, y, hy, h3, h4⟩ := G1Affine.getPointFromX_some ha e
    have at' := pt_isAt h3
    have hy0 : y ≠ 0 := by rintro rfl; exact E1.y_ne_zero h3
    have hne : y ≠ -y := ne_neg_self (b := (4 : Fq)) hy0
    rw [choose_some (y := pt x y h3) ⟨y, at', h4 hne⟩]
    · exact .some (G1Affine.Rep.toProjective (Or.inr ⟨h2, x, y, h1 ▸ ha, hy, at'⟩))
    · rintro P ⟨z, hP, hz⟩
      have hm : (z - y) * (z + y) = 0 := by linear_combination hP.on - h3
      rcases mul_eq_zero.mp hm with e | e
      · rw [sub_eq_zero.mp e] at hP; exact hP.inj at'
      · exfalso
        have ez : z = -y := eq_neg_of_add_eq_zero_left e
        rw [ez, neg_neg] at hz
        rcases Fq.Greater.total hne with k | k
        · exact k.asymm (hz.mp ((h4 hne).mpr k))
        · exact k.asymm ((h4 hne).mp (hz.mpr k))

theorem x1_rel {g : G1Projective} {P : E1} {_ : Decidable (∃ x y, IsAt P x y)} (h : g.Rep P) :
    Option.Rel FQ.Rep (if g.toAffine.isZero then none else some g.toAffine.x)
      (if h : ∃ x y, IsAt P x y then some h.choose else none) := by
  have h' := h.toAffine
  generalize g.toAffine = a at h'
  unfold G1Affine.isZero
  rcases h' with ⟨rfl, rfl⟩ | ⟨h1, x, y, hx, hy, hP⟩
  · rw [choose_none (by rintro ⟨x, y, h⟩; exact h.ne_zero rfl)]; exact .none
  · rw [h1, choose_some (y := x) ⟨y, hP⟩ fun z ⟨w, hz⟩ => (hz.coord hP).1]
    exact .some hx

theorem y1_rel {g : G1Projective} {P : E1} {_ : Decidable (∃ y x, IsAt P x y)} (h : g.Rep P) :
    Option.Rel FQ.Rep (if g.toAffine.isZero then none else some g.toAffine.y)
      (if h : ∃ y x, IsAt P x y then some h.choose else none) := by
  have h' := h.toAffine
  generalize g.toAffine = a at h'
  unfold G1Affine.isZero
  rcases h' with ⟨rfl, rfl⟩ | ⟨h1, x, y, hx, hy, hP⟩
  · rw [choose_none (by rintro ⟨y, x, h⟩; exact h.ne_zero rfl)]; exact .none
  · rw [h1, choose_some (y := y) ⟨x, hP⟩ fun z ⟨w, hz⟩ => (hz.coord hP).2]
    exact .some hy

/-! ## Coordinates on E2 -/

theorem point2_rel {a b : FQ2} {x y : Fq2} {_ : Decidable (∃ P : E2, IsAt P x y)} (ha : a.Rep x) (hb : b.Rep y) :
    Option.Rel G2Projective.Rep (if (G2Affine.new a b).isOnCurve then some (G2Affine.new a b).toProjective else none)
      (if h : ∃ P : E2, IsAt P x y then some h.choose else none) := by
  have hon := G2Affine.isOnCurve_iff (a := G2Affine.new a b) ha hb rfl
  by_cases h : y ^ 2 = x ^ 3 + b2
  · rw [if_pos (hon.mpr h), choose_some (y := pt x y h) (p := fun P : E2 => IsAt P x y) (pt_isAt h) fun P hP => hP.inj (pt_isAt h)]
    exact .some (G2Affine.Rep.toProjective (Or.inr ⟨rfl, x, y, ha, hb, pt_isAt h⟩))
  · rw [if_neg (mt hon.mp h), choose_none (fun ⟨P, hP⟩ => h hP.on)]
    exact .none

theorem fromX2_rel {a : FQ2} {x : Fq2} (g : Bool) {_ : Decidable (∃ P : E2, ∃ y, IsAt P x y ∧ (g = true ↔ Fq2.Greater y (-y)))}
    (ha : a.Rep x) : Option.Rel G2Projective.Rep ((G2Affine.getPointFromX a g).map G2Affine.toProjective)
      (if h : ∃ P : E2, ∃ y, IsAt P x y ∧ (g = true ↔ Fq2.Greater y (-y)) then some h.choose else none) := by
  cases e : G2Affine.getPointFromX a g with
  | none =>
    rw [choose_none]
    · exact .none
    · rintro ⟨P, y, hP, -⟩
      exact (G2Affine.getPointFromX_none ha g).mp e ⟨y, by rw [← hP.on, sq]⟩
  | some c =>
    obtain ⟨h1, h2, y, hy, h3, h4⟩ := G2Affine.getPointFromX_some ha e
    have at' := pt_isAt h3
    have hy0 : y ≠ 0 := by rintro rfl; exact E2.y_ne_zero h3
    have hne : y ≠ -y := ne_neg_self (b := b2) hy0
    rw [choose_some (y := pt x y h3) ⟨y, at', h4 hne⟩]
    · exact .some (G2Affine.Rep.toProjective (Or.inr ⟨h2, x, y, h1 ▸ ha, hy, at'⟩))
    · rintro P ⟨z, hP, hz⟩
      have hm : (z - y) * (z + y) = 0 := by linear_combination hP.on - h3
      rcases mul_eq_zero.mp hm with e | e
      · rw [sub_eq_zero.mp e] at hP; exact hP.inj at'
      · exfalso
        have ez : z = -y := eq_neg_of_add_eq_zero_left e
        rw [ez, neg_neg] at hz
        rcases Fq2.Greater.total hne with k | k
        · exact k.asymm (hz.mp ((h4 hne).mpr k))
        · exact k.asymm ((h4 hne).mp (hz.mpr k))

theorem x2_rel {g : G2Projective} {P : E2} {_ : Decidable (∃ x y, IsAt P x y)} (h : g.Rep P) :
    Option.Rel FQ2.Rep (if g.toAffine.isZero then none else some g.toAffine.x)
      (if h : ∃ x y, IsAt P x y then some h.choose else none) := by
  have h' := h.toAffine
  generalize g.toAffine = a at h'
  unfold G2Affine.isZero
  rcases h' with ⟨rfl, rfl⟩ | ⟨h1, x, y, hx, hy, hP⟩
  · rw [choose_none (by rintro ⟨x, y, h⟩; exact h.ne_zero rfl)]; exact .none
  · rw [h1, choose_some (y := x) ⟨y, hP⟩ fun z ⟨w, hz⟩ => (hz.coord hP).1]
    exact .some hx

theorem y2_rel {g : G2Projective} {P : E2} {_ : Decidable (∃ y x, IsAt P x y)} (h : g.Rep P) :
    Option.Rel FQ2.Rep (if g.toAffine.isZero then none else some g.toAffine.y)
      (if h : ∃ y x, IsAt P x y then some h.choose else none) := by
  have h' := h.toAffine
  generalize g.toAffine = a at h'
  unfold G2Affine.isZero
  rcases h' with ⟨rfl, rfl⟩ | ⟨h1, x, y, hx, hy, hP⟩
  · rw [choose_none (by rintro ⟨y, x, h⟩; exact h.ne_zero rfl)]; exact .none
  · rw [h1, choose_some (y := y) ⟨x, hP⟩ fun z ⟨w, hz⟩ => (hz.coord hP).2]
    exact .some hy

theorem xi_eq : xi = 1 + Fq2.u := by
  ext <;> simp [Fq2.u, xi]

open Classical in
theorem cmp2_eq {a b : FQ2} {x y : Fq2} (ha : a.Rep x) (hb : b.Rep y) :
    a.cmp b = if x.c1 = y.c1 then sign x.c0.val y.c0.val else sign x.c1.val y.c1.val := by
  rw [ha.cmp hb]
  unfold sign
  by_cases h : x.c1 = y.c1
  · rw [if_pos h]
    have e : x = y ↔ x.c0.val = y.c0.val := by
      rw [(ZMod.val_injective q).eq_iff]
      exact ⟨fun h => h ▸ rfl, fun h' => Fq2.ext h' h⟩
    simp only [h, lt_irrefl, true_and, false_or, e]
  · have h' : x.c1.val ≠ y.c1.val := fun e => h (ZMod.val_injective q e)
    have h'' : x ≠ y := fun e => h (e ▸ rfl)
    simp only [h, h', h'', false_and, or_false, if_false]

open Classical in
theorem legendre_eq {a : FQ} {x : Fq} (h : a.Rep x) : a.legendre = symbol x := by
  rw [h.legendre]; unfold symbol
  split_ifs <;> rfl

theorem legendre2_eq {a : FQ2} {x : Fq2} (h : a.Rep x) : a.legendre = symbol x := by
  classical
  rw [h.legendre]; unfold symbol
  split_ifs <;> rfl

theorem norm_rep {a : FQ2} {x : Fq2} (h : a.Rep x) : a.norm.Rep (x.c0 ^ 2 + x.c1 ^ 2) := by
  have := h.norm
  rwa [Fq2.nrm_eq, ← sq, ← sq] at this

/-- The operations agree. -/
theorem op_rel : ∀ {d : List Kind} {s : Kind} (o : Op d s) (a : Args Lib d) (b : Args Paper d), ArgsRel R d a b →
    Option.Rel (R s) (libOp o a) (paperOp choice o b)
  | _, _, .num n, _, _, _ => .some (num_rep n)
  | _, _, .zero .q, _, _, _ => .some FQ.zero_rep
  | _, _, .one .q, _, _, _ => .some FQ.one_rep
  | _, _, .add .q, _, _, h => .some (FQ.Rep.add h.1 h.2.1)
  | _, _, .sub .q, _, _, h => .some (FQ.Rep.sub h.1 h.2.1)
  | _, _, .mul .q, _, _, h => .some (FQ.Rep.mul h.1 h.2.1)
  | _, _, .neg .q, _, _, h => .some (FQ.Rep.neg h.1)
  | _, _, .double .q, _, _, h => .some (FQ.Rep.double h.1)
  | _, _, .square .q, _, _, h => .some (FQ.Rep.square h.1)
  | _, _, .inverse .q, _, _, h => rel_inverse_q h.1
  | _, _, .zero .q2, _, _, _ => .some FQ2.zero_rep
  | _, _, .one .q2, _, _, _ => .some FQ2.one_rep
  | _, _, .add .q2, _, _, h => .some (FQ2.Rep.add h.1 h.2.1)
  | _, _, .sub .q2, _, _, h => .some (FQ2.Rep.sub h.1 h.2.1)
  | _, _, .mul .q2, _, _, h => .some (FQ2.Rep.mul h.1 h.2.1)
  | _, _, .neg .q2, _, _, h => .some (FQ2.Rep.neg h.1)
  | _, _, .double .q2, _, _, h => .some (FQ2.Rep.double h.1)
  | _, _, .square .q2, _, _, h => .some (FQ2.Rep.square h.1)
  | _, _, .inverse .q2, _, (x, _), h => rel_inverse (β := Fq2) (S := FQ2.Rep) (x := x) (fun hx => FQ2.Rep.inverse_ne h.1 hx)
      fun hx => by have h1 : FQ2.Rep _ _ := h.1; rw [hx] at h1; exact congrArg Prod.snd h1.inverse_zero
  | _, _, .zero .q6, _, _, _ => .some FQ6.zero_rep
  | _, _, .one .q6, _, _, _ => .some FQ6.one_rep
  | _, _, .add .q6, _, _, h => .some (FQ6.Rep.add h.1 h.2.1)
  | _, _, .sub .q6, _, _, h => .some (FQ6.Rep.sub h.1 h.2.1)
  | _, _, .mul .q6, _, _, h => .some (FQ6.Rep.mul h.1 h.2.1)
  | _, _, .neg .q6, _, _, h => .some (FQ6.Rep.neg h.1)
  | _, _, .double .q6, _, _, h => .some (FQ6.Rep.double h.1)
  | _, _, .square .q6, _, _, h => .some (FQ6.Rep.square h.1)
  | _, _, .inverse .q6, _, (x, _), h => rel_inverse (β := Fq6) (S := FQ6.Rep) (x := x) (fun hx => FQ6.Rep.inverse_ne h.1 hx)
      fun hx => by have h1 : FQ6.Rep _ _ := h.1; rw [hx] at h1; exact congrArg Prod.snd h1.inverse_zero
  | _, _, .zero .q12, _, _, _ => .some FQ12.zero_rep
  | _, _, .one .q12, _, _, _ => .some FQ12.one_rep
  | _, _, .add .q12, _, _, h => .some (FQ12.Rep.add h.1 h.2.1)
  | _, _, .sub .q12, _, _, h => .some (FQ12.Rep.sub h.1 h.2.1)
  | _, _, .mul .q12, _, _, h => .some (FQ12.Rep.mul h.1 h.2.1)
  | _, _, .neg .q12, _, _, h => .some (FQ12.Rep.neg h.1)
  | _, _, .double .q12, _, _, h => .some (FQ12.Rep.double h.1)
  | _, _, .square .q12, _, _, h => .some (FQ12.Rep.square h.1)
  | _, _, .inverse .q12, _, (x, _), h => rel_inverse (β := Fq12) (S := FQ12.Rep) (x := x) (fun hx => FQ12.Rep.inverse_ne h.1 hx)
      fun hx => by have h1 : FQ12.Rep _ _ := h.1; rw [hx] at h1; exact congrArg Prod.snd h1.inverse_zero
  | _, _, .div, _, _, h => .some (FQ.Rep.div h.1 h.2.1)
  | _, _, .div2, _, _, h => .some (FQ2.Rep.div h.1 h.2.1)
  | _, _, .exp n, _, _, h => rel_ex (exp_q h.1 n)
  | _, _, .exp2 n, _, _, h => rel_ex (exp_q2 h.1 n)
  | _, _, .exp12 n, _, _, h => rel_ex (FQ12.Rep.exp? h.1 n)
  | _, _, .sqrt, _, (x, _), h => rel_sqrt (β := Fq) (S := FQ.Rep) (x := x) (fun hs => ⟨(sqrt_rep h.1 hs).1, (sqrt_rep h.1 hs).2.1⟩)
      fun hs => ((FQ.Rep.sqrt h.1).2 hs).1
  | _, _, .sqrt2, _, (x, _), h => rel_sqrt (β := Fq2) (S := FQ2.Rep) (x := x) (fun hs => ⟨(sqrt2_rep h.1 hs).1, (sqrt2_rep h.1 hs).2.1⟩)
      fun hs => ((FQ2.Rep.sqrt h.1).2 hs).1
  | _, _, .frobenius2 i, _, _, h => .some (FQ2.Rep.frobeniusMap h.1 i)
  | _, _, .frobenius6 i, _, _, h => .some (FQ6.Rep.frobeniusMap h.1 i)
  | _, _, .frobenius12 i, _, _, h => .some (FQ12.Rep.frobeniusMap h.1 i)
  | _, _, .norm, _, (x, _), h => .some (by
      have := norm_rep h.1
      exact this)
  | _, _, .mulBits n, _, _, h => .some (FQ2.Rep.mulBits h.1 n)
  | _, _, .nonresidue2, _, _, h => .some (by
      have := FQ2.Rep.mulByNonresidue h.1
      rw [xi_eq] at this; exact this)
  | _, _, .nonresidue6, _, _, h => .some (FQ6.Rep.mulByNonresidue h.1)
  | _, _, .mulBy1, _, _, h => .some (FQ6.Rep.mulBy1 h.1 h.2.1)
  | _, _, .mulBy01, _, _, h => .some (FQ6.Rep.mulBy01 h.1 h.2.1 h.2.2.1)
  | _, _, .mulBy014, _, _, h => .some (FQ12.Rep.mulBy014 h.1 h.2.1 h.2.2.1 h.2.2.2.1)
  | _, _, .conjugate, _, _, h => .some (FQ12.Rep.conjugate h.1)
  | _, _, .new2, _, _, h => .some (FQ2.Rep.mk (a := FQ2.mk _ _) (x := Fq2.mk _ _) h.1 h.2.1)
  | _, _, .new6, _, _, h => .some (FQ6.Rep.mk (a := FQ6.mk _ _ _) (x := Fq6.mk _ _ _) h.1 h.2.1 h.2.2.1)
  | _, _, .new12, _, _, h => .some (FQ12.Rep.mk (a := FQ12.mk _ _) (x := Fq12.mk _ _) h.1 h.2.1)
  | _, _, .coeff2 0, _, _, h => .some (FQ2.Rep.c0 h.1)
  | _, _, .coeff2 1, _, _, h => .some (FQ2.Rep.c1 h.1)
  | _, _, .coeff6 0, _, _, h => .some (FQ6.Rep.c0 h.1)
  | _, _, .coeff6 1, _, _, h => .some (FQ6.Rep.c1 h.1)
  | _, _, .coeff6 2, _, _, h => .some (FQ6.Rep.c2 h.1)
  | _, _, .coeff12 0, _, _, h => .some (FQ12.Rep.c0 h.1)
  | _, _, .coeff12 1, _, _, h => .some (FQ12.Rep.c1 h.1)
  | _, _, .generator1, _, _, _ => .some (G1Affine.Rep.toProjective G1Affine.one_rep)
  | _, _, .infinity1, _, _, _ => .some G1Projective.Rep.zero
  | _, _, .add1, _, _, h => .some (G1Projective.Rep.add h.1 h.2.1)
  | _, _, .mixed1, _, _, h => .some (G1Projective.Rep.addAffine h.1 (G1Projective.Rep.toAffine h.2.1))
  | _, _, .neg1, _, _, h => .some (G1Projective.Rep.neg h.1)
  | _, _, .double1, _, _, h => .some (G1Projective.Rep.double h.1)
  | _, _, .affine1, _, _, h => .some (G1Affine.Rep.toProjective (G1Projective.Rep.toAffine h.1))
  | _, _, .mul1 n, _, _, h => rel_ex (G1Projective.Rep.mul? h.1 n)
  | _, _, .mulFR1 n, _, _, h => rel_ex (G1Projective.Rep.mulFR? h.1 n)
  | _, _, .mulAffine1 n, _, _, h => rel_ex (G1Affine.Rep.mul? (G1Projective.Rep.toAffine h.1) n)
  | _, _, .mulAffineFR1 n, _, _, h => rel_ex (G1Affine.Rep.mulFR? (G1Projective.Rep.toAffine h.1) n)
  | _, _, .cofactor1, _, _, h => .some (G1Projective.denotes_iff.mp (Props.C42_scaleByCofactor_G1 _ _
      (G1Affine.denotes_iff.mpr (G1Projective.Rep.toAffine h.1))).1)
  | _, _, .point1, _, _, h => point1_rel h.1 h.2.1
  | _, _, .fromX1 g, _, _, h => fromX1_rel g h.1
  | _, _, .x1, _, _, h => x1_rel h.1
  | _, _, .y1, _, _, h => y1_rel h.1
  | _, _, .generator2, _, _, _ => .some (G2Affine.Rep.toProjective G2Affine.one_rep)
  | _, _, .infinity2, _, _, _ => .some G2Projective.Rep.zero
  | _, _, .add2, _, _, h => .some (G2Projective.Rep.add h.1 h.2.1)
  | _, _, .mixed2, _, _, h => .some (G2Projective.Rep.addAffine h.1 (G2Projective.Rep.toAffine h.2.1))
  | _, _, .neg2, _, _, h => .some (G2Affine.Rep.toProjective (G2Affine.Rep.neg (G2Projective.Rep.toAffine h.1)))
  | _, _, .double2, _, _, h => .some (G2Projective.Rep.double h.1)
  | _, _, .affine2, _, _, h => .some (G2Affine.Rep.toProjective (G2Projective.Rep.toAffine h.1))
  | _, _, .mul2 n, _, _, h => rel_ex (G2Projective.Rep.mul? h.1 n)
  | _, _, .mulFR2 n, _, _, h => rel_ex (G2Projective.Rep.mulFR? h.1 n)
  | _, _, .mulAffine2 n, _, _, h => rel_ex (G2Affine.Rep.mul? (G2Projective.Rep.toAffine h.1) n)
  | _, _, .mulAffineFR2 n, _, _, h => rel_ex (G2Affine.Rep.mulFR? (G2Projective.Rep.toAffine h.1) n)
  | _, _, .mulBig2 n, _, _, h => rel_ex (G2Affine.Rep.mulBig? (G2Projective.Rep.toAffine h.1) n)
  | _, _, .cofactor2, _, _, h => .some (G2Projective.denotes_iff.mp (Props.C42_scaleByCofactor_G2 _ _
      (G2Affine.denotes_iff.mpr (G2Projective.Rep.toAffine h.1))).1)
  | _, _, .point2, _, _, h => point2_rel h.1 h.2.1
  | _, _, .fromX2 g, _, _, h => fromX2_rel g h.1
  | _, _, .x2, _, _, h => x2_rel h.1
  | _, _, .y2, _, _, h => y2_rel h.1

theorem obs_bool {b : Bool} {p : Prop} {_ : Decidable p} (h : b = true ↔ p) : Obs.bool b = .bool (decide p) :=
  congrArg _ (bool_eq h)

/-- The comparisons agree. -/
theorem look_rel : ∀ {d : List Kind} (o : Look d) (a : Args Lib d) (b : Args Paper d), ArgsRel R d a b →
    libLook o a = paperLook o b
  | _, .equals .q, _, _, h => obs_bool (FQ.Rep.equals h.1 h.2.1)
  | _, .isZero .q, _, _, h => obs_bool (FQ.Rep.isZero h.1)
  | _, .equals .q2, _, _, h => obs_bool (FQ2.Rep.equals h.1 h.2.1)
  | _, .isZero .q2, _, _, h => obs_bool (FQ2.Rep.isZero h.1)
  | _, .equals .q6, _, _, h => obs_bool (FQ6.Rep.equals h.1 h.2.1)
  | _, .isZero .q6, _, _, h => obs_bool (FQ6.Rep.isZero h.1)
  | _, .equals .q12, _, _, h => obs_bool (FQ12.Rep.equals h.1 h.2.1)
  | _, .isZero .q12, _, _, h => obs_bool (FQ12.Rep.isZero h.1)
  | _, .toRepr, _, _, h => congrArg (fun n : ℕ => Obs.int n) (FQ.Rep.toRepr h.1)
  | _, .cmp, _, _, h => congrArg Obs.int (FQ.Rep.cmp h.1 h.2.1)
  | _, .cmp2, _, _, h => congrArg Obs.int (cmp2_eq h.1 h.2.1)
  | _, .parity, _, _, h => obs_bool (FQ.Rep.parity h.1)
  | _, .parity2, _, _, h => obs_bool (FQ2.Rep.parity h.1)
  | _, .legendre, _, _, h => congrArg Obs.symbol (legendre_eq h.1)
  | _, .legendre2, _, _, h => congrArg Obs.symbol (legendre2_eq h.1)
  | _, .equals1, _, _, h => obs_bool (G1Projective.Rep.equal h.1 h.2.1)
  | _, .isZero1, _, _, h => obs_bool (G1Projective.Rep.isZero h.1)
  | _, .subgroup1, _, _, h => obs_bool (G1Affine.Rep.isInCorrectSubgroup (G1Projective.Rep.toAffine h.1))
  | _, .equals2, _, _, h => obs_bool (G2Projective.Rep.equal h.1 h.2.1)
  | _, .isZero2, _, _, h => obs_bool (G2Projective.Rep.isZero h.1)
  | _, .subgroup2, _, _, h => obs_bool (G2Affine.Rep.isInCorrectSubgroup (G2Projective.Rep.toAffine h.1))

theorem related : Related library (paper choice) R where
  op o _ _ h := op_rel o _ _ h
  look o _ _ h := look_rel o _ _ h

end Bls.Calc
