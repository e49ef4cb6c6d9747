import Verif.Proof.AnyCurve
import Verif.Proof.Denote
import Verif.Spec.AnyCurve
/-
The point operations keep `y² - x³`, for every value of it.
-/
set_option exponentiation.threshold 1000
namespace Bls

/-- The third point of a chord, in the coordinates of the code. -/
theorem chord {F : Type*} [Field F] {C X₁ Y₁ X₂ Y₂ X Y W : F} (h₁ : Y₁ ^ 2 = X₁ ^ 3 + C) (h₂ : Y₂ ^ 2 = X₂ ^ 3 + C)
    (hX : X = 4 * (Y₂ - Y₁) ^ 2 - 4 * (X₂ - X₁) ^ 3 - 8 * X₁ * (X₂ - X₁) ^ 2)
    (hY : Y = 2 * (Y₂ - Y₁) * (4 * X₁ * (X₂ - X₁) ^ 2 - X) - 8 * Y₁ * (X₂ - X₁) ^ 3) (hW : W = 64 * (X₂ - X₁) ^ 6 * C) :
    Y ^ 2 = X ^ 3 + W := by
  subst hY hW hX
  linear_combination 16 * (X₂ - X₁) ^ 3 * (((4 * (Y₂ - Y₁) ^ 2 - 4 * (X₂ - X₁) ^ 3 - 8 * X₁ * (X₂ - X₁) ^ 2)
    - 4 * (X₂ - X₁) ^ 2 * X₁) * h₂ - ((4 * (Y₂ - Y₁) ^ 2 - 4 * (X₂ - X₁) ^ 3 - 8 * X₁ * (X₂ - X₁) ^ 2)
    - 4 * (X₂ - X₁) ^ 2 * X₂) * h₁)

/-! ## G1 -/

/-- The invariant, with the field elements named. -/
def G1Projective.InvOn (c : Fq) (g : G1Projective) : Prop :=
  ∃ x y z, g.x.Rep x ∧ g.y.Rep y ∧ g.z.Rep z ∧ (z = 0 ∨ y ^ 2 = x ^ 3 + c * z ^ 6)

def G1Affine.InvOn (c : Fq) (a : G1Affine) : Prop :=
  a = G1Affine.zero ∨ (a.infinity = false ∧ ∃ x y, a.x.Rep x ∧ a.y.Rep y ∧ y ^ 2 = x ^ 3 + c)

namespace G1Affine.InvOn
variable {a : G1Affine} {c : Fq}

theorem neg (h : a.InvOn c) : a.neg.InvOn c := by
  rcases h with rfl | ⟨h1, x, y, hx, hy, h⟩
  · exact Or.inl rfl
  · have e : a.neg = { a with y := a.y.neg } := by
      unfold G1Affine.neg G1Affine.isZero
      rw [if_pos (by rw [h1]; rfl)]
    rw [e]
    exact Or.inr ⟨h1, x, -y, hx, hy.neg, by rw [neg_sq, h]⟩

theorem toProjective (h : a.InvOn c) : a.toProjective.InvOn c := by
  unfold G1Affine.toProjective G1Affine.isZero
  rcases h with rfl | ⟨h1, x, y, hx, hy, h⟩
  · rw [if_pos (show G1Affine.zero.infinity = true from rfl)]
    unfold G1Projective.zero
    exact ⟨_, _, _, FQ.zero_rep, FQ.one_rep, FQ.zero_rep, Or.inl rfl⟩
  · rw [if_neg (by rw [h1]; exact Bool.false_ne_true)]
    exact ⟨_, _, _, hx, hy, FQ.one_rep, Or.inr (by rw [h]; ring)⟩

end G1Affine.InvOn

namespace G1Projective.InvOn
variable {g k : G1Projective} {c : Fq}

theorem zero : G1Projective.zero.InvOn c := by
  unfold G1Projective.zero
  exact ⟨_, _, _, FQ.zero_rep, FQ.one_rep, FQ.zero_rep, Or.inl rfl⟩

theorem neg (h : g.InvOn c) : g.neg.InvOn c := by
  obtain ⟨x, y, z, hx, hy, hz, h⟩ := h
  exact ⟨x, -y, z, hx, hy.neg, hz, by rwa [neg_sq]⟩

theorem toAffine (h : g.InvOn c) : g.toAffine.InvOn c := by
  obtain ⟨x, y, z, hx, hy, hz, h⟩ := h
  unfold G1Projective.toAffine
  by_cases hp : g.isZero = true
  · rw [if_pos hp]; exact Or.inl rfl
  rw [if_neg hp]
  have n1 : z ≠ 0 := fun e => hp (hz.isZero.mpr e)
  have h := h.resolve_left n1
  rw [if_neg (fun e => n1 (hz.isZero.mp e))]
  have hi := (hz.inverse_ne n1).2
  refine Or.inr ⟨rfl, _, _, hx.mul hi.square, (hy.mul hi.square).mul hi, ?_⟩
  field_simp
  rw [h]
  ring


theorem double (h : g.InvOn c) : g.double.InvOn c := by
  have h0 := h
  obtain ⟨x, y, z, hx, hy, hz, h⟩ := h
  unfold G1Projective.double
  by_cases hp : g.isZero = true
  · rw [if_pos hp]; exact h0
  rw [if_neg hp]
  have n1 : z ≠ 0 := fun e => hp (hz.isZero.mpr e)
  have h := h.resolve_left n1
  have a := hx.square
  have b := hy.square
  have c' := b.square
  have d := (((hx.add b).square.sub a).sub c').double
  have e := a.double.add a
  have f := e.square
  have nz := (hz.mul hy).double
  have nx := (f.sub d).sub d
  have ny := ((d.sub nx).mul e).sub c'.double.double.double
  exact ⟨_, _, _, nx, ny, nz, Or.inr (by linear_combination 64 * y ^ 6 * h)⟩

theorem add (h : g.InvOn c) (h' : k.InvOn c) : (g.add k).InvOn c := by
  have h0 := h
  have h0' := h'
  obtain ⟨x₁, y₁, z₁, hx₁, hy₁, hz₁, h⟩ := h
  obtain ⟨x₂, y₂, z₂, hx₂, hy₂, hz₂, h'⟩ := h'
  unfold G1Projective.add
  by_cases hp : g.isZero = true
  · rw [if_pos hp]; exact h0'
  rw [if_neg hp]
  by_cases hq : k.isZero = true
  · rw [if_pos hq]; exact h0
  rw [if_neg hq]
  have h := h.resolve_left fun e => hp (hz₁.isZero.mpr e)
  have h' := h'.resolve_left fun e => hq (hz₂.isZero.mpr e)
  have u1 := hx₁.mul hz₂.square
  have u2 := hx₂.mul hz₁.square
  have s1 := (hy₁.mul hz₂).mul hz₂.square
  have s2 := (hy₂.mul hz₁).mul hz₁.square
  dsimp only
  split_ifs with t
  · exact h0.double
  · have hh := u2.sub u1
    have i := hh.double.square
    have j := hh.mul i
    have r := (s2.sub s1).double
    have v := u1.mul i
    have nx := ((r.square.sub j).sub v).sub v
    have ny := ((v.sub nx).mul r).sub (s1.mul j).double
    have nz := (((hz₁.add hz₂).square.sub hz₁.square).sub hz₂.square).mul hh
    refine ⟨_, _, _, nx, ny, nz, Or.inr ?_⟩
    exact chord (C := c * z₁ ^ 6 * z₂ ^ 6) (X₁ := x₁ * z₂ ^ 2) (Y₁ := y₁ * z₂ ^ 3) (X₂ := x₂ * z₁ ^ 2) (Y₂ := y₂ * z₁ ^ 3)
      (by linear_combination z₂ ^ 6 * h) (by linear_combination z₁ ^ 6 * h') (by ring) (by ring) (by ring)

theorem addAffine {a : G1Affine} (h : g.InvOn c) (h' : a.InvOn c) : (g.addAffine a).InvOn c := by
  have h0 := h
  have h0' := h'
  obtain ⟨x₁, y₁, z₁, hx₁, hy₁, hz₁, h⟩ := h
  unfold G1Projective.addAffine G1Affine.isZero
  by_cases hp : g.isZero = true
  · rw [if_pos hp]; exact h0'.toProjective
  rw [if_neg hp]
  by_cases hq : a.infinity = true
  · rw [if_pos hq]; exact h0
  rw [if_neg hq]
  rcases h' with rfl | ⟨_, x₂, y₂, hx₂, hy₂, h'⟩
  · exact absurd rfl hq
  have h := h.resolve_left fun e => hp (hz₁.isZero.mpr e)
  have u2 := hx₂.mul hz₁.square
  have s2 := (hy₂.mul hz₁).mul hz₁.square
  dsimp only
  split_ifs with t
  · exact h0.double
  · have hh := u2.sub hx₁
    have h2 := hh.square
    have i := h2.double.double
    have j := hh.mul i
    have r := (s2.sub hy₁).double
    have v := hx₁.mul i
    have nx := ((r.square.sub j).sub v).sub v
    have ny := ((v.sub nx).mul r).sub (hy₁.mul j).double
    have nz := ((hz₁.add hh).square.sub hz₁.square).sub h2
    refine ⟨_, _, _, nx, ny, nz, Or.inr ?_⟩
    exact chord (C := c * z₁ ^ 6) (X₁ := x₁) (Y₁ := y₁) (X₂ := x₂ * z₁ ^ 2) (Y₂ := y₂ * z₁ ^ 3)
      h (by linear_combination z₁ ^ 6 * h') (by ring) (by ring) (by ring)

theorem loop {dbl plus : G1Projective → G1Projective} (hd : ∀ g, g.InvOn c → (dbl g).InvOn c)
    (hp : ∀ g, g.InvOn c → (plus g).InvOn c) {bit : ℕ → Option Bool} {len : ℕ} :
    ∀ (k i : ℕ) (g o : G1Projective), g.InvOn c → scalarLoop dbl plus bit len k i g = some o → o.InvOn c := by
  intro k
  induction k with
  | zero => intro i g o h e; rw [scalarLoop] at e; obtain rfl := Option.some.inj e; exact h
  | succ k ih =>
    intro i g o h e
    rw [scalarLoop] at e
    split at e
    · cases e
    · refine ih _ _ _ ?_ e
      split
      · exact hp _ (hd _ h)
      · exact hd _ h

theorem getD {o : Option G1Projective} (h : ∀ x, o = some x → x.InvOn c) : (o.getD .zero).InvOn c := by
  cases o with
  | none => exact zero
  | some x => exact h x rfl

theorem mul (h : g.InvOn c) (n : FQRepr) : (g.mul n).InvOn c := by
  unfold G1Projective.mul G1Projective.mul?
  exact getD fun x e => loop (fun _ h => h.double) (fun _ h1 => h1.add h) _ _ _ _ zero e

theorem mulFR (h : g.InvOn c) (n : FRRepr) : (g.mulFR n).InvOn c := by
  unfold G1Projective.mulFR G1Projective.mulFR?
  exact getD fun x e => loop (fun _ h => h.double) (fun _ h1 => h1.add h) _ _ _ _ zero e

theorem mulAffine {a : G1Affine} (h : a.InvOn c) (n : FQRepr) : (a.mul n).InvOn c := by
  unfold G1Affine.mul G1Affine.mul?
  exact getD fun x e => loop (fun _ h => h.double) (fun _ h1 => h1.addAffine h) _ _ _ _ zero e

theorem mulFRAffine {a : G1Affine} (h : a.InvOn c) (n : FRRepr) : (a.mulFR n).InvOn c := by
  unfold G1Affine.mulFR G1Affine.mulFR?
  exact getD fun x e => loop (fun _ h => h.double) (fun _ h1 => h1.addAffine h) _ _ _ _ zero e


end G1Projective.InvOn

theorem G1Projective.onCurve_iff {c : Fq} {g : G1Projective} : g.OnCurve c ↔ g.InvOn c := by
  constructor
  · rintro ⟨h1, h2, h3, h4⟩
    exact ⟨_, _, _, FQ.rep_int h1, FQ.rep_int h2, FQ.rep_int h3, h4⟩
  · rintro ⟨x, y, z, hx, hy, hz, h⟩
    obtain ⟨h1, rfl⟩ := FQ.rep_iff_int.mp hx
    obtain ⟨h2, rfl⟩ := FQ.rep_iff_int.mp hy
    obtain ⟨h3, rfl⟩ := FQ.rep_iff_int.mp hz
    exact ⟨h1, h2, h3, h⟩

theorem G1Affine.onCurve_iff {c : Fq} {a : G1Affine} : a.OnCurve c ↔ a.InvOn c := by
  refine or_congr Iff.rfl (and_congr Iff.rfl ?_)
  constructor
  · rintro ⟨h1, h2, h⟩
    exact ⟨_, _, FQ.rep_int h1, FQ.rep_int h2, h⟩
  · rintro ⟨x, y, hx, hy, h⟩
    obtain ⟨h1, rfl⟩ := FQ.rep_iff_int.mp hx
    obtain ⟨h2, rfl⟩ := FQ.rep_iff_int.mp hy
    exact ⟨h1, h2, h⟩

theorem G1Projective.denotesOn_iff {c : Fq} {g : G1Projective} {P : (curve c).Point} : g.DenotesOn P ↔ g.RepOn P := by
  constructor
  · rintro ⟨h1, h2, h3, h4⟩
    exact ⟨_, _, _, FQ.rep_int h1, FQ.rep_int h2, FQ.rep_int h3, h4⟩
  · rintro ⟨x, y, z, hx, hy, hz, h⟩
    obtain ⟨h1, rfl⟩ := FQ.rep_iff_int.mp hx
    obtain ⟨h2, rfl⟩ := FQ.rep_iff_int.mp hy
    obtain ⟨h3, rfl⟩ := FQ.rep_iff_int.mp hz
    exact ⟨h1, h2, h3, h⟩

theorem G1Affine.denotesOn_iff {c : Fq} {a : G1Affine} {P : (curve c).Point} : a.DenotesOn P ↔ a.RepOn P := by
  refine or_congr Iff.rfl (and_congr Iff.rfl ?_)
  constructor
  · rintro ⟨h1, h2, h⟩
    exact ⟨_, _, FQ.rep_int h1, FQ.rep_int h2, h⟩
  · rintro ⟨x, y, hx, hy, h⟩
    obtain ⟨h1, rfl⟩ := FQ.rep_iff_int.mp hx
    obtain ⟨h2, rfl⟩ := FQ.rep_iff_int.mp hy
    exact ⟨h1, h2, h⟩

/-- On another curve than the library's, only infinity passes `IsOnCurve`. -/
theorem G1Affine.InvOn.isOnCurve {c : Fq} (hc : c ≠ 4) {a : G1Affine} (h : a.InvOn c) :
    a.isOnCurve = true ↔ a = G1Affine.zero := by
  rcases h with rfl | ⟨h1, x, y, hx, hy, h⟩
  · exact iff_of_true rfl rfl
  · refine iff_of_false ?_ ?_
    · rw [G1Affine.isOnCurve_iff hx hy h1]
      intro e
      exact hc (by linear_combination e - h)
    · rintro rfl
      cases h1

/-! ## G2 -/

/-- The invariant, with the field elements named. -/
def G2Projective.InvOn (c : Fq2) (g : G2Projective) : Prop :=
  ∃ x y z, g.x.Rep x ∧ g.y.Rep y ∧ g.z.Rep z ∧ (z = 0 ∨ y ^ 2 = x ^ 3 + c * z ^ 6)

def G2Affine.InvOn (c : Fq2) (a : G2Affine) : Prop :=
  a = G2Affine.zero ∨ (a.infinity = false ∧ ∃ x y, a.x.Rep x ∧ a.y.Rep y ∧ y ^ 2 = x ^ 3 + c)

namespace G2Affine.InvOn
variable {a : G2Affine} {c : Fq2}

theorem neg (h : a.InvOn c) : a.neg.InvOn c := by
  rcases h with rfl | ⟨h1, x, y, hx, hy, h⟩
  · exact Or.inl rfl
  · have e : a.neg = { a with y := a.y.neg } := by
      unfold G2Affine.neg G2Affine.isZero
      rw [if_pos (by rw [h1]; rfl)]
    rw [e]
    exact Or.inr ⟨h1, x, -y, hx, hy.neg, by rw [neg_sq, h]⟩

theorem toProjective (h : a.InvOn c) : a.toProjective.InvOn c := by
  unfold G2Affine.toProjective G2Affine.isZero
  rcases h with rfl | ⟨h1, x, y, hx, hy, h⟩
  · rw [if_pos (show G2Affine.zero.infinity = true from rfl)]
    unfold G2Projective.zero
    exact ⟨_, _, _, FQ2.zero_rep, FQ2.one_rep, FQ2.zero_rep, Or.inl rfl⟩
  · rw [if_neg (by rw [h1]; exact Bool.false_ne_true)]
    exact ⟨_, _, _, hx, hy, FQ2.one_rep, Or.inr (by rw [h]; ring)⟩

end G2Affine.InvOn

namespace G2Projective.InvOn
variable {g k : G2Projective} {c : Fq2}

theorem zero : G2Projective.zero.InvOn c := by
  unfold G2Projective.zero
  exact ⟨_, _, _, FQ2.zero_rep, FQ2.one_rep, FQ2.zero_rep, Or.inl rfl⟩

theorem toAffine (h : g.InvOn c) : g.toAffine.InvOn c := by
  obtain ⟨x, y, z, hx, hy, hz, h⟩ := h
  unfold G2Projective.toAffine
  by_cases hp : g.isZero = true
  · rw [if_pos hp]; exact Or.inl rfl
  rw [if_neg hp]
  have n1 : z ≠ 0 := fun e => hp (hz.isZero.mpr e)
  have h := h.resolve_left n1
  by_cases h1 : g.z.equals FQ2.one = true
  · rw [if_pos h1]
    have e := (hz.equals FQ2.one_rep).mp h1
    subst e
    exact Or.inr ⟨rfl, x, y, hx, hy, by rw [h]; ring⟩
  rw [if_neg h1]
  have hi := (hz.inverse_ne n1).2
  refine Or.inr ⟨rfl, _, _, hx.mul hi.square, (hy.mul hi.square).mul hi, ?_⟩
  field_simp
  rw [h]
  ring


theorem double (h : g.InvOn c) : g.double.InvOn c := by
  have h0 := h
  obtain ⟨x, y, z, hx, hy, hz, h⟩ := h
  unfold G2Projective.double
  by_cases hp : g.isZero = true
  · rw [if_pos hp]; exact h0
  rw [if_neg hp]
  have n1 : z ≠ 0 := fun e => hp (hz.isZero.mpr e)
  have h := h.resolve_left n1
  have a := hx.square
  have b := hy.square
  have c' := b.square
  have d := (((hx.add b).square.sub a).sub c').double
  have e := a.double.add a
  have f := e.square
  have nz := (hz.mul hy).double
  have nx := (f.sub d).sub d
  have ny := ((d.sub nx).mul e).sub c'.double.double.double
  exact ⟨_, _, _, nx, ny, nz, Or.inr (by linear_combination 64 * y ^ 6 * h)⟩

theorem add (h : g.InvOn c) (h' : k.InvOn c) : (g.add k).InvOn c := by
  have h0 := h
  have h0' := h'
  obtain ⟨x₁, y₁, z₁, hx₁, hy₁, hz₁, h⟩ := h
  obtain ⟨x₂, y₂, z₂, hx₂, hy₂, hz₂, h'⟩ := h'
  unfold G2Projective.add
  by_cases hp : g.isZero = true
  · rw [if_pos hp]; exact h0'
  rw [if_neg hp]
  by_cases hq : k.isZero = true
  · rw [if_pos hq]; exact h0
  rw [if_neg hq]
  have h := h.resolve_left fun e => hp (hz₁.isZero.mpr e)
  have h' := h'.resolve_left fun e => hq (hz₂.isZero.mpr e)
  have u1 := hx₁.mul hz₂.square
  have u2 := hx₂.mul hz₁.square
  have s1 := (hy₁.mul hz₂).mul hz₂.square
  have s2 := (hy₂.mul hz₁).mul hz₁.square
  dsimp only
  split_ifs with t
  · exact h0.double
  · have hh := u2.sub u1
    have i := hh.double.square
    have j := hh.mul i
    have r := (s2.sub s1).double
    have v := u1.mul i
    have nx := ((r.square.sub j).sub v).sub v
    have ny := ((v.sub nx).mul r).sub (s1.mul j).double
    have nz := (((hz₁.add hz₂).square.sub hz₁.square).sub hz₂.square).mul hh
    refine ⟨_, _, _, nx, ny, nz, Or.inr ?_⟩
    exact chord (C := c * z₁ ^ 6 * z₂ ^ 6) (X₁ := x₁ * z₂ ^ 2) (Y₁ := y₁ * z₂ ^ 3) (X₂ := x₂ * z₁ ^ 2) (Y₂ := y₂ * z₁ ^ 3)
      (by linear_combination z₂ ^ 6 * h) (by linear_combination z₁ ^ 6 * h') (by ring) (by ring) (by ring)

theorem addAffine {a : G2Affine} (h : g.InvOn c) (h' : a.InvOn c) : (g.addAffine a).InvOn c := by
  have h0 := h
  have h0' := h'
  obtain ⟨x₁, y₁, z₁, hx₁, hy₁, hz₁, h⟩ := h
  unfold G2Projective.addAffine G2Affine.isZero
  by_cases hp : g.isZero = true
  · rw [if_pos hp]; exact h0'.toProjective
  rw [if_neg hp]
  by_cases hq : a.infinity = true
  · rw [if_pos hq]; exact h0
  rw [if_neg hq]
  rcases h' with rfl | ⟨_, x₂, y₂, hx₂, hy₂, h'⟩
  · exact absurd rfl hq
  have h := h.resolve_left fun e => hp (hz₁.isZero.mpr e)
  have u2 := hx₂.mul hz₁.square
  have s2 := (hy₂.mul hz₁).mul hz₁.square
  dsimp only
  split_ifs with t
  · exact h0.double
  · have hh := u2.sub hx₁
    have h2 := hh.square
    have i := h2.double.double
    have j := hh.mul i
    have r := (s2.sub hy₁).double
    have v := hx₁.mul i
    have nx := ((r.square.sub j).sub v).sub v
    have ny := ((v.sub nx).mul r).sub (hy₁.mul j).double
    have nz := ((hz₁.add hh).square.sub hz₁.square).sub h2
    refine ⟨_, _, _, nx, ny, nz, Or.inr ?_⟩
    exact chord (C := c * z₁ ^ 6) (X₁ := x₁) (Y₁ := y₁) (X₂ := x₂ * z₁ ^ 2) (Y₂ := y₂ * z₁ ^ 3)
      h (by linear_combination z₁ ^ 6 * h') (by ring) (by ring) (by ring)

theorem loop {dbl plus : G2Projective → G2Projective} (hd : ∀ g, g.InvOn c → (dbl g).InvOn c)
    (hp : ∀ g, g.InvOn c → (plus g).InvOn c) {bit : ℕ → Option Bool} {len : ℕ} :
    ∀ (k i : ℕ) (g o : G2Projective), g.InvOn c → scalarLoop dbl plus bit len k i g = some o → o.InvOn c := by
  intro k
  induction k with
  | zero => intro i g o h e; rw [scalarLoop] at e; obtain rfl := Option.some.inj e; exact h
  | succ k ih =>
    intro i g o h e
    rw [scalarLoop] at e
    split at e
    · cases e
    · refine ih _ _ _ ?_ e
      split
      · exact hp _ (hd _ h)
      · exact hd _ h

theorem getD {o : Option G2Projective} (h : ∀ x, o = some x → x.InvOn c) : (o.getD .zero).InvOn c := by
  cases o with
  | none => exact zero
  | some x => exact h x rfl

theorem mul (h : g.InvOn c) (n : FQRepr) : (g.mul n).InvOn c := by
  unfold G2Projective.mul G2Projective.mul?
  exact getD fun x e => loop (fun _ h => h.double) (fun _ h1 => h1.add h) _ _ _ _ zero e

theorem mulFR (h : g.InvOn c) (n : FRRepr) : (g.mulFR n).InvOn c := by
  unfold G2Projective.mulFR G2Projective.mulFR?
  exact getD fun x e => loop (fun _ h => h.double) (fun _ h1 => h1.add h) _ _ _ _ zero e

theorem mulAffine {a : G2Affine} (h : a.InvOn c) (n : FQRepr) : (a.mul n).InvOn c := by
  unfold G2Affine.mul G2Affine.mul?
  exact getD fun x e => loop (fun _ h => h.double) (fun _ h1 => h1.addAffine h) _ _ _ _ zero e

theorem mulFRAffine {a : G2Affine} (h : a.InvOn c) (n : FRRepr) : (a.mulFR n).InvOn c := by
  unfold G2Affine.mulFR G2Affine.mulFR?
  exact getD fun x e => loop (fun _ h => h.double) (fun _ h1 => h1.addAffine h) _ _ _ _ zero e

theorem mulBig {a : G2Affine} (h : a.InvOn c) (n : ℕ) : (a.mulBig n).InvOn c := by
  unfold G2Affine.mulBig G2Affine.mulBig?
  exact getD fun x e => loop (fun _ h => h.double) (fun _ h1 => h1.addAffine h) _ _ _ _ zero e

end G2Projective.InvOn

theorem G2Projective.onCurve_iff {c : Fq2} {g : G2Projective} : g.OnCurve c ↔ g.InvOn c := by
  constructor
  · rintro ⟨h1, h2, h3, h4⟩
    exact ⟨_, _, _, FQ2.rep h1, FQ2.rep h2, FQ2.rep h3, h4⟩
  · rintro ⟨x, y, z, hx, hy, hz, h⟩
    obtain ⟨h1, rfl⟩ := FQ2.rep_iff.mp hx
    obtain ⟨h2, rfl⟩ := FQ2.rep_iff.mp hy
    obtain ⟨h3, rfl⟩ := FQ2.rep_iff.mp hz
    exact ⟨h1, h2, h3, h⟩

theorem G2Affine.onCurve_iff {c : Fq2} {a : G2Affine} : a.OnCurve c ↔ a.InvOn c := by
  refine or_congr Iff.rfl (and_congr Iff.rfl ?_)
  constructor
  · rintro ⟨h1, h2, h⟩
    exact ⟨_, _, FQ2.rep h1, FQ2.rep h2, h⟩
  · rintro ⟨x, y, hx, hy, h⟩
    obtain ⟨h1, rfl⟩ := FQ2.rep_iff.mp hx
    obtain ⟨h2, rfl⟩ := FQ2.rep_iff.mp hy
    exact ⟨h1, h2, h⟩

theorem G2Projective.denotesOn_iff {c : Fq2} {g : G2Projective} {P : (curve c).Point} : g.DenotesOn P ↔ g.RepOn P := by
  constructor
  · rintro ⟨h1, h2, h3, h4⟩
    exact ⟨_, _, _, FQ2.rep h1, FQ2.rep h2, FQ2.rep h3, h4⟩
  · rintro ⟨x, y, z, hx, hy, hz, h⟩
    obtain ⟨h1, rfl⟩ := FQ2.rep_iff.mp hx
    obtain ⟨h2, rfl⟩ := FQ2.rep_iff.mp hy
    obtain ⟨h3, rfl⟩ := FQ2.rep_iff.mp hz
    exact ⟨h1, h2, h3, h⟩

theorem G2Affine.denotesOn_iff {c : Fq2} {a : G2Affine} {P : (curve c).Point} : a.DenotesOn P ↔ a.RepOn P := by
  refine or_congr Iff.rfl (and_congr Iff.rfl ?_)
  constructor
  · rintro ⟨h1, h2, h⟩
    exact ⟨_, _, FQ2.rep h1, FQ2.rep h2, h⟩
  · rintro ⟨x, y, hx, hy, h⟩
    obtain ⟨h1, rfl⟩ := FQ2.rep_iff.mp hx
    obtain ⟨h2, rfl⟩ := FQ2.rep_iff.mp hy
    exact ⟨h1, h2, h⟩

/-- On another curve than the library's, only infinity passes `IsOnCurve`. -/
theorem G2Affine.InvOn.isOnCurve {c : Fq2} (hc : c ≠ b2) {a : G2Affine} (h : a.InvOn c) :
    a.isOnCurve = true ↔ a = G2Affine.zero := by
  rcases h with rfl | ⟨h1, x, y, hx, hy, h⟩
  · exact iff_of_true rfl rfl
  · refine iff_of_false ?_ ?_
    · rw [G2Affine.isOnCurve_iff hx hy h1]
      intro e
      exact hc (by linear_combination e - h)
    · rintro rfl
      cases h1

end Bls
