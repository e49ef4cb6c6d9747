import Verif.Proof.G2
/-
The point operations on any curve `y² = x³ + b`, from Verif/Proof/G1.lean and Verif/Proof/G2.lean with the curve as a
parameter.
-/
set_option exponentiation.threshold 1000
set_option linter.unusedSectionVars false
namespace Bls

/-- `a` denotes the point `P` of the curve `y² = x³ + b`. Infinity has the coordinates the library gives it. -/
def G1Affine.RepOn {b : Fq} (a : G1Affine) (P : (curve b).Point) : Prop :=
  (a = G1Affine.zero ∧ P = 0) ∨
  (a.infinity = false ∧ ∃ x y, a.x.Rep x ∧ a.y.Rep y ∧ IsAt P x y)

/-- `g` denotes the point `P` of the curve `y² = x³ + b`. -/
def G1Projective.RepOn {b : Fq} (g : G1Projective) (P : (curve b).Point) : Prop :=
  ∃ x y z, g.x.Rep x ∧ g.y.Rep y ∧ g.z.Rep z ∧ JPt P x y z

namespace G1Affine.RepOn
variable {a c : G1Affine} {b : Fq} [GoodCurve b] {P Q : (curve b).Point}

theorem infinity_iff (h : a.RepOn P) : a.infinity = true ↔ P = 0 := by
  rcases h with ⟨rfl, rfl⟩ | ⟨h1, x, y, _, _, h⟩
  · exact iff_of_true rfl rfl
  · exact iff_of_false (by rw [h1]; exact Bool.false_ne_true) h.ne_zero

theorem zero : G1Affine.zero.RepOn (0 : (curve b).Point) := Or.inl ⟨rfl, rfl⟩

theorem neg (h : a.RepOn P) : a.neg.RepOn (-P) := by
  rcases h with ⟨rfl, rfl⟩ | ⟨h1, x, y, hx, hy, h⟩
  · exact Or.inl ⟨rfl, neg_zero⟩
  · have e : a.neg = { a with y := a.y.neg } := by
      unfold G1Affine.neg G1Affine.isZero
      rw [if_pos (by rw [h1]; rfl)]
    rw [e]
    exact Or.inr ⟨h1, x, -y, hx, hy.neg, h.neg⟩

theorem inj (h : a.RepOn P) (h' : c.RepOn P) : a = c := by
  rcases h with ⟨rfl, rfl⟩ | ⟨h1, x, y, hx, hy, h⟩ <;> rcases h' with ⟨rfl, e⟩ | ⟨h1', x', y', hx', hy', h'⟩
  · rfl
  · exact absurd rfl h'.ne_zero
  · exact absurd e h.ne_zero
  · obtain ⟨rfl, rfl⟩ := h.coord h'
    exact G1Affine.ext (hx.inj hx') (hy.inj hy') (h1.trans h1'.symm)

theorem fn (h : a.RepOn P) (h' : a.RepOn Q) : P = Q := by
  rcases h with ⟨rfl, rfl⟩ | ⟨h1, x, y, hx, hy, h⟩ <;> rcases h' with ⟨e1, e⟩ | ⟨h1', x', y', hx', hy', h'⟩
  · exact e.symm
  · exact absurd h1' (by decide)
  · rw [e1] at h1; exact absurd h1 (by decide)
  · have e1 := hx.fn hx'
    have e2 := hy.fn hy'
    subst e1 e2
    exact h.inj h'

theorem toProjective (h : a.RepOn P) : a.toProjective.RepOn P := by
  unfold G1Affine.toProjective G1Affine.isZero
  rcases h with ⟨rfl, rfl⟩ | ⟨h1, x, y, hx, hy, h⟩
  · rw [if_pos (show G1Affine.zero.infinity = true from rfl)]
    unfold G1Projective.zero
    exact ⟨_, _, _, FQ.zero_rep, FQ.one_rep, FQ.zero_rep, JPt.ofZero⟩
  · rw [if_neg (by rw [h1]; exact Bool.false_ne_true)]
    exact ⟨_, _, _, hx, hy, FQ.one_rep, JPt.ofAffine h⟩

end G1Affine.RepOn

namespace G1Projective.RepOn
variable {g k : G1Projective} {b : Fq} [GoodCurve b] {P Q : (curve b).Point}

theorem zero : G1Projective.zero.RepOn (0 : (curve b).Point) := by
  unfold G1Projective.zero
  exact ⟨_, _, _, FQ.zero_rep, FQ.one_rep, FQ.zero_rep, JPt.ofZero⟩

theorem isZero (h : g.RepOn P) : g.isZero = true ↔ P = 0 := by
  obtain ⟨x, y, z, hx, hy, hz, h⟩ := h
  unfold G1Projective.isZero
  rw [hz.isZero, h.zero_iff]

theorem neg (h : g.RepOn P) : g.neg.RepOn (-P) := by
  obtain ⟨x, y, z, hx, hy, hz, h⟩ := h
  exact ⟨x, -y, z, hx, hy.neg, hz, h.neg⟩

theorem fn (h : g.RepOn P) (h' : g.RepOn Q) : P = Q := by
  obtain ⟨x, y, z, hx, hy, hz, h⟩ := h
  obtain ⟨x', y', z', hx', hy', hz', h'⟩ := h'
  obtain rfl := hx.fn hx'
  obtain rfl := hy.fn hy'
  obtain rfl := hz.fn hz'
  rcases h with ⟨h1, rfl⟩ | ⟨h1, h2⟩ <;> rcases h' with ⟨h1', rfl⟩ | ⟨h1', h2'⟩
  · rfl
  · exact absurd h1 h1'
  · exact absurd h1' h1
  · exact h2.inj h2'

theorem equal (h : g.RepOn P) (h' : k.RepOn Q) : g.equal k = true ↔ P = Q := by
  have z1 := h.isZero
  have z2 := h'.isZero
  obtain ⟨x₁, y₁, z₁, hx₁, hy₁, hz₁, h⟩ := h
  obtain ⟨x₂, y₂, z₂, hx₂, hy₂, hz₂, h'⟩ := h'
  unfold G1Projective.equal
  by_cases hp : g.isZero = true
  · rw [if_pos hp, z2, z1.mp hp, eq_comm]
  rw [if_neg hp]
  have hp' := fun e => hp (z1.mpr e)
  by_cases hq : k.isZero = true
  · rw [if_pos hq, z2.mp hq]
    exact iff_of_false Bool.false_ne_true hp'
  rw [if_neg hq]
  have hq' := fun e => hq (z2.mpr e)
  have n1 : z₁ ≠ 0 := fun e => hp' (h.zero_iff.mp e)
  have n2 : z₂ ≠ 0 := fun e => hq' (h'.zero_iff.mp e)
  have e1 := (hx₁.mul hz₂.square).equals (hx₂.mul hz₁.square)
  have e2 := ((hz₁.square.mul hz₁).mul hy₂).equals ((hz₂.square.mul hz₂).mul hy₁)
  rw [h.eq_iff h' n1 n2]
  dsimp only
  by_cases c : (g.x.mul k.z.square).equals (k.x.mul g.z.square) = true
  · rw [c, Bool.not_true, if_neg Bool.false_ne_true, e2]
    have c := e1.mp c
    refine ⟨fun t => ⟨by linear_combination c, by linear_combination -t⟩, fun t => by linear_combination -t.2⟩
  · have c' : ¬ (x₁ * (z₂ * z₂) = x₂ * (z₁ * z₁)) := fun e => c (e1.mpr e)
    rw [Bool.not_eq_true] at c
    rw [c, Bool.not_false, if_pos rfl]
    exact iff_of_false Bool.false_ne_true (fun t => c' (by linear_combination t.1))

theorem toAffine (h : g.RepOn P) : g.toAffine.RepOn P := by
  have z1 := h.isZero
  obtain ⟨x, y, z, hx, hy, hz, h⟩ := h
  unfold G1Projective.toAffine
  by_cases hp : g.isZero = true
  · rw [if_pos hp, z1.mp hp]
    exact .zero
  rw [if_neg hp]
  have n1 : z ≠ 0 := fun e => hp (z1.mpr (h.zero_iff.mp e))
  rw [if_neg (fun e => n1 (hz.isZero.mp e))]
  have hi := (hz.inverse_ne n1).2
  refine Or.inr ⟨rfl, _, _, hx.mul hi.square, (hy.mul hi.square).mul hi, ?_⟩
  convert h.isAt n1 using 1 <;> field_simp

theorem double (h : g.RepOn P) : g.double.RepOn (P + P) := by
  have z1 := h.isZero
  have h0 := h
  obtain ⟨x, y, z, hx, hy, hz, h⟩ := h
  unfold G1Projective.double
  by_cases hp : g.isZero = true
  · rw [if_pos hp]
    have e := z1.mp hp
    rw [e, add_zero]; rw [e] at h0; exact h0
  rw [if_neg hp]
  have n1 : z ≠ 0 := fun e => hp (z1.mpr (h.zero_iff.mp e))
  have a := hx.square
  have b' := hy.square
  have c := b'.square
  have d := (((hx.add b').square.sub a).sub c).double
  have e := a.double.add a
  have f := e.square
  have nz := (hz.mul hy).double
  have nx := (f.sub d).sub d
  have ny := ((d.sub nx).mul e).sub c.double.double.double
  refine ⟨_, _, _, nx, ny, nz, h.double n1 ?_ ?_ ?_⟩ <;> ring

theorem add (h : g.RepOn P) (h' : k.RepOn Q) : (g.add k).RepOn (P + Q) := by
  have z1 := h.isZero
  have z2 := h'.isZero
  have h0 := h
  have h0' := h'
  obtain ⟨x₁, y₁, z₁, hx₁, hy₁, hz₁, h⟩ := h
  obtain ⟨x₂, y₂, z₂, hx₂, hy₂, hz₂, h'⟩ := h'
  unfold G1Projective.add
  by_cases hp : g.isZero = true
  · rw [if_pos hp, z1.mp hp, zero_add]; exact h0'
  rw [if_neg hp]
  have hp' := fun e => hp (z1.mpr e)
  by_cases hq : k.isZero = true
  · rw [if_pos hq, z2.mp hq, add_zero]; exact h0
  rw [if_neg hq]
  have hq' := fun e => hq (z2.mpr e)
  have n1 : z₁ ≠ 0 := fun e => hp' (h.zero_iff.mp e)
  have n2 : z₂ ≠ 0 := fun e => hq' (h'.zero_iff.mp e)
  have u1 := hx₁.mul hz₂.square
  have u2 := hx₂.mul hz₁.square
  have s1 := (hy₁.mul hz₂).mul hz₂.square
  have s2 := (hy₂.mul hz₁).mul hz₁.square
  have e1 := u1.equals u2
  have e2 := s1.equals s2
  have key := h.eq_iff h' n1 n2
  dsimp only
  split_ifs with c
  · rw [Bool.and_eq_true, e1, e2] at c
    rw [← key.mpr ⟨by linear_combination c.1, by linear_combination c.2⟩]
    exact h0.double
  · rw [Bool.and_eq_true, e1, e2] at c
    have hh := u2.sub u1
    have i := hh.double.square
    have j := hh.mul i
    have r := (s2.sub s1).double
    have v := u1.mul i
    have nx := ((r.square.sub j).sub v).sub v
    have ny := ((v.sub nx).mul r).sub (s1.mul j).double
    have nz := (((hz₁.add hz₂).square.sub hz₁.square).sub hz₂.square).mul hh
    refine ⟨_, _, _, nx, ny, nz, h.add h' n1 n2 (fun t => c ⟨by linear_combination t.1, by linear_combination t.2⟩)
      rfl rfl ?_ ?_ ?_⟩ <;> ring

theorem addAffine {a : G1Affine} (h : g.RepOn P) (h' : a.RepOn Q) : (g.addAffine a).RepOn (P + Q) := by
  have z1 := h.isZero
  have z2 := h'.infinity_iff
  have h0 := h
  have h0' := h'
  obtain ⟨x₁, y₁, z₁, hx₁, hy₁, hz₁, h⟩ := h
  unfold G1Projective.addAffine G1Affine.isZero
  by_cases hp : g.isZero = true
  · rw [if_pos hp, z1.mp hp, zero_add]; exact h0'.toProjective
  rw [if_neg hp]
  have hp' := fun e => hp (z1.mpr e)
  by_cases hq : a.infinity = true
  · rw [if_pos hq, z2.mp hq, add_zero]; exact h0
  rw [if_neg hq]
  rcases h' with ⟨rfl, _⟩ | ⟨_, x₂, y₂, hx₂, hy₂, h'⟩
  · exact absurd rfl hq
  replace h' := JPt.ofAffine h'
  have n1 : z₁ ≠ 0 := fun e => hp' (h.zero_iff.mp e)
  have u2 := hx₂.mul hz₁.square
  have s2 := (hy₂.mul hz₁).mul hz₁.square
  have e1 := hx₁.equals u2
  have e2 := hy₁.equals s2
  have key := h.eq_iff h' n1 one_ne_zero
  dsimp only
  split_ifs with c
  · rw [Bool.and_eq_true, e1, e2] at c
    rw [← key.mpr ⟨by linear_combination c.1, by linear_combination c.2⟩]
    exact h0.double
  · rw [Bool.and_eq_true, e1, e2] at c
    have hh := u2.sub hx₁
    have h2 := hh.square
    have i := h2.double.double
    have j := hh.mul i
    have r := (s2.sub hy₁).double
    have v := hx₁.mul i
    have nx := ((r.square.sub j).sub v).sub v
    have ny := ((v.sub nx).mul r).sub (hy₁.mul j).double
    have nz := ((hz₁.add hh).square.sub hz₁.square).sub h2
    refine ⟨_, _, _, nx, ny, nz, h.add h' n1 one_ne_zero (fun t => c ⟨by linear_combination t.1, by linear_combination t.2⟩)
      rfl rfl ?_ ?_ ?_⟩ <;> ring

theorem mul? (h : g.RepOn P) (n : FQRepr) : ∃ o, g.mul? n = some o ∧ o.RepOn (n.toNat • P) := by
  refine scalarLoop_spec RepOn P double (fun h1 => h1.add h) zero n.toNat (n := n.bitLen) ?_ ?_
  · rw [FQRepr.bitLen_spec]; exact lt_natBitLen n.toNat
  · intro i hi
    rw [FQRepr.bit_spec, if_pos]
    have := natBitLen_le.mpr n.toNat_lt
    rw [FQRepr.bitLen_spec] at hi
    omega

theorem mul (h : g.RepOn P) (n : FQRepr) : (g.mul n).RepOn (n.toNat • P) := by
  obtain ⟨o, h1, h2⟩ := h.mul? n
  unfold G1Projective.mul
  rw [h1]; exact h2

theorem mulFR? (h : g.RepOn P) (n : FRRepr) : ∃ o, g.mulFR? n = some o ∧ o.RepOn (n.toNat • P) := by
  refine scalarLoop_spec RepOn P double (fun h1 => h1.add h) zero n.toNat (n := n.bitLen) ?_ ?_
  · rw [FRRepr.bitLen_spec]; exact lt_natBitLen n.toNat
  · intro i hi
    rw [FRRepr.bit_spec, if_pos]
    have := natBitLen_le.mpr n.toNat_lt
    rw [FRRepr.bitLen_spec] at hi
    omega

theorem mulFR (h : g.RepOn P) (n : FRRepr) : (g.mulFR n).RepOn (n.toNat • P) := by
  obtain ⟨o, h1, h2⟩ := h.mulFR? n
  unfold G1Projective.mulFR
  rw [h1]; exact h2

end G1Projective.RepOn

namespace G1Affine.RepOn
variable {a c : G1Affine} {b : Fq} [GoodCurve b] {P Q : (curve b).Point}

theorem mul? (h : a.RepOn P) (n : FQRepr) : ∃ o, a.mul? n = some o ∧ o.RepOn (n.toNat • P) := by
  refine scalarLoop_spec G1Projective.RepOn P .double (fun h1 => h1.addAffine h) .zero n.toNat (n := n.bitLen) ?_ ?_
  · rw [FQRepr.bitLen_spec]; exact lt_natBitLen n.toNat
  · intro i hi
    rw [FQRepr.bit_spec, if_pos]
    have := natBitLen_le.mpr n.toNat_lt
    rw [FQRepr.bitLen_spec] at hi
    omega

theorem mul (h : a.RepOn P) (n : FQRepr) : (a.mul n).RepOn (n.toNat • P) := by
  obtain ⟨o, h1, h2⟩ := h.mul? n
  unfold G1Affine.mul
  rw [h1]; exact h2

theorem mulFR? (h : a.RepOn P) (n : FRRepr) : ∃ o, a.mulFR? n = some o ∧ o.RepOn (n.toNat • P) := by
  refine scalarLoop_spec G1Projective.RepOn P .double (fun h1 => h1.addAffine h) .zero n.toNat (n := n.bitLen) ?_ ?_
  · rw [FRRepr.bitLen_spec]; exact lt_natBitLen n.toNat
  · intro i hi
    rw [FRRepr.bit_spec, if_pos]
    have := natBitLen_le.mpr n.toNat_lt
    rw [FRRepr.bitLen_spec] at hi
    omega

theorem mulFR (h : a.RepOn P) (n : FRRepr) : (a.mulFR n).RepOn (n.toNat • P) := by
  obtain ⟨o, h1, h2⟩ := h.mulFR? n
  unfold G1Affine.mulFR
  rw [h1]; exact h2

theorem isInCorrectSubgroup (h : a.RepOn P) : a.isInCorrectSubgroup = true ↔ r • P = 0 := by
  unfold G1Affine.isInCorrectSubgroup
  rw [(h.mulFR frChar).isZero, G1Affine.Rep.frChar_toNat]

end G1Affine.RepOn

/-- `a` denotes the point `P` of the curve `y² = x³ + b`. Infinity has the coordinates the library gives it. -/
def G2Affine.RepOn {b : Fq2} (a : G2Affine) (P : (curve b).Point) : Prop :=
  (a = G2Affine.zero ∧ P = 0) ∨
  (a.infinity = false ∧ ∃ x y, a.x.Rep x ∧ a.y.Rep y ∧ IsAt P x y)

/-- `g` denotes the point `P` of the curve `y² = x³ + b`. -/
def G2Projective.RepOn {b : Fq2} (g : G2Projective) (P : (curve b).Point) : Prop :=
  ∃ x y z, g.x.Rep x ∧ g.y.Rep y ∧ g.z.Rep z ∧ JPt P x y z

namespace G2Affine.RepOn
variable {a c : G2Affine} {b : Fq2} [GoodCurve b] {P Q : (curve b).Point}

theorem infinity_iff (h : a.RepOn P) : a.infinity = true ↔ P = 0 := by
  rcases h with ⟨rfl, rfl⟩ | ⟨h1, x, y, _, _, h⟩
  · exact iff_of_true rfl rfl
  · exact iff_of_false (by rw [h1]; exact Bool.false_ne_true) h.ne_zero

theorem zero : G2Affine.zero.RepOn (0 : (curve b).Point) := Or.inl ⟨rfl, rfl⟩

theorem neg (h : a.RepOn P) : a.neg.RepOn (-P) := by
  rcases h with ⟨rfl, rfl⟩ | ⟨h1, x, y, hx, hy, h⟩
  · exact Or.inl ⟨rfl, neg_zero⟩
  · have e : a.neg = { a with y := a.y.neg } := by
      unfold G2Affine.neg G2Affine.isZero
      rw [if_pos (by rw [h1]; rfl)]
    rw [e]
    exact Or.inr ⟨h1, x, -y, hx, hy.neg, h.neg⟩

theorem inj (h : a.RepOn P) (h' : c.RepOn P) : a = c := by
  rcases h with ⟨rfl, rfl⟩ | ⟨h1, x, y, hx, hy, h⟩ <;> rcases h' with ⟨rfl, e⟩ | ⟨h1', x', y', hx', hy', h'⟩
  · rfl
  · exact absurd rfl h'.ne_zero
  · exact absurd e h.ne_zero
  · obtain ⟨rfl, rfl⟩ := h.coord h'
    exact G2Affine.ext (hx.inj hx') (hy.inj hy') (h1.trans h1'.symm)

theorem fn (h : a.RepOn P) (h' : a.RepOn Q) : P = Q := by
  rcases h with ⟨rfl, rfl⟩ | ⟨h1, x, y, hx, hy, h⟩ <;> rcases h' with ⟨e1, e⟩ | ⟨h1', x', y', hx', hy', h'⟩
  · exact e.symm
  · exact absurd h1' (by decide)
  · rw [e1] at h1; exact absurd h1 (by decide)
  · have e1 := hx.fn hx'
    have e2 := hy.fn hy'
    subst e1 e2
    exact h.inj h'

theorem toProjective (h : a.RepOn P) : a.toProjective.RepOn P := by
  unfold G2Affine.toProjective G2Affine.isZero
  rcases h with ⟨rfl, rfl⟩ | ⟨h1, x, y, hx, hy, h⟩
  · rw [if_pos (show G2Affine.zero.infinity = true from rfl)]
    unfold G2Projective.zero
    exact ⟨_, _, _, FQ2.zero_rep, FQ2.one_rep, FQ2.zero_rep, JPt.ofZero⟩
  · rw [if_neg (by rw [h1]; exact Bool.false_ne_true)]
    exact ⟨_, _, _, hx, hy, FQ2.one_rep, JPt.ofAffine h⟩

end G2Affine.RepOn

namespace G2Projective.RepOn
variable {g k : G2Projective} {b : Fq2} [GoodCurve b] {P Q : (curve b).Point}

theorem zero : G2Projective.zero.RepOn (0 : (curve b).Point) := by
  unfold G2Projective.zero
  exact ⟨_, _, _, FQ2.zero_rep, FQ2.one_rep, FQ2.zero_rep, JPt.ofZero⟩

theorem isZero (h : g.RepOn P) : g.isZero = true ↔ P = 0 := by
  obtain ⟨x, y, z, hx, hy, hz, h⟩ := h
  unfold G2Projective.isZero
  rw [hz.isZero, h.zero_iff]

theorem fn (h : g.RepOn P) (h' : g.RepOn Q) : P = Q := by
  obtain ⟨x, y, z, hx, hy, hz, h⟩ := h
  obtain ⟨x', y', z', hx', hy', hz', h'⟩ := h'
  obtain rfl := hx.fn hx'
  obtain rfl := hy.fn hy'
  obtain rfl := hz.fn hz'
  rcases h with ⟨h1, rfl⟩ | ⟨h1, h2⟩ <;> rcases h' with ⟨h1', rfl⟩ | ⟨h1', h2'⟩
  · rfl
  · exact absurd h1 h1'
  · exact absurd h1' h1
  · exact h2.inj h2'

theorem equal (h : g.RepOn P) (h' : k.RepOn Q) : g.equals k = true ↔ P = Q := by
  have z1 := h.isZero
  have z2 := h'.isZero
  obtain ⟨x₁, y₁, z₁, hx₁, hy₁, hz₁, h⟩ := h
  obtain ⟨x₂, y₂, z₂, hx₂, hy₂, hz₂, h'⟩ := h'
  unfold G2Projective.equals
  by_cases hp : g.isZero = true
  · rw [if_pos hp, z2, z1.mp hp, eq_comm]
  rw [if_neg hp]
  have hp' := fun e => hp (z1.mpr e)
  by_cases hq : k.isZero = true
  · rw [if_pos hq, z2.mp hq]
    exact iff_of_false Bool.false_ne_true hp'
  rw [if_neg hq]
  have hq' := fun e => hq (z2.mpr e)
  have n1 : z₁ ≠ 0 := fun e => hp' (h.zero_iff.mp e)
  have n2 : z₂ ≠ 0 := fun e => hq' (h'.zero_iff.mp e)
  have e1 := (hx₁.mul hz₂.square).equals (hx₂.mul hz₁.square)
  have e2 := ((hz₁.square.mul hz₁).mul hy₂).equals ((hz₂.square.mul hz₂).mul hy₁)
  rw [h.eq_iff h' n1 n2]
  dsimp only
  by_cases c : (g.x.mul k.z.square).equals (k.x.mul g.z.square) = true
  · rw [c, Bool.not_true, if_neg Bool.false_ne_true, e2]
    have c := e1.mp c
    refine ⟨fun t => ⟨by linear_combination c, by linear_combination -t⟩, fun t => by linear_combination -t.2⟩
  · have c' : ¬ (x₁ * (z₂ * z₂) = x₂ * (z₁ * z₁)) := fun e => c (e1.mpr e)
    rw [Bool.not_eq_true] at c
    rw [c, Bool.not_false, if_pos rfl]
    exact iff_of_false Bool.false_ne_true (fun t => c' (by linear_combination t.1))

theorem toAffine (h : g.RepOn P) : g.toAffine.RepOn P := by
  have z1 := h.isZero
  obtain ⟨x, y, z, hx, hy, hz, h⟩ := h
  unfold G2Projective.toAffine
  by_cases hp : g.isZero = true
  · rw [if_pos hp, z1.mp hp]
    exact .zero
  rw [if_neg hp]
  have n1 : z ≠ 0 := fun e => hp (z1.mpr (h.zero_iff.mp e))
  by_cases h1 : g.z.equals FQ2.one = true
  · rw [if_pos h1]
    have e := (hz.equals FQ2.one_rep).mp h1
    subst e
    have := h.isAt one_ne_zero
    rw [one_pow, one_pow, div_one, div_one] at this
    exact Or.inr ⟨rfl, x, y, hx, hy, this⟩
  rw [if_neg h1]
  have hi := (hz.inverse_ne n1).2
  refine Or.inr ⟨rfl, _, _, hx.mul hi.square, (hy.mul hi.square).mul hi, ?_⟩
  convert h.isAt n1 using 1 <;> field_simp

theorem double (h : g.RepOn P) : g.double.RepOn (P + P) := by
  have z1 := h.isZero
  have h0 := h
  obtain ⟨x, y, z, hx, hy, hz, h⟩ := h
  unfold G2Projective.double
  by_cases hp : g.isZero = true
  · rw [if_pos hp]
    have e := z1.mp hp
    rw [e, add_zero]; rw [e] at h0; exact h0
  rw [if_neg hp]
  have n1 : z ≠ 0 := fun e => hp (z1.mpr (h.zero_iff.mp e))
  have a := hx.square
  have b' := hy.square
  have c := b'.square
  have d := (((hx.add b').square.sub a).sub c).double
  have e := a.double.add a
  have f := e.square
  have nz := (hz.mul hy).double
  have nx := (f.sub d).sub d
  have ny := ((d.sub nx).mul e).sub c.double.double.double
  refine ⟨_, _, _, nx, ny, nz, h.double n1 ?_ ?_ ?_⟩ <;> ring

theorem add (h : g.RepOn P) (h' : k.RepOn Q) : (g.add k).RepOn (P + Q) := by
  have z1 := h.isZero
  have z2 := h'.isZero
  have h0 := h
  have h0' := h'
  obtain ⟨x₁, y₁, z₁, hx₁, hy₁, hz₁, h⟩ := h
  obtain ⟨x₂, y₂, z₂, hx₂, hy₂, hz₂, h'⟩ := h'
  unfold G2Projective.add
  by_cases hp : g.isZero = true
  · rw [if_pos hp, z1.mp hp, zero_add]; exact h0'
  rw [if_neg hp]
  have hp' := fun e => hp (z1.mpr e)
  by_cases hq : k.isZero = true
  · rw [if_pos hq, z2.mp hq, add_zero]; exact h0
  rw [if_neg hq]
  have hq' := fun e => hq (z2.mpr e)
  have n1 : z₁ ≠ 0 := fun e => hp' (h.zero_iff.mp e)
  have n2 : z₂ ≠ 0 := fun e => hq' (h'.zero_iff.mp e)
  have u1 := hx₁.mul hz₂.square
  have u2 := hx₂.mul hz₁.square
  have s1 := (hy₁.mul hz₂).mul hz₂.square
  have s2 := (hy₂.mul hz₁).mul hz₁.square
  have e1 := u1.equals u2
  have e2 := s1.equals s2
  have key := h.eq_iff h' n1 n2
  dsimp only
  split_ifs with c
  · rw [Bool.and_eq_true, e1, e2] at c
    rw [← key.mpr ⟨by linear_combination c.1, by linear_combination c.2⟩]
    exact h0.double
  · rw [Bool.and_eq_true, e1, e2] at c
    have hh := u2.sub u1
    have i := hh.double.square
    have j := hh.mul i
    have r := (s2.sub s1).double
    have v := u1.mul i
    have nx := ((r.square.sub j).sub v).sub v
    have ny := ((v.sub nx).mul r).sub (s1.mul j).double
    have nz := (((hz₁.add hz₂).square.sub hz₁.square).sub hz₂.square).mul hh
    refine ⟨_, _, _, nx, ny, nz, h.add h' n1 n2 (fun t => c ⟨by linear_combination t.1, by linear_combination t.2⟩)
      rfl rfl ?_ ?_ ?_⟩ <;> ring

theorem addAffine {a : G2Affine} (h : g.RepOn P) (h' : a.RepOn Q) : (g.addAffine a).RepOn (P + Q) := by
  have z1 := h.isZero
  have z2 := h'.infinity_iff
  have h0 := h
  have h0' := h'
  obtain ⟨x₁, y₁, z₁, hx₁, hy₁, hz₁, h⟩ := h
  unfold G2Projective.addAffine G2Affine.isZero
  by_cases hp : g.isZero = true
  · rw [if_pos hp, z1.mp hp, zero_add]; exact h0'.toProjective
  rw [if_neg hp]
  have hp' := fun e => hp (z1.mpr e)
  by_cases hq : a.infinity = true
  · rw [if_pos hq, z2.mp hq, add_zero]; exact h0
  rw [if_neg hq]
  rcases h' with ⟨rfl, _⟩ | ⟨_, x₂, y₂, hx₂, hy₂, h'⟩
  · exact absurd rfl hq
  replace h' := JPt.ofAffine h'
  have n1 : z₁ ≠ 0 := fun e => hp' (h.zero_iff.mp e)
  have u2 := hx₂.mul hz₁.square
  have s2 := (hy₂.mul hz₁).mul hz₁.square
  have e1 := hx₁.equals u2
  have e2 := hy₁.equals s2
  have key := h.eq_iff h' n1 one_ne_zero
  dsimp only
  split_ifs with c
  · rw [Bool.and_eq_true, e1, e2] at c
    rw [← key.mpr ⟨by linear_combination c.1, by linear_combination c.2⟩]
    exact h0.double
  · rw [Bool.and_eq_true, e1, e2] at c
    have hh := u2.sub hx₁
    have h2 := hh.square
    have i := h2.double.double
    have j := hh.mul i
    have r := (s2.sub hy₁).double
    have v := hx₁.mul i
    have nx := ((r.square.sub j).sub v).sub v
    have ny := ((v.sub nx).mul r).sub (hy₁.mul j).double
    have nz := ((hz₁.add hh).square.sub hz₁.square).sub h2
    refine ⟨_, _, _, nx, ny, nz, h.add h' n1 one_ne_zero (fun t => c ⟨by linear_combination t.1, by linear_combination t.2⟩)
      rfl rfl ?_ ?_ ?_⟩ <;> ring

theorem mul? (h : g.RepOn P) (n : FQRepr) : ∃ o, g.mul? n = some o ∧ o.RepOn (n.toNat • P) := by
  refine scalarLoop_spec RepOn P double (fun h1 => h1.add h) zero n.toNat (n := n.bitLen) ?_ ?_
  · rw [FQRepr.bitLen_spec]; exact lt_natBitLen n.toNat
  · intro i hi
    rw [FQRepr.bit_spec, if_pos]
    have := natBitLen_le.mpr n.toNat_lt
    rw [FQRepr.bitLen_spec] at hi
    omega

theorem mul (h : g.RepOn P) (n : FQRepr) : (g.mul n).RepOn (n.toNat • P) := by
  obtain ⟨o, h1, h2⟩ := h.mul? n
  unfold G2Projective.mul
  rw [h1]; exact h2

theorem mulFR? (h : g.RepOn P) (n : FRRepr) : ∃ o, g.mulFR? n = some o ∧ o.RepOn (n.toNat • P) := by
  refine scalarLoop_spec RepOn P double (fun h1 => h1.add h) zero n.toNat (n := n.bitLen) ?_ ?_
  · rw [FRRepr.bitLen_spec]; exact lt_natBitLen n.toNat
  · intro i hi
    rw [FRRepr.bit_spec, if_pos]
    have := natBitLen_le.mpr n.toNat_lt
    rw [FRRepr.bitLen_spec] at hi
    omega

theorem mulFR (h : g.RepOn P) (n : FRRepr) : (g.mulFR n).RepOn (n.toNat • P) := by
  obtain ⟨o, h1, h2⟩ := h.mulFR? n
  unfold G2Projective.mulFR
  rw [h1]; exact h2

end G2Projective.RepOn

namespace G2Affine.RepOn
variable {a c : G2Affine} {b : Fq2} [GoodCurve b] {P Q : (curve b).Point}

theorem mul? (h : a.RepOn P) (n : FQRepr) : ∃ o, a.mul? n = some o ∧ o.RepOn (n.toNat • P) := by
  refine scalarLoop_spec G2Projective.RepOn P .double (fun h1 => h1.addAffine h) .zero n.toNat (n := n.bitLen) ?_ ?_
  · rw [FQRepr.bitLen_spec]; exact lt_natBitLen n.toNat
  · intro i hi
    rw [FQRepr.bit_spec, if_pos]
    have := natBitLen_le.mpr n.toNat_lt
    rw [FQRepr.bitLen_spec] at hi
    omega

theorem mul (h : a.RepOn P) (n : FQRepr) : (a.mul n).RepOn (n.toNat • P) := by
  obtain ⟨o, h1, h2⟩ := h.mul? n
  unfold G2Affine.mul
  rw [h1]; exact h2

theorem mulFR? (h : a.RepOn P) (n : FRRepr) : ∃ o, a.mulFR? n = some o ∧ o.RepOn (n.toNat • P) := by
  refine scalarLoop_spec G2Projective.RepOn P .double (fun h1 => h1.addAffine h) .zero n.toNat (n := n.bitLen) ?_ ?_
  · rw [FRRepr.bitLen_spec]; exact lt_natBitLen n.toNat
  · intro i hi
    rw [FRRepr.bit_spec, if_pos]
    have := natBitLen_le.mpr n.toNat_lt
    rw [FRRepr.bitLen_spec] at hi
    omega

theorem mulFR (h : a.RepOn P) (n : FRRepr) : (a.mulFR n).RepOn (n.toNat • P) := by
  obtain ⟨o, h1, h2⟩ := h.mulFR? n
  unfold G2Affine.mulFR
  rw [h1]; exact h2

theorem mulBig? (h : a.RepOn P) (n : ℕ) : ∃ o, a.mulBig? n = some o ∧ o.RepOn (n • P) :=
  scalarLoop_spec G2Projective.RepOn P .double (fun h1 => h1.addAffine h) .zero n (n := natBitLen n)
    (lt_natBitLen n) (fun _ _ => rfl)

theorem mulBig (h : a.RepOn P) (n : ℕ) : (a.mulBig n).RepOn (n • P) := by
  obtain ⟨o, h1, h2⟩ := h.mulBig? n
  unfold G2Affine.mulBig
  rw [h1]; exact h2

theorem isInCorrectSubgroup (h : a.RepOn P) : a.isInCorrectSubgroup = true ↔ r • P = 0 := by
  unfold G2Affine.isInCorrectSubgroup
  rw [(h.mulFR frChar).isZero, G1Affine.Rep.frChar_toNat]

end G2Affine.RepOn

end Bls
