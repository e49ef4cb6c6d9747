import Verif.Proof.Scalar
import Verif.Proof.G1
/-
G2: the code's points refine the points of the curve. Generated for G2 by the same script as for the
other group; the arithmetic is in Verif/Proof/Jacobian.lean.
-/
set_option exponentiation.threshold 1000
namespace Bls

/-- `a` denotes the curve point `P`. Infinity has the coordinates the library gives it. -/
def G2Affine.Rep (a : G2Affine) (P : E2) : Prop :=
  (a = G2Affine.zero ∧ P = 0) ∨
  (a.infinity = false ∧ ∃ x y, a.x.Rep x ∧ a.y.Rep y ∧ IsAt P x y)

/-- `g` denotes the curve point `P`. -/
def G2Projective.Rep (g : G2Projective) (P : E2) : Prop :=
  ∃ x y z, g.x.Rep x ∧ g.y.Rep y ∧ g.z.Rep z ∧ JPt P x y z

namespace G2Affine.Rep
variable {a c : G2Affine} {P Q : E2}

theorem infinity_iff (h : a.Rep P) : a.infinity = true ↔ P = 0 := by
  rcases h with ⟨rfl, rfl⟩ | ⟨h1, x, y, _, _, h⟩
  · exact iff_of_true rfl rfl
  · exact iff_of_false (by rw [h1]; exact Bool.false_ne_true) h.ne_zero

theorem zero : G2Affine.zero.Rep 0 := Or.inl ⟨rfl, rfl⟩

theorem neg (h : a.Rep P) : a.neg.Rep (-P) := by
  rcases h with ⟨rfl, rfl⟩ | ⟨h1, x, y, hx, hy, h⟩
  · exact Or.inl ⟨rfl, neg_zero⟩
  · have e : a.neg = { a with y := a.y.neg } := by
      unfold G2Affine.neg G2Affine.isZero
      rw [if_pos (by rw [h1]; rfl)]
    rw [e]
    exact Or.inr ⟨h1, x, -y, hx, hy.neg, h.neg⟩

theorem inj (h : a.Rep P) (h' : c.Rep P) : a = c := by
  rcases h with ⟨rfl, rfl⟩ | ⟨h1, x, y, hx, hy, h⟩ <;> rcases h' with ⟨rfl, e⟩ | ⟨h1', x', y', hx', hy', h'⟩
  · rfl
  · exact absurd rfl h'.ne_zero
  · exact absurd e h.ne_zero
  · obtain ⟨rfl, rfl⟩ := h.coord h'
    exact G2Affine.ext (hx.inj hx') (hy.inj hy') (h1.trans h1'.symm)

theorem fn (h : a.Rep P) (h' : a.Rep Q) : P = Q := by
  rcases h with ⟨rfl, rfl⟩ | ⟨h1, x, y, hx, hy, h⟩ <;> rcases h' with ⟨e1, e⟩ | ⟨h1', x', y', hx', hy', h'⟩
  · exact e.symm
  · exact absurd h1' (by decide)
  · rw [e1] at h1; exact absurd h1 (by decide)
  · have e1 := hx.fn hx'
    have e2 := hy.fn hy'
    subst e1 e2
    exact h.inj h'

theorem toProjective (h : a.Rep P) : a.toProjective.Rep P := by
  unfold G2Affine.toProjective G2Affine.isZero
  rcases h with ⟨rfl, rfl⟩ | ⟨h1, x, y, hx, hy, h⟩
  · rw [if_pos (show G2Affine.zero.infinity = true from rfl)]
    unfold G2Projective.zero
    exact ⟨_, _, _, FQ2.zero_rep, FQ2.one_rep, FQ2.zero_rep, JPt.ofZero⟩
  · rw [if_neg (by rw [h1]; exact Bool.false_ne_true)]
    exact ⟨_, _, _, hx, hy, FQ2.one_rep, JPt.ofAffine h⟩

end G2Affine.Rep

theorem G2Affine.exists_rep (P : E2) : ∃ a : G2Affine, a.Rep P := by
  rcases zero_or_isAt P with rfl | ⟨x, y, h⟩
  · exact ⟨_, .zero⟩
  · obtain ⟨a, ha⟩ := FQ2.exists_rep x
    obtain ⟨c, hc⟩ := FQ2.exists_rep y
    exact ⟨⟨a, c, false⟩, Or.inr ⟨rfl, x, y, ha, hc, h⟩⟩

namespace G2Projective.Rep
variable {g k : G2Projective} {P Q : E2}

theorem zero : G2Projective.zero.Rep 0 := by
  unfold G2Projective.zero
  exact ⟨_, _, _, FQ2.zero_rep, FQ2.one_rep, FQ2.zero_rep, JPt.ofZero⟩

theorem isZero (h : g.Rep P) : g.isZero = true ↔ P = 0 := by
  obtain ⟨x, y, z, hx, hy, hz, h⟩ := h
  unfold G2Projective.isZero
  rw [hz.isZero, h.zero_iff]

theorem fn (h : g.Rep P) (h' : g.Rep Q) : P = Q := by
  obtain ⟨x, y, z, hx, hy, hz, h⟩ := h
  obtain ⟨x', y', z', hx', hy', hz', h'⟩ := h'
  obtain rfl := hx.fn hx'
  obtain rfl := hy.fn hy'
  obtain rfl := hz.fn hz'
  rcases h with ⟨h1, rfl⟩ | ⟨h1, h2⟩ <;> rcases h' with ⟨h1', rfl⟩ | ⟨h1', h2'⟩
  · rfl
  · exact absurd h1 h1'
  · exact absurd h1' h1
  · exact h2.inj h2'

theorem equal (h : g.Rep P) (h' : k.Rep Q) : g.equals k = true ↔ P = Q := by
  have z1 := h.isZero
  have z2 := h'.isZero
  obtain ⟨x₁, y₁, z₁, hx₁, hy₁, hz₁, h⟩ := h
  obtain ⟨x₂, y₂, z₂, hx₂, hy₂, hz₂, h'⟩ := h'
  unfold G2Projective.equals
  by_cases hp : g.isZero = true
  · rw [if_pos hp, z2, z1.mp hp, eq_comm]
  rw [if_neg hp]
  have hp' := fun e => hp (z1.mpr e)
  by_cases hq : k.isZero = true
  · rw [if_pos hq, z2.mp hq]
    exact iff_of_false Bool.false_ne_true hp'
  rw [if_neg hq]
  have hq' := fun e => hq (z2.mpr e)
  have n1 : z₁ ≠ 0 := fun e => hp' (h.zero_iff.mp e)
  have n2 : z₂ ≠ 0 := fun e => hq' (h'.zero_iff.mp e)
  have e1 := (hx₁.mul hz₂.square).equals (hx₂.mul hz₁.square)
  have e2 := ((hz₁.square.mul hz₁).mul hy₂).equals ((hz₂.square.mul hz₂).mul hy₁)
  rw [h.eq_iff h' n1 n2]
  dsimp only
  by_cases c : (g.x.mul k.z.square).equals (k.x.mul g.z.square) = true
  · rw [c, Bool.not_true, if_neg Bool.false_ne_true, e2]
    have c := e1.mp c
    refine ⟨fun t => ⟨by linear_combination c, by linear_combination -t⟩, fun t => by linear_combination -t.2⟩
  · have c' : ¬ (x₁ * (z₂ * z₂) = x₂ * (z₁ * z₁)) := fun e => c (e1.mpr e)
    rw [Bool.not_eq_true] at c
    rw [c, Bool.not_false, if_pos rfl]
    exact iff_of_false Bool.false_ne_true (fun t => c' (by linear_combination t.1))

theorem toAffine (h : g.Rep P) : g.toAffine.Rep P := by
  have z1 := h.isZero
  obtain ⟨x, y, z, hx, hy, hz, h⟩ := h
  unfold G2Projective.toAffine
  by_cases hp : g.isZero = true
  · rw [if_pos hp, z1.mp hp]
    exact .zero
  rw [if_neg hp]
  have n1 : z ≠ 0 := fun e => hp (z1.mpr (h.zero_iff.mp e))
  by_cases h1 : g.z.equals FQ2.one = true
  · rw [if_pos h1]
    have e := (hz.equals FQ2.one_rep).mp h1
    subst e
    have := h.isAt one_ne_zero
    rw [one_pow, one_pow, div_one, div_one] at this
    exact Or.inr ⟨rfl, x, y, hx, hy, this⟩
  rw [if_neg h1]
  have hi := (hz.inverse_ne n1).2
  refine Or.inr ⟨rfl, _, _, hx.mul hi.square, (hy.mul hi.square).mul hi, ?_⟩
  convert h.isAt n1 using 1 <;> field_simp

theorem double (h : g.Rep P) : g.double.Rep (P + P) := by
  have z1 := h.isZero
  have h0 := h
  obtain ⟨x, y, z, hx, hy, hz, h⟩ := h
  unfold G2Projective.double
  by_cases hp : g.isZero = true
  · rw [if_pos hp]
    have e := z1.mp hp
    rw [e, add_zero]; rw [e] at h0; exact h0
  rw [if_neg hp]
  have n1 : z ≠ 0 := fun e => hp (z1.mpr (h.zero_iff.mp e))
  have a := hx.square
  have b := hy.square
  have c := b.square
  have d := (((hx.add b).square.sub a).sub c).double
  have e := a.double.add a
  have f := e.square
  have nz := (hz.mul hy).double
  have nx := (f.sub d).sub d
  have ny := ((d.sub nx).mul e).sub c.double.double.double
  refine ⟨_, _, _, nx, ny, nz, h.double n1 ?_ ?_ ?_⟩ <;> ring

theorem add (h : g.Rep P) (h' : k.Rep Q) : (g.add k).Rep (P + Q) := by
  have z1 := h.isZero
  have z2 := h'.isZero
  have h0 := h
  have h0' := h'
  obtain ⟨x₁, y₁, z₁, hx₁, hy₁, hz₁, h⟩ := h
  obtain ⟨x₂, y₂, z₂, hx₂, hy₂, hz₂, h'⟩ := h'
  unfold G2Projective.add
  by_cases hp : g.isZero = true
  · rw [if_pos hp, z1.mp hp, zero_add]; exact h0'
  rw [if_neg hp]
  have hp' := fun e => hp (z1.mpr e)
  by_cases hq : k.isZero = true
  · rw [if_pos hq, z2.mp hq, add_zero]; exact h0
  rw [if_neg hq]
  have hq' := fun e => hq (z2.mpr e)
  have n1 : z₁ ≠ 0 := fun e => hp' (h.zero_iff.mp e)
  have n2 : z₂ ≠ 0 := fun e => hq' (h'.zero_iff.mp e)
  have u1 := hx₁.mul hz₂.square
  have u2 := hx₂.mul hz₁.square
  have s1 := (hy₁.mul hz₂).mul hz₂.square
  have s2 := (hy₂.mul hz₁).mul hz₁.square
  have e1 := u1.equals u2
  have e2 := s1.equals s2
  have key := h.eq_iff h' n1 n2
  dsimp only
  split_ifs with c
  · rw [Bool.and_eq_true, e1, e2] at c
    rw [← key.mpr ⟨by linear_combination c.1, by linear_combination c.2⟩]
    exact h0.double
  · rw [Bool.and_eq_true, e1, e2] at c
    have hh := u2.sub u1
    have i := hh.double.square
    have j := hh.mul i
    have r := (s2.sub s1).double
    have v := u1.mul i
    have nx := ((r.square.sub j).sub v).sub v
    have ny := ((v.sub nx).mul r).sub (s1.mul j).double
    have nz := (((hz₁.add hz₂).square.sub hz₁.square).sub hz₂.square).mul hh
    refine ⟨_, _, _, nx, ny, nz, h.add h' n1 n2 (fun t => c ⟨by linear_combination t.1, by linear_combination t.2⟩)
      rfl rfl ?_ ?_ ?_⟩ <;> ring

theorem addAffine {a : G2Affine} (h : g.Rep P) (h' : a.Rep Q) : (g.addAffine a).Rep (P + Q) := by
  have z1 := h.isZero
  have z2 := h'.infinity_iff
  have h0 := h
  have h0' := h'
  obtain ⟨x₁, y₁, z₁, hx₁, hy₁, hz₁, h⟩ := h
  unfold G2Projective.addAffine G2Affine.isZero
  by_cases hp : g.isZero = true
  · rw [if_pos hp, z1.mp hp, zero_add]; exact h0'.toProjective
  rw [if_neg hp]
  have hp' := fun e => hp (z1.mpr e)
  by_cases hq : a.infinity = true
  · rw [if_pos hq, z2.mp hq, add_zero]; exact h0
  rw [if_neg hq]
  rcases h' with ⟨rfl, _⟩ | ⟨_, x₂, y₂, hx₂, hy₂, h'⟩
  · exact absurd rfl hq
  replace h' := JPt.ofAffine h'
  have n1 : z₁ ≠ 0 := fun e => hp' (h.zero_iff.mp e)
  have u2 := hx₂.mul hz₁.square
  have s2 := (hy₂.mul hz₁).mul hz₁.square
  have e1 := hx₁.equals u2
  have e2 := hy₁.equals s2
  have key := h.eq_iff h' n1 one_ne_zero
  dsimp only
  split_ifs with c
  · rw [Bool.and_eq_true, e1, e2] at c
    rw [← key.mpr ⟨by linear_combination c.1, by linear_combination c.2⟩]
    exact h0.double
  · rw [Bool.and_eq_true, e1, e2] at c
    have hh := u2.sub hx₁
    have h2 := hh.square
    have i := h2.double.double
    have j := hh.mul i
    have r := (s2.sub hy₁).double
    have v := hx₁.mul i
    have nx := ((r.square.sub j).sub v).sub v
    have ny := ((v.sub nx).mul r).sub (hy₁.mul j).double
    have nz := ((hz₁.add hh).square.sub hz₁.square).sub h2
    refine ⟨_, _, _, nx, ny, nz, h.add h' n1 one_ne_zero (fun t => c ⟨by linear_combination t.1, by linear_combination t.2⟩)
      rfl rfl ?_ ?_ ?_⟩ <;> ring

theorem mul? (h : g.Rep P) (n : FQRepr) : ∃ o, g.mul? n = some o ∧ o.Rep (n.toNat • P) := by
  refine scalarLoop_spec Rep P double (fun h1 => h1.add h) zero n.toNat (n := n.bitLen) ?_ ?_
  · rw [FQRepr.bitLen_spec]; exact lt_natBitLen n.toNat
  · intro i hi
    rw [FQRepr.bit_spec, if_pos]
    have := natBitLen_le.mpr n.toNat_lt
    rw [FQRepr.bitLen_spec] at hi
    omega

theorem mul (h : g.Rep P) (n : FQRepr) : (g.mul n).Rep (n.toNat • P) := by
  obtain ⟨o, h1, h2⟩ := h.mul? n
  unfold G2Projective.mul
  rw [h1]; exact h2

theorem mulFR? (h : g.Rep P) (n : FRRepr) : ∃ o, g.mulFR? n = some o ∧ o.Rep (n.toNat • P) := by
  refine scalarLoop_spec Rep P double (fun h1 => h1.add h) zero n.toNat (n := n.bitLen) ?_ ?_
  · rw [FRRepr.bitLen_spec]; exact lt_natBitLen n.toNat
  · intro i hi
    rw [FRRepr.bit_spec, if_pos]
    have := natBitLen_le.mpr n.toNat_lt
    rw [FRRepr.bitLen_spec] at hi
    omega

theorem mulFR (h : g.Rep P) (n : FRRepr) : (g.mulFR n).Rep (n.toNat • P) := by
  obtain ⟨o, h1, h2⟩ := h.mulFR? n
  unfold G2Projective.mulFR
  rw [h1]; exact h2

end G2Projective.Rep

namespace G2Affine.Rep
variable {a c : G2Affine} {P Q : E2}

theorem mul? (h : a.Rep P) (n : FQRepr) : ∃ o, a.mul? n = some o ∧ o.Rep (n.toNat • P) := by
  refine scalarLoop_spec G2Projective.Rep P .double (fun h1 => h1.addAffine h) .zero n.toNat (n := n.bitLen) ?_ ?_
  · rw [FQRepr.bitLen_spec]; exact lt_natBitLen n.toNat
  · intro i hi
    rw [FQRepr.bit_spec, if_pos]
    have := natBitLen_le.mpr n.toNat_lt
    rw [FQRepr.bitLen_spec] at hi
    omega

theorem mul (h : a.Rep P) (n : FQRepr) : (a.mul n).Rep (n.toNat • P) := by
  obtain ⟨o, h1, h2⟩ := h.mul? n
  unfold G2Affine.mul
  rw [h1]; exact h2

theorem mulFR? (h : a.Rep P) (n : FRRepr) : ∃ o, a.mulFR? n = some o ∧ o.Rep (n.toNat • P) := by
  refine scalarLoop_spec G2Projective.Rep P .double (fun h1 => h1.addAffine h) .zero n.toNat (n := n.bitLen) ?_ ?_
  · rw [FRRepr.bitLen_spec]; exact lt_natBitLen n.toNat
  · intro i hi
    rw [FRRepr.bit_spec, if_pos]
    have := natBitLen_le.mpr n.toNat_lt
    rw [FRRepr.bitLen_spec] at hi
    omega

theorem mulFR (h : a.Rep P) (n : FRRepr) : (a.mulFR n).Rep (n.toNat • P) := by
  obtain ⟨o, h1, h2⟩ := h.mulFR? n
  unfold G2Affine.mulFR
  rw [h1]; exact h2

theorem mulBig? (h : a.Rep P) (n : ℕ) : ∃ o, a.mulBig? n = some o ∧ o.Rep (n • P) :=
  scalarLoop_spec G2Projective.Rep P .double (fun h1 => h1.addAffine h) .zero n (n := natBitLen n)
    (lt_natBitLen n) (fun _ _ => rfl)

theorem mulBig (h : a.Rep P) (n : ℕ) : (a.mulBig n).Rep (n • P) := by
  obtain ⟨o, h1, h2⟩ := h.mulBig? n
  unfold G2Affine.mulBig
  rw [h1]; exact h2


/-- For a canonical pair of coordinates, `IsOnCurve` decides the curve equation. -/
theorem _root_.Bls.G2Affine.isOnCurve_iff {x y : Fq2} (hx : a.x.Rep x) (hy : a.y.Rep y) (h : a.infinity = false) :
    a.isOnCurve = true ↔ y ^ 2 = x ^ 3 + b2 := by
  unfold G2Affine.isOnCurve
  rw [h, if_neg Bool.false_ne_true]
  dsimp only
  rw [hy.square.equals ((hx.square.mul hx).add bCoeffFQ2_rep)]
  constructor <;> intro h <;> linear_combination h

theorem isOnCurve (h : a.Rep P) : a.isOnCurve = true := by
  rcases h with ⟨rfl, rfl⟩ | ⟨h1, x, y, hx, hy, h⟩
  · rfl
  · exact (G2Affine.isOnCurve_iff hx hy h1).mpr h.on

theorem isInCorrectSubgroup (h : a.Rep P) : a.isInCorrectSubgroup = true ↔ r • P = 0 := by
  unfold G2Affine.isInCorrectSubgroup
  rw [(h.mulFR frChar).isZero, G1Affine.Rep.frChar_toNat]

/-- `GetPointFromX`: fails exactly when no curve point has that `x`; otherwise one of the two, chosen by
`greatest`. -/
theorem _root_.Bls.G2Affine.getPointFromX_none {f : FQ2} {x : Fq2} (hf : f.Rep x) (greatest : Bool) :
    G2Affine.getPointFromX f greatest = none ↔ ¬ IsSquare (x ^ 3 + b2) := by
  have h3 := (hf.square.mul hf).add bCoeffFQ2_rep
  rw [show x * x * x + b2 = x ^ 3 + b2 by ring] at h3
  unfold G2Affine.getPointFromX
  dsimp only
  by_cases hs : IsSquare (x ^ 3 + b2)
  · rw [(h3.sqrt.1 hs).1]
    simp [hs]
  · rw [(h3.sqrt.2 hs).1]
    simp [hs]


/-- When it succeeds: a point of the curve with the given `x`, and the larger of the two `y` exactly if
asked for. -/
theorem _root_.Bls.G2Affine.getPointFromX_some {f : FQ2} {x : Fq2} (hf : f.Rep x) {greatest : Bool} {a : G2Affine}
    (h : G2Affine.getPointFromX f greatest = some a) :
    a.x = f ∧ a.infinity = false ∧ ∃ y, a.y.Rep y ∧ y ^ 2 = x ^ 3 + b2 ∧
      (y ≠ -y → (greatest = true ↔ Fq2.Greater y (-y))) := by
  have h3 := (hf.square.mul hf).add bCoeffFQ2_rep
  rw [show x * x * x + b2 = x ^ 3 + b2 by ring] at h3
  have hs : IsSquare (x ^ 3 + b2) := by
    by_contra hn
    rw [(G2Affine.getPointFromX_none hf greatest).mpr hn] at h
    cases h
  obtain ⟨h4, s, hs1, hs2⟩ := h3.sqrt.1 hs
  unfold G2Affine.getPointFromX at h
  dsimp only at h
  generalize ((f.square.mul f).add G2Affine.bCoeffFQ2).sqrt = t at h h4 hs1
  rw [h4, Bool.not_true, if_neg Bool.false_ne_true, Option.some.injEq] at h
  have lt := hs1.cmp_lt hs1.neg
  have hn := hs1.neg
  rw [← h]
  refine ⟨rfl, rfl, ?_⟩
  generalize e : (if (decide (t.1.cmp t.1.neg < 0) != greatest) = true then t.1 else t.1.neg) = v
  change ∃ y, v.Rep y ∧ _
  by_cases c : t.1.cmp t.1.neg < 0
  · rw [decide_eq_true c] at e
    have g := lt.mp c
    cases greatest with
    | true =>
      rw [if_neg (by decide)] at e
      rw [← e]
      refine ⟨-s, hn, by rw [neg_sq, ← hs2, sq], fun _ => iff_of_true rfl ?_⟩
      rw [neg_neg]; exact g
    | false =>
      rw [if_pos (by decide)] at e
      rw [← e]
      exact ⟨s, hs1, by rw [← hs2, sq], fun _ => iff_of_false Bool.false_ne_true g.asymm⟩
  · rw [decide_eq_false c] at e
    have g := fun e => c (lt.mpr e)
    cases greatest with
    | true =>
      rw [if_pos (by decide)] at e
      rw [← e]
      refine ⟨s, hs1, by rw [← hs2, sq], fun hne => iff_of_true rfl ?_⟩
      rcases Fq2.Greater.total hne with h | h
      · exact h
      · exact absurd h g
    | false =>
      rw [if_neg (by decide)] at e
      rw [← e]
      refine ⟨-s, hn, by rw [neg_sq, ← hs2, sq], fun _ => iff_of_false Bool.false_ne_true ?_⟩
      rw [neg_neg]; exact g

theorem _root_.Bls.G2Affine.getPointFromX_rep {f : FQ2} {x : Fq2} (hf : f.Rep x) {greatest : Bool} {a : G2Affine}
    (h : G2Affine.getPointFromX f greatest = some a) : ∃ P : E2, P ≠ 0 ∧ a.Rep P := by
  obtain ⟨h1, h2, y, hy, h3, _⟩ := G2Affine.getPointFromX_some hf h
  have := pt_isAt h3
  exact ⟨pt x y h3, this.ne_zero, Or.inr ⟨h2, x, y, h1 ▸ hf, hy, this⟩⟩

/-- A point is recovered from its `x` and the comparison of `y` with `-y`. -/
theorem getPointFromX (h : a.Rep P) (hP : P ≠ 0) :
    G2Affine.getPointFromX a.x (decide (a.y.cmp a.y.neg > 0)) = some a := by
  rcases h with ⟨rfl, rfl⟩ | ⟨h1, x, y, hx, hy, h⟩
  · exact absurd rfl hP
  have gt := hy.cmp_gt hy.neg
  have on := h.on
  have hs : IsSquare (x ^ 3 + b2) := ⟨y, by rw [← on, sq]⟩
  have hne := fun e => (G2Affine.getPointFromX_none hx (decide (a.y.cmp a.y.neg > 0))).mp e hs
  obtain ⟨c, e⟩ := Option.ne_none_iff_exists'.mp hne
  rw [e]
  obtain ⟨e1, e2, y', hy', e3, e4⟩ := G2Affine.getPointFromX_some hx e
  rw [Option.some.injEq]
  refine G2Affine.ext e1 ?_ (e2.trans h1.symm)
  rw [← on] at e3
  have : y' = y := by
    rcases sq_eq_sq_iff_eq_or_eq_neg.mp e3 with t | t
    · exact t
    · by_contra hne
      have h5 : y' ≠ -y' := fun t' => hne (by rw [t', t, neg_neg])
      have h6 := e4 h5
      rw [decide_eq_true_iff, gt, t, neg_neg] at h6
      rcases Fq2.Greater.total (x := y) (y := -y) (fun e => hne (by rw [t, ← e])) with h7 | h7
      · exact h7.asymm (h6.mp h7)
      · exact h7.asymm (h6.mpr h7)
  subst this
  exact hy'.inj hy

end G2Affine.Rep

end Bls
