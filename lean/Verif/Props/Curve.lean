import Verif.Proof.Denote
/-
C20–C24: the group law, scalar multiplication and equality on G1 and G2. `E1` and `E2` are the groups of
points of `y² = x³ + 4` over Fq and of `y² = x³ + 4(1+u)` over Fq2 (Mathlib's group law); `g.Denotes P`
is defined in Verif/Spec/Denote.lean.
-/
set_option exponentiation.threshold 1000
namespace Bls.Props

section
open G1Projective

/-! ## C20: G1 group law -/

/-- A triple of canonical coordinates denotes a point exactly if it satisfies the Jacobian equation or has
`z = 0`, and denotes only one. -/
theorem C20_denotes (g : G1Projective) : ((∃ P, g.Denotes P) ↔ g.x.isValid ∧ g.y.isValid ∧ g.z.isValid ∧
      ((g.z.int : Fq) = 0 ∨ (g.y.int : Fq) ^ 2 = (g.x.int : Fq) ^ 3 + 4 * (g.z.int : Fq) ^ 6)) ∧
    ∀ P Q, g.Denotes P → g.Denotes Q → P = Q :=
  ⟨g.exists_denotes_iff, fun _ _ h h' => (denotes_iff.mp h).fn (denotes_iff.mp h')⟩

theorem C20_double (g : G1Projective) (P : E1) (h : g.Denotes P) : g.double.Denotes (P + P) :=
  denotes_iff.mpr (denotes_iff.mp h).double

theorem C20_add (g k : G1Projective) (P Q : E1) (h : g.Denotes P) (h' : k.Denotes Q) : (g.add k).Denotes (P + Q) :=
  denotes_iff.mpr ((denotes_iff.mp h).add (denotes_iff.mp h'))

theorem C20_addAffine (g : G1Projective) (a : G1Affine) (P Q : E1) (h : g.Denotes P) (h' : a.Denotes Q) :
    (g.addAffine a).Denotes (P + Q) :=
  denotes_iff.mpr ((denotes_iff.mp h).addAffine (G1Affine.denotes_iff.mp h'))

theorem C20_neg (g : G1Projective) (P : E1) (h : g.Denotes P) : g.neg.Denotes (-P) :=
  denotes_iff.mpr (denotes_iff.mp h).neg

theorem C20_neg_affine (a : G1Affine) (P : E1) (h : a.Denotes P) : a.neg.Denotes (-P) :=
  G1Affine.denotes_iff.mpr (G1Affine.denotes_iff.mp h).neg

theorem C20_toProjective (a : G1Affine) (P : E1) (h : a.Denotes P) : a.toProjective.Denotes P :=
  denotes_iff.mpr (G1Affine.denotes_iff.mp h).toProjective

theorem C20_toAffine (g : G1Projective) (P : E1) (h : g.Denotes P) : g.toAffine.Denotes P :=
  G1Affine.denotes_iff.mpr (denotes_iff.mp h).toAffine

theorem C20_zero : G1Projective.zero.Denotes 0 ∧ G1Affine.zero.Denotes 0 ∧
    (∀ g : G1Projective, ∀ P, g.Denotes P → (g.isZero = true ↔ P = 0)) ∧
    (∀ a : G1Affine, ∀ P, a.Denotes P → (a.isZero = true ↔ P = 0)) :=
  ⟨denotes_iff.mpr .zero, G1Affine.denotes_iff.mpr .zero, fun _ _ h => (denotes_iff.mp h).isZero,
    fun _ _ h => (G1Affine.denotes_iff.mp h).infinity_iff⟩

/-- Every curve point is denoted by some value; `IsOnCurve` tells which coordinates denote one. -/
theorem C20_complete : (∀ P : E1, ∃ a : G1Affine, a.Denotes P) ∧
    ∀ a : G1Affine, a.x.isValid → a.y.isValid → a.infinity = false → (a.isOnCurve = true ↔ ∃ P, a.Denotes P) := by
  refine ⟨fun P => ?_, fun a hx hy hi => ?_⟩
  · obtain ⟨a, ha⟩ := G1Affine.exists_rep P
    exact ⟨a, G1Affine.denotes_iff.mpr ha⟩
  · rw [G1Affine.isOnCurve_iff (FQ.rep_int hx) (FQ.rep_int hy) hi]
    constructor
    · intro h
      exact ⟨pt _ _ h, Or.inr ⟨hi, hx, hy, pt_isAt h⟩⟩
    · rintro ⟨P, ⟨rfl, _⟩ | ⟨_, _, _, h⟩⟩
      · cases hi
      · exact h.on

/-- The generator, its double and a sum of different points, as one non-trivial case. -/
example : ∃ P : E1, P ≠ 0 ∧ G1Affine.one.Denotes P ∧ G1Projective.one.Denotes P ∧
    (G1Projective.one.double.add G1Projective.one).Denotes (3 • P) := by
  have h : G1Projective.one.Denotes g1Gen := C20_toProjective _ _ (G1Affine.denotes_iff.mpr G1Affine.one_rep)
  refine ⟨g1Gen, g1Gen_ne_zero, G1Affine.denotes_iff.mpr G1Affine.one_rep, h, ?_⟩
  have := C20_add _ _ _ _ (C20_double _ _ h) h
  rwa [show g1Gen + g1Gen + g1Gen = 3 • g1Gen by abel] at this

/-! ## C22: G1 scalar multiplication. The loop never panics and yields the multiple. -/

theorem C22_g1_affine_mul (a : G1Affine) (P : E1) (h : a.Denotes P) (k : FQRepr) :
    a.mul? k = some (a.mul k) ∧ (a.mul k).Denotes (k.toNat • P) := by
  obtain ⟨o, h1, h2⟩ := (G1Affine.denotes_iff.mp h).mul? k
  refine ⟨?_, denotes_iff.mpr ((G1Affine.denotes_iff.mp h).mul k)⟩
  unfold G1Affine.mul; rw [h1, Option.getD_some]

theorem C22_g1_affine_mulFR (a : G1Affine) (P : E1) (h : a.Denotes P) (k : FRRepr) :
    a.mulFR? k = some (a.mulFR k) ∧ (a.mulFR k).Denotes (k.toNat • P) := by
  obtain ⟨o, h1, h2⟩ := (G1Affine.denotes_iff.mp h).mulFR? k
  refine ⟨?_, denotes_iff.mpr ((G1Affine.denotes_iff.mp h).mulFR k)⟩
  unfold G1Affine.mulFR; rw [h1, Option.getD_some]

theorem C22_g1_mul (g : G1Projective) (P : E1) (h : g.Denotes P) (k : FQRepr) :
    g.mul? k = some (g.mul k) ∧ (g.mul k).Denotes (k.toNat • P) := by
  obtain ⟨o, h1, h2⟩ := (denotes_iff.mp h).mul? k
  refine ⟨?_, denotes_iff.mpr ((denotes_iff.mp h).mul k)⟩
  unfold G1Projective.mul; rw [h1, Option.getD_some]

theorem C22_g1_mulFR (g : G1Projective) (P : E1) (h : g.Denotes P) (k : FRRepr) :
    g.mulFR? k = some (g.mulFR k) ∧ (g.mulFR k).Denotes (k.toNat • P) := by
  obtain ⟨o, h1, h2⟩ := (denotes_iff.mp h).mulFR? k
  refine ⟨?_, denotes_iff.mpr ((denotes_iff.mp h).mulFR k)⟩
  unfold G1Projective.mulFR; rw [h1, Option.getD_some]

/-- `r` times the generator is infinity, and no smaller positive multiple is. -/
example : G1Affine.one.Denotes g1Gen ∧ r • g1Gen = 0 ∧ ∀ k, 0 < k → k < r → k • g1Gen ≠ 0 := by
  refine ⟨G1Affine.denotes_iff.mpr G1Affine.one_rep, r_smul_g1Gen, fun k h0 h1 h => ?_⟩
  have := addOrderOf_dvd_iff_nsmul_eq_zero.mpr h
  rw [addOrderOf_g1Gen] at this
  exact absurd (Nat.le_of_dvd h0 this) (not_le.mpr h1)

/-! ## C23: projective equality on G1 -/

theorem C23_g1_equal (g k : G1Projective) (P Q : E1) (h : g.Denotes P) (h' : k.Denotes Q) :
    g.equal k = true ↔ P = Q := (denotes_iff.mp h).equal (denotes_iff.mp h')

/-- `ToAffine` and the compressed encoding depend only on the point; different points have different ones. -/
theorem C23_g1_toAffine (g k : G1Projective) (P Q : E1) (h : g.Denotes P) (h' : k.Denotes Q) :
    (g.toAffine = k.toAffine ↔ P = Q) ∧ (g.toAffine.compress = k.toAffine.compress ↔ P = Q) := by
  have h1 := (denotes_iff.mp h).toAffine
  have h2 := (denotes_iff.mp h').toAffine
  have h3 : g.toAffine = k.toAffine ↔ P = Q :=
    ⟨fun e => h1.fn (e ▸ h2), fun e => h1.inj (e ▸ h2)⟩
  refine ⟨h3, ⟨fun e => h3.mp ?_, fun e => by rw [h3.mpr e]⟩⟩
  have e1 := h1.decompressUnchecked_compress
  rw [e, h2.decompressUnchecked_compress] at e1
  exact (Option.some.inj e1).symm

/-- Two different triples of coordinates for the same point. -/
example : ∃ P : E1, P ≠ 0 ∧ (G1Projective.one.add G1Projective.one.double).Denotes P ∧
    (G1Projective.one.double.double.add G1Projective.one.neg).Denotes P ∧
    (G1Projective.one.add G1Projective.one.double).z ≠ (G1Projective.one.double.double.add G1Projective.one.neg).z := by
  have h := G1Affine.one_rep.toProjective
  refine ⟨3 • g1Gen, ?_, ?_, ?_, by decide +kernel⟩
  · intro h
    have := addOrderOf_dvd_iff_nsmul_eq_zero.mpr h
    rw [addOrderOf_g1Gen, r_eq] at this
    exact absurd this (by decide +kernel)
  · have := G1Projective.denotes_iff.mpr (h.add h.double)
    rwa [show g1Gen + (g1Gen + g1Gen) = 3 • g1Gen by abel] at this
  · have := G1Projective.denotes_iff.mpr (h.double.double.add h.neg)
    rwa [show g1Gen + g1Gen + (g1Gen + g1Gen) + -g1Gen = 3 • g1Gen by abel] at this

end

section
open G2Projective

/-! ## C21: G2 group law -/

/-- A triple of canonical coordinates denotes a point exactly if it satisfies the Jacobian equation or has
`z = 0`, and denotes only one. -/
theorem C21_denotes (g : G2Projective) : ((∃ P, g.Denotes P) ↔ g.x.isValid ∧ g.y.isValid ∧ g.z.isValid ∧
      (g.z.fld = 0 ∨ g.y.fld ^ 2 = g.x.fld ^ 3 + b2 * g.z.fld ^ 6)) ∧
    ∀ P Q, g.Denotes P → g.Denotes Q → P = Q :=
  ⟨g.exists_denotes_iff, fun _ _ h h' => (denotes_iff.mp h).fn (denotes_iff.mp h')⟩

theorem C21_double (g : G2Projective) (P : E2) (h : g.Denotes P) : g.double.Denotes (P + P) :=
  denotes_iff.mpr (denotes_iff.mp h).double

theorem C21_add (g k : G2Projective) (P Q : E2) (h : g.Denotes P) (h' : k.Denotes Q) : (g.add k).Denotes (P + Q) :=
  denotes_iff.mpr ((denotes_iff.mp h).add (denotes_iff.mp h'))

theorem C21_addAffine (g : G2Projective) (a : G2Affine) (P Q : E2) (h : g.Denotes P) (h' : a.Denotes Q) :
    (g.addAffine a).Denotes (P + Q) :=
  denotes_iff.mpr ((denotes_iff.mp h).addAffine (G2Affine.denotes_iff.mp h'))

theorem C21_neg_affine (a : G2Affine) (P : E2) (h : a.Denotes P) : a.neg.Denotes (-P) :=
  G2Affine.denotes_iff.mpr (G2Affine.denotes_iff.mp h).neg

theorem C21_toProjective (a : G2Affine) (P : E2) (h : a.Denotes P) : a.toProjective.Denotes P :=
  denotes_iff.mpr (G2Affine.denotes_iff.mp h).toProjective

theorem C21_toAffine (g : G2Projective) (P : E2) (h : g.Denotes P) : g.toAffine.Denotes P :=
  G2Affine.denotes_iff.mpr (denotes_iff.mp h).toAffine

theorem C21_zero : G2Projective.zero.Denotes 0 ∧ G2Affine.zero.Denotes 0 ∧
    (∀ g : G2Projective, ∀ P, g.Denotes P → (g.isZero = true ↔ P = 0)) ∧
    (∀ a : G2Affine, ∀ P, a.Denotes P → (a.isZero = true ↔ P = 0)) :=
  ⟨denotes_iff.mpr .zero, G2Affine.denotes_iff.mpr .zero, fun _ _ h => (denotes_iff.mp h).isZero,
    fun _ _ h => (G2Affine.denotes_iff.mp h).infinity_iff⟩

/-- Every curve point is denoted by some value; `IsOnCurve` tells which coordinates denote one. -/
theorem C21_complete : (∀ P : E2, ∃ a : G2Affine, a.Denotes P) ∧
    ∀ a : G2Affine, a.x.isValid → a.y.isValid → a.infinity = false → (a.isOnCurve = true ↔ ∃ P, a.Denotes P) := by
  refine ⟨fun P => ?_, fun a hx hy hi => ?_⟩
  · obtain ⟨a, ha⟩ := G2Affine.exists_rep P
    exact ⟨a, G2Affine.denotes_iff.mpr ha⟩
  · rw [G2Affine.isOnCurve_iff (FQ2.rep hx) (FQ2.rep hy) hi]
    constructor
    · intro h
      exact ⟨pt _ _ h, Or.inr ⟨hi, hx, hy, pt_isAt h⟩⟩
    · rintro ⟨P, ⟨rfl, _⟩ | ⟨_, _, _, h⟩⟩
      · cases hi
      · exact h.on

/-- The generator, its double and a sum of different points, as one non-trivial case. -/
example : ∃ P : E2, P ≠ 0 ∧ G2Affine.one.Denotes P ∧ G2Projective.one.Denotes P ∧
    (G2Projective.one.double.add G2Projective.one).Denotes (3 • P) := by
  have h : G2Projective.one.Denotes g2Gen := C21_toProjective _ _ (G2Affine.denotes_iff.mpr G2Affine.one_rep)
  refine ⟨g2Gen, g2Gen_ne_zero, G2Affine.denotes_iff.mpr G2Affine.one_rep, h, ?_⟩
  have := C21_add _ _ _ _ (C21_double _ _ h) h
  rwa [show g2Gen + g2Gen + g2Gen = 3 • g2Gen by abel] at this

/-! ## C22: G2 scalar multiplication. The loop never panics and yields the multiple. -/

theorem C22_g2_affine_mul (a : G2Affine) (P : E2) (h : a.Denotes P) (k : FQRepr) :
    a.mul? k = some (a.mul k) ∧ (a.mul k).Denotes (k.toNat • P) := by
  obtain ⟨o, h1, h2⟩ := (G2Affine.denotes_iff.mp h).mul? k
  refine ⟨?_, denotes_iff.mpr ((G2Affine.denotes_iff.mp h).mul k)⟩
  unfold G2Affine.mul; rw [h1, Option.getD_some]

theorem C22_g2_affine_mulFR (a : G2Affine) (P : E2) (h : a.Denotes P) (k : FRRepr) :
    a.mulFR? k = some (a.mulFR k) ∧ (a.mulFR k).Denotes (k.toNat • P) := by
  obtain ⟨o, h1, h2⟩ := (G2Affine.denotes_iff.mp h).mulFR? k
  refine ⟨?_, denotes_iff.mpr ((G2Affine.denotes_iff.mp h).mulFR k)⟩
  unfold G2Affine.mulFR; rw [h1, Option.getD_some]

theorem C22_g2_mul (g : G2Projective) (P : E2) (h : g.Denotes P) (k : FQRepr) :
    g.mul? k = some (g.mul k) ∧ (g.mul k).Denotes (k.toNat • P) := by
  obtain ⟨o, h1, h2⟩ := (denotes_iff.mp h).mul? k
  refine ⟨?_, denotes_iff.mpr ((denotes_iff.mp h).mul k)⟩
  unfold G2Projective.mul; rw [h1, Option.getD_some]

theorem C22_g2_mulFR (g : G2Projective) (P : E2) (h : g.Denotes P) (k : FRRepr) :
    g.mulFR? k = some (g.mulFR k) ∧ (g.mulFR k).Denotes (k.toNat • P) := by
  obtain ⟨o, h1, h2⟩ := (denotes_iff.mp h).mulFR? k
  refine ⟨?_, denotes_iff.mpr ((denotes_iff.mp h).mulFR k)⟩
  unfold G2Projective.mulFR; rw [h1, Option.getD_some]

theorem C22_g2_mulBig (a : G2Affine) (P : E2) (h : a.Denotes P) (k : ℕ) :
    a.mulBig? k = some (a.mulBig k) ∧ (a.mulBig k).Denotes (k • P) := by
  obtain ⟨o, h1, h2⟩ := (G2Affine.denotes_iff.mp h).mulBig? k
  refine ⟨?_, denotes_iff.mpr ((G2Affine.denotes_iff.mp h).mulBig k)⟩
  unfold G2Affine.mulBig; rw [h1, Option.getD_some]

/-- `r` times the generator is infinity, and no smaller positive multiple is. -/
example : G2Affine.one.Denotes g2Gen ∧ r • g2Gen = 0 ∧ ∀ k, 0 < k → k < r → k • g2Gen ≠ 0 := by
  refine ⟨G2Affine.denotes_iff.mpr G2Affine.one_rep, r_smul_g2Gen, fun k h0 h1 h => ?_⟩
  have := addOrderOf_dvd_iff_nsmul_eq_zero.mpr h
  rw [addOrderOf_g2Gen] at this
  exact absurd (Nat.le_of_dvd h0 this) (not_le.mpr h1)

/-! ## C23: projective equality on G2 -/

theorem C23_g2_equal (g k : G2Projective) (P Q : E2) (h : g.Denotes P) (h' : k.Denotes Q) :
    g.equals k = true ↔ P = Q := (denotes_iff.mp h).equal (denotes_iff.mp h')

/-- `ToAffine` and the compressed encoding depend only on the point; different points have different ones. -/
theorem C23_g2_toAffine (g k : G2Projective) (P Q : E2) (h : g.Denotes P) (h' : k.Denotes Q) :
    (g.toAffine = k.toAffine ↔ P = Q) ∧ (g.toAffine.compress = k.toAffine.compress ↔ P = Q) := by
  have h1 := (denotes_iff.mp h).toAffine
  have h2 := (denotes_iff.mp h').toAffine
  have h3 : g.toAffine = k.toAffine ↔ P = Q :=
    ⟨fun e => h1.fn (e ▸ h2), fun e => h1.inj (e ▸ h2)⟩
  refine ⟨h3, ⟨fun e => h3.mp ?_, fun e => by rw [h3.mpr e]⟩⟩
  have e1 := h1.decompressUnchecked_compress
  rw [e, h2.decompressUnchecked_compress] at e1
  exact (Option.some.inj e1).symm

/-- Two different triples of coordinates for the same point. -/
example : ∃ P : E2, P ≠ 0 ∧ (G2Projective.one.add G2Projective.one.double).Denotes P ∧
    (G2Projective.one.double.double.add G2Affine.one.neg.toProjective).Denotes P ∧
    (G2Projective.one.add G2Projective.one.double).z ≠ (G2Projective.one.double.double.add G2Affine.one.neg.toProjective).z := by
  have h := G2Affine.one_rep.toProjective
  refine ⟨3 • g2Gen, ?_, ?_, ?_, by decide +kernel⟩
  · intro h
    have := addOrderOf_dvd_iff_nsmul_eq_zero.mpr h
    rw [addOrderOf_g2Gen, r_eq] at this
    exact absurd this (by decide +kernel)
  · have := G2Projective.denotes_iff.mpr (h.add h.double)
    rwa [show g2Gen + (g2Gen + g2Gen) = 3 • g2Gen by abel] at this
  · have := G2Projective.denotes_iff.mpr (h.double.double.add G2Affine.one_rep.neg.toProjective)
    rwa [show g2Gen + g2Gen + (g2Gen + g2Gen) + -g2Gen = 3 • g2Gen by abel] at this

end

/-! ## C24: affine equality -/

/-- `G1Affine.Equals` decides equality of points. -/
theorem C24_g1 (a c : G1Affine) (P Q : E1) (h : a.Denotes P) (h' : c.Denotes Q) : a.equals c = true ↔ P = Q := by
  have h4 : (4 : Fq) ≠ 1 := by
    have := GoodCurve.three_ne (b := (4 : Fq))
    intro e; apply this; linear_combination e
  unfold G1Affine.equals
  rw [G1Affine.denotes_iff] at h h'
  rcases h with ⟨rfl, rfl⟩ | ⟨h1, x, y, hx, hy, h⟩ <;> rcases h' with ⟨rfl, rfl⟩ | ⟨h1', x', y', hx', hy', h'⟩
  · exact iff_of_true rfl rfl
  · refine iff_of_false ?_ (fun e => h'.ne_zero e.symm)
    rw [h1']
    simp only [G1Affine.zero, Bool.true_eq_false, beq_iff_eq, Bool.and_eq_true, Bool.or_eq_true, false_and,
      false_or, FQ.zero_rep.equals hx', FQ.one_rep.equals hy']
    rintro ⟨rfl, rfl⟩
    have := h'.on
    apply h4; linear_combination -this
  · refine iff_of_false ?_ h.ne_zero
    rw [h1]
    simp only [G1Affine.zero, Bool.false_eq_true, beq_iff_eq, Bool.and_eq_true, Bool.or_eq_true, and_false,
      false_or, hx.equals FQ.zero_rep, hy.equals FQ.one_rep]
    rintro ⟨rfl, rfl⟩
    have := h.on
    apply h4; linear_combination -this
  · rw [h1, h1']
    simp only [Bool.false_eq_true, beq_iff_eq, Bool.and_eq_true, Bool.or_eq_true, and_false,
      false_or, hx.equals hx', hy.equals hy']
    constructor
    · rintro ⟨rfl, rfl⟩; exact h.inj h'
    · rintro rfl; exact h.coord h'

/-- `G2Affine.Equals` does not: it only compares whether the points are infinity. -/
theorem C24_g2_actual (a c : G2Affine) (P Q : E2) (h : a.Denotes P) (h' : c.Denotes Q) :
    a.equals c = true ↔ (P = 0 ↔ Q = 0) := by
  have h4 : b2 ≠ 1 := by
    intro e
    have := congrArg Fq2.c1 e
    exact GoodCurve.b_ne (b := (4 : Fq)) this
  unfold G2Affine.equals
  rw [G2Affine.denotes_iff] at h h'
  rcases h with ⟨rfl, rfl⟩ | ⟨h1, x, y, hx, hy, h⟩ <;> rcases h' with ⟨rfl, rfl⟩ | ⟨h1', x', y', hx', hy', h'⟩
  · exact iff_of_true rfl Iff.rfl
  · refine iff_of_false ?_ (fun e => h'.ne_zero (e.mp rfl))
    rw [h1']
    simp only [G2Affine.zero, Bool.true_eq_false, beq_iff_eq, Bool.and_eq_true, Bool.or_eq_true,
      false_or, FQ2.zero_rep.equals hx', FQ2.one_rep.equals hy']
    rintro ⟨rfl, rfl⟩
    have := h'.on
    apply h4; linear_combination -this
  · refine iff_of_false ?_ (fun e => h.ne_zero (e.mpr rfl))
    rw [h1]
    simp only [G2Affine.zero, Bool.false_eq_true, beq_iff_eq, Bool.and_eq_true, Bool.or_eq_true,
      false_or, hx.equals FQ2.zero_rep, hy.equals FQ2.one_rep]
    rintro ⟨rfl, rfl⟩
    have := h.on
    apply h4; linear_combination -this
  · rw [h1, h1']
    exact iff_of_true rfl (iff_of_false h.ne_zero h'.ne_zero)

/-- Two different points of the prime-order subgroup that `G2Affine.Equals` takes for equal. -/
theorem C24_g2_false : ¬ ∀ (a c : G2Affine) (P Q : E2), a.Denotes P → c.Denotes Q → r • P = 0 → r • Q = 0 →
    (a.equals c = true ↔ P = Q) := by
  intro hall
  have h := G2Affine.denotes_iff.mpr G2Affine.one_rep
  have h' := C21_neg_affine _ _ h
  have e := (hall _ _ _ _ h h' r_smul_g2Gen (by rw [neg_nsmul, r_smul_g2Gen, neg_zero])).mp
    ((C24_g2_actual _ _ _ _ h h').mpr (iff_of_false g2Gen_ne_zero (neg_ne_zero.mpr g2Gen_ne_zero)))
  have h2 : 2 • g2Gen = 0 := by rw [two_nsmul]; nth_rewrite 2 [e]; exact add_neg_cancel _
  have := addOrderOf_dvd_iff_nsmul_eq_zero.mpr h2
  rw [addOrderOf_g2Gen] at this
  exact absurd (Nat.le_of_dvd (by norm_num) this) (by rw [r]; norm_num)

example : ∃ P Q : E1, P ≠ Q ∧ G1Affine.one.Denotes P ∧ G1Affine.one.neg.Denotes Q := by
  refine ⟨g1Gen, -g1Gen, fun e => ?_, G1Affine.denotes_iff.mpr G1Affine.one_rep,
    G1Affine.denotes_iff.mpr G1Affine.one_rep.neg⟩
  have h2 : 2 • g1Gen = 0 := by rw [two_nsmul]; nth_rewrite 2 [e]; exact add_neg_cancel _
  have := addOrderOf_dvd_iff_nsmul_eq_zero.mpr h2
  rw [addOrderOf_g1Gen] at this
  exact absurd (Nat.le_of_dvd (by norm_num) this) (by rw [r]; norm_num)

end Bls.Props
