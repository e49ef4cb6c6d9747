import Verif.Proof.HashTop
/-
`SWEncodeG2` and `HashSecretKey`.
-/
set_option exponentiation.threshold 1000
namespace Bls

/-! ### The Shallue–van de Woestijne identity for `y² = x³ + b` -/

/-- Of the three candidates, if the first two are not on the curve, the third is. -/
theorem svdw {F : Type*} [Field F] {b s t w v : F} (hsq : ∀ x y : F, ¬ IsSquare x → ¬ IsSquare y → IsSquare (x * y))
    (hs : s ^ 2 = -3) (h2 : (2 : F) ≠ 0) (ht : t ≠ 0) (hs0 : s ≠ 0) (hb : 1 + b ≠ 0) (hd : t ^ 2 + b + 1 ≠ 0)
    (hw : w = (t ^ 2 + b + 1)⁻¹ * s * t) (hv : v = -(w * t) + (s - 1) / 2)
    (n1 : ¬ IsSquare (v ^ 3 + b)) (n2 : ¬ IsSquare ((-v - 1) ^ 3 + b)) : IsSquare (((w * w)⁻¹ + 1) ^ 3 + b) := by
  have hw0 : w ≠ 0 := by rw [hw]; exact mul_ne_zero (mul_ne_zero (inv_ne_zero hd) hs0) ht
  have hw1 : w * (t ^ 2 + b + 1) = s * t := by rw [hw]; field_simp
  have hm : v ^ 2 + v + 1 = -(1 + b) * w ^ 2 := by
    rw [hv]
    field_simp
    linear_combination (4 * w) * hw1 + hs
  obtain ⟨z, hz⟩ := hsq _ _ n1 n2
  refine ⟨z / (w * (-(1 + b) * w ^ 2)), ?_⟩
  rw [div_mul_div_comm, ← hz]
  field_simp
  have e : (v ^ 3 + b) * ((-v - 1) ^ 3 + b) = b ^ 2 - b * (3 * (v ^ 2 + v) + 1) - (v ^ 2 + v) ^ 3 := by ring
  rw [e, show v ^ 2 + v = -(1 + b) * w ^ 2 - 1 by linear_combination hm]
  ring


theorem svdwX_of {F : Type*} [Field F] {b s t v z : F} (e1 : (s - 1) / 2 - s * t ^ 2 / (t ^ 2 + b + 1) = v)
    (e3 : 1 + ((t ^ 2 + b + 1) / (s * t)) ^ 2 = z) :
    (IsSquare (v ^ 3 + b) → svdwX b s t = v) ∧
    (¬ IsSquare (v ^ 3 + b) → IsSquare ((-v - 1) ^ 3 + b) → svdwX b s t = -v - 1) ∧
    (¬ IsSquare (v ^ 3 + b) → ¬ IsSquare ((-v - 1) ^ 3 + b) → svdwX b s t = z) := by
  subst e1 e3
  have e : ∀ x : F, -1 - x = -x - 1 := fun x => by ring
  refine ⟨fun h => if_pos h, fun h h2 => ?_, fun h h2 => ?_⟩
  · exact (if_neg h).trans ((if_pos (by rw [e]; exact h2)).trans (e _))
  · exact (if_neg h).trans (if_neg (by rw [e]; exact h2))

theorem svdwS_rep : swencSqrtNegThreeFQ2.Rep (Fq2.of (sqrtNegThree : Fq)) := by
  unfold swencSqrtNegThreeFQ2
  exact ⟨fqHex_rep (by rw [q_eq]; decide +kernel), FQ.zero_rep⟩

theorem sqrtNegThree_sq : (sqrtNegThree : Fq) ^ 2 = -3 := by
  have h : ((sqrtNegThree ^ 2 + 3 : ℕ) : Fq) = 0 := by
    rw [ZMod.natCast_eq_zero_iff, q_eq, sqrtNegThree]
    exact Nat.dvd_of_mod_eq_zero (by decide +kernel)
  push_cast at h
  linear_combination h

theorem svdwS_sq : (Fq2.of (sqrtNegThree : Fq)) ^ 2 = -3 := by
  rw [← map_pow, sqrtNegThree_sq, map_neg, map_ofNat]

theorem svdwH_rep : swencSqrtNegThreeMinusOneDivTwoFQ2.Rep ((Fq2.of (sqrtNegThree : Fq) - 1) / 2) := by
  have h : swencSqrtNegThreeMinusOneDivTwoFQ2.Rep (Fq2.of
    ((793479390729215512621379701633421447060886740281060493010456487427281649075476305620758731620350 : ℕ) : Fq)) := by
    unfold swencSqrtNegThreeMinusOneDivTwoFQ2
    exact ⟨fqHex_rep (by rw [q_eq]; decide +kernel), FQ.zero_rep⟩
  refine h.of_eq ?_
  have h2 : (2 : Fq2) ≠ 0 := GoodCurve.two_ne (b := b2)
  rw [eq_div_iff h2, ← map_ofNat Fq2.of 2, ← map_one Fq2.of, ← map_mul, ← map_sub]
  congr 1
  have : sqrtNegThree = 793479390729215512621379701633421447060886740281060493010456487427281649075476305620758731620350 * 2 + 1 := rfl
  rw [this, Nat.cast_add, Nat.cast_mul, Nat.cast_one, add_sub_cancel_right]
  norm_num

theorem b2_add_one_ne : 1 + b2 ≠ 0 := by
  intro h
  have h1 : (1 + b2).c1 = 0 := by rw [h]; rfl
  have h2 : (0 : Fq) + 4 = 0 := h1
  have h3 : (2 : Fq) ≠ 0 := GoodCurve.two_ne (b := (4 : Fq))
  exact mul_ne_zero h3 h3 (by linear_combination h2)

theorem FQ2.Rep.parity {f : FQ2} {x : Fq2} (hf : f.Rep x) : f.parity = true ↔ Fq2.Greater x (-x) := by
  have e : f.parity = decide (f.cmp f.neg > 0) := rfl
  rw [e, decide_eq_true_iff, hf.cmp_gt hf.neg]

theorem getPointFromX_sq {f : FQ2} {x : Fq2} (hf : f.Rep x) (g : Bool) (hs : IsSquare (x ^ 3 + b2)) :
    ∃ a P y, G2Affine.getPointFromX f g = some a ∧ a.Rep P ∧ IsAt P x y ∧ (Fq2.Greater y (-y) ↔ g = true) := by
  cases h : G2Affine.getPointFromX f g with
  | none => exact absurd hs ((G2Affine.getPointFromX_none hf g).mp h)
  | some a =>
    obtain ⟨h1, h2, y, hy, h3, h4⟩ := G2Affine.getPointFromX_some hf h
    have := pt_isAt h3
    have hy0 : y ≠ 0 := by rintro rfl; exact E2.y_ne_zero h3
    exact ⟨a, pt x y h3, y, rfl, Or.inr ⟨h2, x, y, h1 ▸ hf, hy, this⟩, this, (h4 (ne_neg_self (b := b2) hy0)).symm⟩

theorem orElse3_spec {α : Type*} {a b c : Option α} {p : α}
    (h : a = some p ∨ (a = none ∧ b = some p) ∨ (a = none ∧ b = none ∧ c = some p)) :
    (a.orElse fun _ => b.orElse fun _ => c) = some p := by
  rcases h with h | ⟨h1, h⟩ | ⟨h1, h2, h⟩
  · rw [h]; rfl
  · rw [h, h1]; rfl
  · rw [h1, h2, h]; rfl

theorem swEncodeG2_spec {f : FQ2} {t : Fq2} (hf : f.Rep t) :
    ∃ a P, swEncodeG2 f = some a ∧ a.Rep P ∧ SvdwG2 t P := by
  unfold swEncodeG2
  have hp := hf.parity
  by_cases h0 : t = 0
  · rw [if_pos (hf.isZero.mpr h0)]
    exact ⟨_, 0, rfl, Or.inl ⟨rfl, rfl⟩, .zero h0⟩
  rw [if_neg (fun h => h0 (hf.isZero.mp h))]
  unfold swEncodeW
  generalize f.parity = par at *
  have hd := ((hf.square.add bCoeffFQ2_rep).add FQ2.one_rep).of_eq (show t * t + b2 + 1 = t ^ 2 + b2 + 1 by ring)
  generalize (f.square.add G2Affine.bCoeffFQ2).add FQ2.one = d at *
  by_cases hd0 : t ^ 2 + b2 + 1 = 0
  · rw [if_pos (hd.isZero.mpr hd0)]
    cases par with
    | true =>
      rw [if_pos rfl]
      exact ⟨_, _, rfl, G2Affine.one_rep.neg, .neg h0 hd0 (hp.mp rfl)⟩
    | false =>
      rw [if_neg Bool.false_ne_true]
      exact ⟨_, _, rfl, G2Affine.one_rep, .pos h0 hd0 (fun h => Bool.false_ne_true (hp.mpr h))⟩
  rw [if_neg (fun h => hd0 (hd.isZero.mp h))]
  have hw := (hd.inverse.mul svdwS_rep).mul hf
  have hx1 := (hw.mul hf).neg.add svdwH_rep
  have hsq := svdwS_sq
  have key : ∀ {P : E2} {y : Fq2} {x : Fq2}, svdwX b2 (Fq2.of (sqrtNegThree : Fq)) t = x → IsAt P x y →
      (Fq2.Greater y (-y) ↔ par = true) → SvdwG2 t P := by
    intro P y x e h1 h2
    subst e
    exact .fin h0 hd0 h1 (h2.trans hp)
  generalize Fq2.of (sqrtNegThree : Fq) = s at *
  generalize (d.inverse.1.mul swencSqrtNegThreeFQ2).mul f = w at *
  unfold swEncodeX1
  generalize (w.mul f).neg.add swencSqrtNegThreeMinusOneDivTwoFQ2 = x1 at *
  have h2 : (2 : Fq2) ≠ 0 := GoodCurve.two_ne (b := b2)
  have hs0 : s ≠ 0 := by
    rintro rfl
    have h3 : (3 : Fq2) ≠ 0 := GoodCurve.three_ne (b := b2)
    exact h3 (by linear_combination hsq)
  have h3 := @svdw Fq2 _ b2 s t _ _ Fq2.nonsquare_mul hsq h2 h0 hs0 b2_add_one_ne hd0 rfl rfl
  have hx3 := hw.square.inverse.add FQ2.one_rep
  have hx2 := hx1.neg.sub FQ2.one_rep
  have e1 : (s - 1) / 2 - s * t ^ 2 / (t ^ 2 + b2 + 1) = -((t ^ 2 + b2 + 1)⁻¹ * s * t * t) + (s - 1) / 2 := by ring
  have e3 : 1 + ((t ^ 2 + b2 + 1) / (s * t)) ^ 2 = ((t ^ 2 + b2 + 1)⁻¹ * s * t * ((t ^ 2 + b2 + 1)⁻¹ * s * t))⁻¹ + 1 := by
    field_simp; ring
  have hX := svdwX_of e1 e3
  generalize (t ^ 2 + b2 + 1)⁻¹ * s * t = ww at *
  generalize -(ww * t) + (s - 1) / 2 = v at *
  rw [swEncodePick]
  by_cases c1 : IsSquare (v ^ 3 + b2)
  · obtain ⟨a, P, y, g1, g2, g3, g4⟩ := getPointFromX_sq hx1 par c1
    exact ⟨a, P, orElse3_spec (Or.inl g1), g2, key (hX.1 c1) g3 g4⟩
  have d1 := (G2Affine.getPointFromX_none hx1 par).mpr c1
  by_cases c2 : IsSquare ((-v - 1) ^ 3 + b2)
  · obtain ⟨a, P, y, g1, g2, g3, g4⟩ := getPointFromX_sq hx2 par c2
    exact ⟨a, P, orElse3_spec (Or.inr (Or.inl ⟨d1, g1⟩)), g2, key (hX.2.1 c1 c2) g3 g4⟩
  have d2 := (G2Affine.getPointFromX_none hx2 par).mpr c2
  obtain ⟨a, P, y, g1, g2, g3, g4⟩ := getPointFromX_sq hx3 par (h3 c1 c2)
  exact ⟨a, P, orElse3_spec (Or.inr (Or.inr ⟨d1, d2, g1⟩)), g2, key (hX.2.2 c1 c2) g3 g4⟩

/-! ### `HashSecretKey` -/

theorem rBig : rFieldModulus.toBig = (r : ℤ) := by rw [r_eq]; decide +kernel

theorem hashSecretKey_spec (sha : List UInt8 → List UInt8) (b : List UInt8) :
    ∃ f, hashSecretKey sha b = some (some f) ∧ f.Rep (hashToField sha b 0 1 : Fr) := by
  have e : (hashToField sha b 0 1 : ℤ) % (r : ℤ) = ((hashToField sha b 0 1 % r : ℕ) : ℤ) := by rw [Int.natCast_emod]
  have hl : hashToField sha b 0 1 % r < r := Nat.mod_lt _ r_pos
  have hr := r_lt
  have h2 : (FRRepr.ofNat (hashToField sha b 0 1 % r)).toNat = hashToField sha b 0 1 % r := FRRepr.ofNat_toNat (by omega)
  obtain ⟨f, h3, h4⟩ := FR.ofRepr?_lt (o := FRRepr.ofNat (hashToField sha b 0 1 % r)) (by rw [h2]; exact hl)
  rw [h2, ZMod.natCast_mod] at h4
  refine ⟨f, ?_, h4⟩
  have h5 : FRRepr.fromBigInt ((hashToField sha b 0 1 : ℤ) % rFieldModulus.toBig) =
      some (some (FRRepr.ofNat (hashToField sha b 0 1 % r))) := by
    rw [rBig, e, FRRepr.fromBigInt_spec, if_pos ⟨Int.natCast_nonneg _, by exact_mod_cast (by omega)⟩]
    rfl
  unfold hashSecretKey
  simp only [hashBlocks, bytesNat_eq, List.append_assoc, List.cons_append, List.nil_append]
  change (match FRRepr.fromBigInt ((hashToField sha b 0 1 : ℤ) % rFieldModulus.toBig) with
    | none => none
    | some none => none
    | some (some tFR) => some (FR.ofRepr? tFR)) = _
  rw [h5, ← h3]

end Bls
