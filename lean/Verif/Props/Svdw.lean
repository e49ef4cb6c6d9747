import Verif.Proof.SwEncode
import Verif.Proof.Flex
import Verif.Proof.Spread
import Verif.Props.Hash
/-
C78: how `SWEncodeG2` spreads field elements over the curve.
-/
namespace Bls.Props

/-- `-(1 + b)` is not a square, so the special case of the encoding does not occur. -/
private theorem no_special (t : Fq2) : t ^ 2 + b2 + 1 ≠ 0 := by
  intro h
  have hs : IsSquare (-(b2 + 1)) := ⟨t, by linear_combination -h⟩
  rw [Fq2.isSquare_iff] at hs
  have e : Fq2.nrm (-(b2 + 1)) = ((41 : ℕ) : Fq) := by
    have h0 : (-(b2 + 1)).c0 = -(4 + 1 : Fq) := rfl
    have h1 : (-(b2 + 1)).c1 = -(4 + 0 : Fq) := rfl
    rw [Fq2.nrm, h0, h1]
    push_cast
    ring
  rw [e] at hs
  obtain ⟨s, hs⟩ := hs
  have hm := powMod_spec (R := Fq) q_cast 381 41 ((qLit - 1) / 2) 1 (by decide +kernel)
  have hv : powMod qLit 381 41 ((qLit - 1) / 2) 1 = qLit - 1 := by decide +kernel
  have hb : ((41 : ℕ) : Fq) ≠ 0 := by
    intro e
    rw [ZMod.natCast_eq_zero_iff, q_eq] at e
    have := Nat.mod_eq_zero_of_dvd e
    revert this
    decide +kernel
  have s0 : s ≠ 0 := by rintro rfl; exact hb (by rw [hs, mul_zero])
  have f : s ^ (qLit - 1) = 1 := by rw [← q_eq]; exact ZMod.pow_card_sub_one_eq_one s0
  rw [hv, hs, ← pow_two, ← pow_mul, show 2 * ((qLit - 1) / 2) = qLit - 1 by decide +kernel, f] at hm
  rw [Nat.cast_sub (by decide +kernel), q_cast] at hm
  push_cast at hm
  exact Fq.two_ne (by linear_combination -hm)

private theorem neg_greater {t : Fq2} (h0 : t ≠ 0) : Fq2.Greater (-t) (- -t) ↔ ¬ Fq2.Greater t (-t) := by
  rw [neg_neg]
  have hn : t ≠ -t := ne_neg_self (b := b2) h0
  constructor
  · exact fun h h' => h.asymm h'
  · intro h
    rcases Fq2.Greater.total hn with h' | h'
    · exact absurd h' h
    · exact h'

private theorem svdwX_neg (b s t : Fq2) : svdwX b s (-t) = svdwX b s t := by
  unfold svdwX
  rw [neg_sq, mul_neg, div_neg, neg_sq]

/-- The squares of the elements with a given x. -/
private theorem svdwX_sq (x : Fq2) :
    {u : Fq2 | ∃ t, t ≠ 0 ∧ t ^ 2 = u ∧ svdwX b2 (Fq2.of (sqrtNegThree : Fq)) t = x}.Finite ∧
    {u : Fq2 | ∃ t, t ≠ 0 ∧ t ^ 2 = u ∧ svdwX b2 (Fq2.of (sqrtNegThree : Fq)) t = x}.ncard ≤ 4 := by
  have hs := svdwS_sq
  have h2 : (2 : Fq2) ≠ 0 := GoodCurve.two_ne (b := b2)
  have h3 : (3 : Fq2) ≠ 0 := GoodCurve.three_ne (b := b2)
  generalize Fq2.of (sqrtNegThree : Fq) = s at *
  have s0 : s ≠ 0 := by
    rintro rfl
    exact h3 (by linear_combination hs)
  have lin : ∀ z : Fq2, {u : Fq2 | (z - (s - 1) / 2) * (u + b2 + 1) + s * u = 0}.Finite ∧
      {u : Fq2 | (z - (s - 1) / 2) * (u + b2 + 1) + s * u = 0}.ncard ≤ 1 := by
    intro z
    have : {u : Fq2 | (z - (s - 1) / 2) * (u + b2 + 1) + s * u = 0}.Subsingleton := by
      intro u hu v hv
      rw [Set.mem_ofPred_eq] at hu hv
      have e : (z - (s - 1) / 2 + s) * (u - v) = 0 := by linear_combination hu - hv
      rcases mul_eq_zero.mp e with e | e
      · have : s * (1 + b2) = 0 := by linear_combination (u + b2 + 1) * e - hu
        rcases mul_eq_zero.mp this with h | h
        · exact absurd h s0
        · exact absurd h b2_add_one_ne
      · exact sub_eq_zero.mp e
    exact ⟨this.finite, (Set.ncard_le_one this.finite).mpr fun a ha c hc => this ha hc⟩
  have quad := Spread.poly_roots (F := Fq2) (l := [(b2 + 1) ^ 2, 2 * (b2 + 1) + 3 * (x - 1), 1]) (n := 2) rfl one_ne_zero
  obtain ⟨f1, c1⟩ := lin x
  obtain ⟨f2, c2⟩ := lin (-1 - x)
  refine Spread.ncard_sub (T := ({u : Fq2 | (x - (s - 1) / 2) * (u + b2 + 1) + s * u = 0} ∪
    {u : Fq2 | (-1 - x - (s - 1) / 2) * (u + b2 + 1) + s * u = 0}) ∪
    {u | polyAt [(b2 + 1) ^ 2, 2 * (b2 + 1) + 3 * (x - 1), 1] u = 0}) ⟨(f1.union f2).union quad.1, ?_⟩ ?_
  · have a1 := Set.ncard_union_le ({u : Fq2 | (x - (s - 1) / 2) * (u + b2 + 1) + s * u = 0} ∪
      {u : Fq2 | (-1 - x - (s - 1) / 2) * (u + b2 + 1) + s * u = 0})
      {u | polyAt [(b2 + 1) ^ 2, 2 * (b2 + 1) + 3 * (x - 1), 1] u = 0}
    have a2 := Set.ncard_union_le {u : Fq2 | (x - (s - 1) / 2) * (u + b2 + 1) + s * u = 0}
      {u : Fq2 | (-1 - x - (s - 1) / 2) * (u + b2 + 1) + s * u = 0}
    have a3 := quad.2
    omega
  · rintro u ⟨t, t0, rfl, e⟩
    have hd := no_special t
    have e1 : ((s - 1) / 2 - s * t ^ 2 / (t ^ 2 + b2 + 1) - (s - 1) / 2) * (t ^ 2 + b2 + 1) + s * t ^ 2 = 0 := by
      field_simp
      ring
    unfold svdwX at e
    dsimp only at e
    split at e
    · exact Or.inl (Or.inl (by rw [Set.mem_ofPred_eq, ← e]; exact e1))
    · split at e
      · refine Or.inl (Or.inr ?_)
        rw [Set.mem_ofPred_eq, ← e, show ∀ v : Fq2, -1 - (-1 - v) = v from fun v => by ring]
        exact e1
      · refine Or.inr ?_
        rw [Set.mem_ofPred_eq, ← e]
        simp only [polyAt, List.foldr_cons, List.foldr_nil]
        have e3 : 3 * ((t ^ 2 + b2 + 1) / (s * t)) ^ 2 * t ^ 2 = -(t ^ 2 + b2 + 1) ^ 2 := by
          field_simp
          linear_combination hs
        linear_combination e3

private theorem inv {t : Fq2} {P : E2} (h : SvdwG2 t P) : (t = 0 ∧ P = 0) ∨ (t ≠ 0 ∧ ∃ y,
    IsAt P (svdwX b2 (Fq2.of (sqrtNegThree : Fq)) t) y ∧ (Fq2.Greater y (-y) ↔ Fq2.Greater t (-t))) := by
  cases h with
  | zero h => exact .inl ⟨h, rfl⟩
  | neg _ h => exact absurd h (no_special _)
  | pos _ h => exact absurd h (no_special _)
  | fin h0 _ hx hy => exact .inr ⟨h0, _, hx, hy⟩

/-- `SWEncodeG2` of the negative is the negative. -/
theorem C78_neg (t : FQ2) (ht : t.isValid) (a : G2Affine) (P : E2) (h : swEncodeG2 t = some a) (hP : a.Denotes P) :
    ∃ a', swEncodeG2 t.neg = some a' ∧ a'.Denotes (-P) := by
  have hf := FQ2.rep ht
  obtain ⟨a₁, P₁, h1, h2, h3⟩ := swEncodeG2_spec hf
  obtain ⟨a₂, P₂, g1, g2, g3⟩ := swEncodeG2_spec hf.neg
  rw [h, Option.some_inj] at h1
  have e := (h1 ▸ h2).fn (G2Affine.denotes_iff.mp hP)
  subst e
  refine ⟨a₂, g1, G2Affine.denotes_iff.mpr ?_⟩
  have : P₂ = -P₁ := by
    rcases inv h3 with ⟨h0, k0⟩ | ⟨h0, y, hx, hy⟩
    · rcases inv g3 with ⟨_, k⟩ | ⟨h, _⟩
      · rw [k, k0, neg_zero]
      · exact absurd (neg_eq_zero.mpr h0) h
    · rcases inv g3 with ⟨h, _⟩ | ⟨_, y', kx, ky⟩
      · exact absurd (neg_eq_zero.mp h) h0
      · rw [svdwX_neg] at kx
        rw [neg_greater h0, ← hy] at ky
        rcases kx.eq_or_neg hx with e | e
        · subst e
          have ey := (kx.coord hx).2
          rw [ey] at ky
          exact absurd ky (by tauto)
        · exact eq_neg_of_add_eq_zero_left e
  rw [← this]
  exact g2

private theorem fibre (P : E2) : {t : Fq2 | SvdwG2 t P}.Finite ∧ {t : Fq2 | SvdwG2 t P}.ncard ≤ 4 := by
  obtain ⟨a, ha⟩ := G2Affine.exists_rep P
  by_cases h0 : P = 0
  · subst h0
    refine Spread.ncard_sub (T := {0}) ⟨Set.finite_singleton _, by rw [Set.ncard_singleton]; decide⟩ fun t h => ?_
    rcases inv h with ⟨h, _⟩ | ⟨_, _, h, _⟩
    · exact h
    · exact absurd rfl h.ne_zero
  · obtain ⟨x, y, hxy, _⟩ := ha.at h0
    obtain ⟨f, c⟩ := svdwX_sq x
    have hinj : Set.InjOn (fun t : Fq2 => t ^ 2) {t : Fq2 | SvdwG2 t P} := by
      intro t ht t' ht' e
      rcases inv ht with ⟨_, h⟩ | ⟨t0, y, hx, hy⟩
      · exact absurd h h0
      rcases inv ht' with ⟨_, h⟩ | ⟨t0', y', hx', hy'⟩
      · exact absurd h h0
      rcases sq_eq_sq_iff_eq_or_eq_neg.mp e with e | e
      · exact e
      · subst e
        rw [neg_greater t0'] at hy
        rw [(hx.coord hx').2] at hy
        rw [hy] at hy'
        exact absurd hy' (by tauto)
    have hsub : (fun t : Fq2 => t ^ 2) '' {t : Fq2 | SvdwG2 t P} ⊆
        {u : Fq2 | ∃ t, t ≠ 0 ∧ t ^ 2 = u ∧ svdwX b2 (Fq2.of (sqrtNegThree : Fq)) t = x} := by
      rintro _ ⟨t, h, rfl⟩
      rcases inv h with ⟨_, h⟩ | ⟨t0, _, h, _⟩
      · exact absurd h h0
      · exact ⟨t, t0, rfl, (h.coord hxy).1⟩
    exact ⟨Set.Finite.of_finite_image (f.subset hsub) hinj, by
      rw [← hinj.ncard_image]
      exact (Set.ncard_le_ncard hsub f).trans c⟩

private theorem enc {t : FQ2} (ht : t.isValid) {P : E2} (h : ∃ a, swEncodeG2 t = some a ∧ a.Denotes P) :
    SvdwG2 t.fld P := by
  obtain ⟨a, P', h1, h2, h3⟩ := swEncodeG2_spec (FQ2.rep ht)
  obtain ⟨a', g1, g2⟩ := h
  rw [h1, Option.some_inj] at g1
  have := h2.fn (G2Affine.denotes_iff.mp (g1 ▸ g2))
  exact this ▸ h3

private theorem fld_inj : Set.InjOn FQ2.fld {t : FQ2 | t.isValid} := fun _ ha _ hb e =>
  (FQ2.rep ha).inj (e ▸ FQ2.rep hb)

/-- No point is the image of more than four elements. -/
theorem C78_fibre (P : E2) :
    {t : FQ2 | t.isValid ∧ ∃ a, swEncodeG2 t = some a ∧ a.Denotes P}.Finite ∧
    {t : FQ2 | t.isValid ∧ ∃ a, swEncodeG2 t = some a ∧ a.Denotes P}.ncard ≤ 4 := by
  obtain ⟨f, c⟩ := fibre P
  have hinj : Set.InjOn FQ2.fld {t : FQ2 | t.isValid ∧ ∃ a, swEncodeG2 t = some a ∧ a.Denotes P} :=
    fld_inj.mono fun t h => h.1
  have hsub : FQ2.fld '' {t : FQ2 | t.isValid ∧ ∃ a, swEncodeG2 t = some a ∧ a.Denotes P} ⊆ {t : Fq2 | SvdwG2 t P} := by
    rintro _ ⟨t, h, rfl⟩
    exact enc h.1 h.2
  refine ⟨Set.Finite.of_finite_image (f.subset hsub) hinj, ?_⟩
  rw [← hinj.ncard_image]
  exact (Set.ncard_le_ncard hsub f).trans c

/-- Only 0 gives infinity. -/
theorem C78_infinity (t : FQ2) (ht : t.isValid) : (∃ a, swEncodeG2 t = some a ∧ a.Denotes 0) ↔ t = FQ2.zero := by
  constructor
  · intro h
    rcases inv (enc ht h) with ⟨e, _⟩ | ⟨_, _, h, _⟩
    · exact (FQ2.rep ht).inj (e ▸ FQ2.zero_rep)
    · exact absurd rfl h.ne_zero
  · rintro rfl
    obtain ⟨a, P, h1, h2, h3⟩ := swEncodeG2_spec FQ2.zero_rep
    rcases inv h3 with ⟨_, e⟩ | ⟨h, _⟩
    · exact ⟨a, h1, G2Affine.denotes_iff.mpr (e ▸ h2)⟩
    · exact absurd rfl h

/-- `SWEncodeG2` reaches at least a quarter as many points as there are field elements. -/
theorem C78_image : q ^ 2 ≤ 4 * Nat.card {P : E2 // ∃ t : FQ2, t.isValid ∧ ∃ a, swEncodeG2 t = some a ∧ a.Denotes P} := by
  set I : Set E2 := {P : E2 | ∃ t : FQ2, t.isValid ∧ ∃ a, swEncodeG2 t = some a ∧ a.Denotes P} with hI
  change q ^ 2 ≤ 4 * Nat.card I
  obtain ⟨f, c⟩ := Spread.ncard_fib (R := fun (t : FQ2) (P : E2) => t.isValid ∧ ∃ a, swEncodeG2 t = some a ∧ a.Denotes P)
    (k := 4) (Set.toFinite I) fun P _ => C78_fibre P
  have e : {t : FQ2 | ∃ P ∈ I, t.isValid ∧ ∃ a, swEncodeG2 t = some a ∧ a.Denotes P} = {t : FQ2 | t.isValid} := by
    ext t
    constructor
    · rintro ⟨_, _, h, _⟩
      exact h
    · intro h
      obtain ⟨a, P, h1, h2, _⟩ := swEncodeG2_spec (FQ2.rep h)
      have hd := G2Affine.denotes_iff.mpr h2
      exact ⟨P, ⟨t, h, a, h1, hd⟩, h, a, h1, hd⟩
  have e2 : FQ2.fld '' {t : FQ2 | t.isValid} = Set.univ := by
    ext x
    refine ⟨fun _ => trivial, fun _ => ?_⟩
    obtain ⟨a, ha⟩ := FQ2.exists_rep x
    exact ⟨a, ha.out.1, ha.out.2⟩
  rw [e, ← fld_inj.ncard_image, e2, Set.ncard_univ, Fq2.card, ← Nat.card_coe_set_eq] at c
  exact c

/-- The special case of the encoding, `t² + b + 1 = 0`, which returns the generator or its negative, does not occur. -/
theorem C78_special (t : FQ2) (ht : t.isValid) : ((t.square.add G2Affine.bCoeffFQ2).add FQ2.one).isZero = false := by
  have hf := FQ2.rep ht
  have hd := ((hf.square.add bCoeffFQ2_rep).add FQ2.one_rep).of_eq
    (show t.fld * t.fld + b2 + 1 = t.fld ^ 2 + b2 + 1 by ring)
  rw [Bool.eq_false_iff]
  exact fun h => no_special _ (hd.isZero.mp h)

/-- Elements with different images, and one with its negative. -/
example : FQ2.zero.isValid ∧ FQ2.one.isValid ∧ FQ2.one.neg.isValid ∧ FQ2.one ≠ FQ2.one.neg := by decide +kernel

end Bls.Props
