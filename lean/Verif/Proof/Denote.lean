import Verif.Proof.Compress
/-
`Denotes` of Verif/Spec/Denote.lean is the proofs' `Rep`.
-/
namespace Bls

theorem G1Projective.denotes_iff {g : G1Projective} {P : E1} : g.Denotes P ↔ g.Rep P := by
  constructor
  · rintro ⟨h1, h2, h3, h4⟩
    exact ⟨_, _, _, FQ.rep_int h1, FQ.rep_int h2, FQ.rep_int h3, h4⟩
  · rintro ⟨x, y, z, hx, hy, hz, h⟩
    obtain ⟨h1, rfl⟩ := FQ.rep_iff_int.mp hx
    obtain ⟨h2, rfl⟩ := FQ.rep_iff_int.mp hy
    obtain ⟨h3, rfl⟩ := FQ.rep_iff_int.mp hz
    exact ⟨h1, h2, h3, h⟩

theorem G1Affine.denotes_iff {a : G1Affine} {P : E1} : a.Denotes P ↔ a.Rep P := by
  refine or_congr Iff.rfl (and_congr Iff.rfl ?_)
  constructor
  · rintro ⟨h1, h2, h⟩
    exact ⟨_, _, FQ.rep_int h1, FQ.rep_int h2, h⟩
  · rintro ⟨x, y, hx, hy, h⟩
    obtain ⟨h1, rfl⟩ := FQ.rep_iff_int.mp hx
    obtain ⟨h2, rfl⟩ := FQ.rep_iff_int.mp hy
    exact ⟨h1, h2, h⟩

theorem G2Projective.denotes_iff {g : G2Projective} {P : E2} : g.Denotes P ↔ g.Rep P := by
  constructor
  · rintro ⟨h1, h2, h3, h4⟩
    exact ⟨_, _, _, FQ2.rep h1, FQ2.rep h2, FQ2.rep h3, h4⟩
  · rintro ⟨x, y, z, hx, hy, hz, h⟩
    obtain ⟨h1, rfl⟩ := FQ2.rep_iff.mp hx
    obtain ⟨h2, rfl⟩ := FQ2.rep_iff.mp hy
    obtain ⟨h3, rfl⟩ := FQ2.rep_iff.mp hz
    exact ⟨h1, h2, h3, h⟩

theorem G2Affine.denotes_iff {a : G2Affine} {P : E2} : a.Denotes P ↔ a.Rep P := by
  refine or_congr Iff.rfl (and_congr Iff.rfl ?_)
  constructor
  · rintro ⟨h1, h2, h⟩
    exact ⟨_, _, FQ2.rep h1, FQ2.rep h2, h⟩
  · rintro ⟨x, y, hx, hy, h⟩
    obtain ⟨h1, rfl⟩ := FQ2.rep_iff.mp hx
    obtain ⟨h2, rfl⟩ := FQ2.rep_iff.mp hy
    exact ⟨h1, h2, h⟩

/-- Every triple of canonical coordinates on the curve denotes a point. -/
theorem G1Projective.exists_denotes_iff (g : G1Projective) : (∃ P, g.Denotes P) ↔
    g.x.isValid ∧ g.y.isValid ∧ g.z.isValid ∧
      ((g.z.int : Fq) = 0 ∨ (g.y.int : Fq) ^ 2 = (g.x.int : Fq) ^ 3 + 4 * (g.z.int : Fq) ^ 6) := by
  constructor
  · rintro ⟨P, h1, h2, h3, h⟩
    refine ⟨h1, h2, h3, ?_⟩
    rcases h with ⟨h, _⟩ | ⟨hz, h⟩
    · exact Or.inl h
    · right
      have := h.on
      field_simp at this
      linear_combination this
  · rintro ⟨h1, h2, h3, h⟩
    by_cases hz : (g.z.int : Fq) = 0
    · exact ⟨0, h1, h2, h3, Or.inl ⟨hz, rfl⟩⟩
    · have h := h.resolve_left hz
      have e : ((g.y.int : Fq) / (g.z.int : Fq) ^ 3) ^ 2 = ((g.x.int : Fq) / (g.z.int : Fq) ^ 2) ^ 3 + 4 := by
        field_simp
        linear_combination h
      exact ⟨pt _ _ e, h1, h2, h3, Or.inr ⟨hz, pt_isAt e⟩⟩

theorem G2Projective.exists_denotes_iff (g : G2Projective) : (∃ P, g.Denotes P) ↔
    g.x.isValid ∧ g.y.isValid ∧ g.z.isValid ∧
      (g.z.fld = 0 ∨ g.y.fld ^ 2 = g.x.fld ^ 3 + b2 * g.z.fld ^ 6) := by
  constructor
  · rintro ⟨P, h1, h2, h3, h⟩
    refine ⟨h1, h2, h3, ?_⟩
    rcases h with ⟨h, _⟩ | ⟨hz, h⟩
    · exact Or.inl h
    · right
      have := h.on
      field_simp at this
      linear_combination this
  · rintro ⟨h1, h2, h3, h⟩
    by_cases hz : g.z.fld = 0
    · exact ⟨0, h1, h2, h3, Or.inl ⟨hz, rfl⟩⟩
    · have h := h.resolve_left hz
      have e : (g.y.fld / g.z.fld ^ 3) ^ 2 = (g.x.fld / g.z.fld ^ 2) ^ 3 + b2 := by
        field_simp
        linear_combination h
      exact ⟨pt _ _ e, h1, h2, h3, Or.inr ⟨hz, pt_isAt e⟩⟩

end Bls
