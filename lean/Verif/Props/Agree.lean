import Verif.Props.Seal
import Verif.Spec.Agree
/-
C81: two and three parties agree on a secret, and it depends on every scalar.
-/
namespace Bls.Props

private theorem agScalar {f : FR} (h : f ∈ blindings) : f.toRepr.toNat ≠ 0 ∧ f.toRepr.toNat < r :=
  ⟨h.2, (FR.rep_int h.1).int_lt⟩

private theorem ag_inj {f g : FR} (hf : f ∈ blindings) (hg : g ∈ blindings) (h : f.toRepr.toNat = g.toRepr.toNat) :
    f = g := by
  have h1 := FR.rep_val hf.1
  have h2 := FR.rep_val hg.1
  have e : f.int = g.int := h
  rw [h1.int, h2.int] at e
  rw [ZMod.val_injective r e] at h1
  exact h1.inj h2

/-! ## Two parties, g1pubs -/

/-- Both parties get the same affine point, `ab` times the generator, and it is not infinity. -/
theorem C81_two_g1pubs (a b : FR) (ha : a ∈ blindings) (hb : b ∈ blindings) (A B : G1Pubs.PublicKey)
    (hA : G1Pubs.privToPub ⟨some a⟩ = some A) (hB : G1Pubs.privToPub ⟨some b⟩ = some B) :
    ∃ p : G1Affine, G1Pubs.agree ⟨some a⟩ B = some p ∧ G1Pubs.agree ⟨some b⟩ A = some p ∧
      p.Denotes ((a.int * b.int) • g1Gen) ∧ p.infinity = false := by
  obtain ⟨a0, ar⟩ := agScalar ha
  obtain ⟨b0, br⟩ := agScalar hb
  have hA' : A.p.Rep (a.toRepr.toNat • g1Gen) := by
    obtain rfl := Option.some_inj.mp hA
    exact G1Affine.one_rep.mulFR a.toRepr
  have hB' : B.p.Rep (b.toRepr.toNat • g1Gen) := by
    obtain rfl := Option.some_inj.mp hB
    exact G1Affine.one_rep.mulFR b.toRepr
  have h1 := (hB'.mulFR a.toRepr).toAffine
  have h2 := (hA'.mulFR b.toRepr).toAffine
  rw [smul_comm b.toRepr.toNat] at h2
  have n0 : a.toRepr.toNat • b.toRepr.toNat • g1Gen ≠ 0 := G1Pubs.nsmul_ne_of_lt
    (G1Pubs.nsmul_ne_of_lt g1Gen_ne_zero r_smul_g1Gen b0 br) (G1Pubs.torsion_nsmul r_smul_g1Gen _) a0 ar
  refine ⟨_, rfl, ?_, ?_, ?_⟩
  · exact congrArg some (h2.inj h1)
  · rw [mul_nsmul']
    exact G1Affine.denotes_iff.mpr h1
  · rcases h1 with ⟨_, h⟩ | ⟨h, _⟩
    · exact absurd h n0
    · exact h

/-- The shared point depends on the own scalar: different scalars give different points. -/
theorem C81_twoInj_g1pubs (a a' : FR) (ha : a ∈ blindings) (ha' : a' ∈ blindings) (B : G1Pubs.PublicKey) (P : E1)
    (hB : B.p.Denotes P) (P0 : P ≠ 0) (hP : r • P = 0) (h : G1Pubs.agree ⟨some a⟩ B = G1Pubs.agree ⟨some a'⟩ B) : a = a' := by
  have hB := G1Projective.denotes_iff.mp hB
  have h1 := (hB.mulFR a.toRepr).toAffine
  have h2 := (hB.mulFR a'.toRepr).toAffine
  have e : (B.p.mulFR a.toRepr).toAffine = (B.p.mulFR a'.toRepr).toAffine := Option.some_inj.mp h
  rw [e] at h1
  exact ag_inj ha ha' (G1Pubs.nsmul_inj_of_lt P0 hP (agScalar ha).2 (agScalar ha').2 (h1.fn h2))

/-! ## Two parties, g2pubs -/

/-- Both parties get the same affine point, `ab` times the generator, and it is not infinity. -/
theorem C81_two_g2pubs (a b : FR) (ha : a ∈ blindings) (hb : b ∈ blindings) (A B : G2Pubs.PublicKey)
    (hA : G2Pubs.privToPub ⟨some a⟩ = some A) (hB : G2Pubs.privToPub ⟨some b⟩ = some B) :
    ∃ p : G2Affine, G2Pubs.agree ⟨some a⟩ B = some p ∧ G2Pubs.agree ⟨some b⟩ A = some p ∧
      p.Denotes ((a.int * b.int) • g2Gen) ∧ p.infinity = false := by
  obtain ⟨a0, ar⟩ := agScalar ha
  obtain ⟨b0, br⟩ := agScalar hb
  have hA' : A.p.Rep (a.toRepr.toNat • g2Gen) := by
    obtain rfl := Option.some_inj.mp hA
    exact G2Affine.one_rep.mulFR a.toRepr
  have hB' : B.p.Rep (b.toRepr.toNat • g2Gen) := by
    obtain rfl := Option.some_inj.mp hB
    exact G2Affine.one_rep.mulFR b.toRepr
  have h1 := (hB'.mulFR a.toRepr).toAffine
  have h2 := (hA'.mulFR b.toRepr).toAffine
  rw [smul_comm b.toRepr.toNat] at h2
  have n0 : a.toRepr.toNat • b.toRepr.toNat • g2Gen ≠ 0 := G1Pubs.nsmul_ne_of_lt
    (G1Pubs.nsmul_ne_of_lt g2Gen_ne_zero r_smul_g2Gen b0 br) (G1Pubs.torsion_nsmul r_smul_g2Gen _) a0 ar
  refine ⟨_, rfl, ?_, ?_, ?_⟩
  · exact congrArg some (h2.inj h1)
  · rw [mul_nsmul']
    exact G2Affine.denotes_iff.mpr h1
  · rcases h1 with ⟨_, h⟩ | ⟨h, _⟩
    · exact absurd h n0
    · exact h

/-- The shared point depends on the own scalar: different scalars give different points. -/
theorem C81_twoInj_g2pubs (a a' : FR) (ha : a ∈ blindings) (ha' : a' ∈ blindings) (B : G2Pubs.PublicKey) (P : E2)
    (hB : B.p.Denotes P) (P0 : P ≠ 0) (hP : r • P = 0) (h : G2Pubs.agree ⟨some a⟩ B = G2Pubs.agree ⟨some a'⟩ B) : a = a' := by
  have hB := G2Projective.denotes_iff.mp hB
  have h1 := (hB.mulFR a.toRepr).toAffine
  have h2 := (hB.mulFR a'.toRepr).toAffine
  have e : (B.p.mulFR a.toRepr).toAffine = (B.p.mulFR a'.toRepr).toAffine := Option.some_inj.mp h
  rw [e] at h1
  exact ag_inj ha ha' (G1Pubs.nsmul_inj_of_lt P0 hP (agScalar ha).2 (agScalar ha').2 (h1.fn h2))

/-! ## Three parties -/

private theorem agree3_rep {a b c : FR} (hb : b ∈ blindings) (hc : c ∈ blindings) :
    ∃ e, agree3 a (publicPoints b).1 (publicPoints c).2 = some (some e) ∧
      e.Rep (ee g1Gen g2Gen ^ (a.toRepr.toNat * b.toRepr.toNat * c.toRepr.toNat)).val := by
  obtain ⟨b0, br⟩ := agScalar hb
  obtain ⟨c0, cr⟩ := agScalar hc
  obtain ⟨o, ho, hw⟩ := pairing_spec (G1Affine.one_rep.mulFR b.toRepr) (G2Affine.one_rep.mulFR c.toRepr)
    (G1Pubs.nsmul_ne_of_lt g1Gen_ne_zero r_smul_g1Gen b0 br)
    ⟨G1Pubs.nsmul_ne_of_lt g2Gen_ne_zero r_smul_g2Gen c0 cr, G1Pubs.torsion_nsmul r_smul_g2Gen _⟩
  have hx := hw.exp a.toRepr.toFQ
  rw [C07_fr_toFQ, ← GT.val_pow, ee_nsmul_left _ (G1Pubs.torsion_nsmul r_smul_g2Gen _), ee_nsmul_right _ r_smul_g2Gen,
    ← pow_mul, ← pow_mul, show c.toRepr.toNat * (b.toRepr.toNat * a.toRepr.toNat) =
      a.toRepr.toNat * b.toRepr.toNat * c.toRepr.toNat by ring] at hx
  refine ⟨_, ?_, hx⟩
  rw [agree3]
  refine (congrArg _ ho).trans ?_
  rw [Option.map_some, Option.map_some]

/-- Each of three parties gets the same value whichever of the others' points it takes in which group: an r-th root of unity
other than 1. -/
theorem C81_three (a b c : FR) (ha : a ∈ blindings) (hb : b ∈ blindings) (hc : c ∈ blindings) :
    ∃ e : FQ12, agree3 a (publicPoints b).1 (publicPoints c).2 = some (some e) ∧
      agree3 a (publicPoints c).1 (publicPoints b).2 = some (some e) ∧
      agree3 b (publicPoints a).1 (publicPoints c).2 = some (some e) ∧
      agree3 b (publicPoints c).1 (publicPoints a).2 = some (some e) ∧
      agree3 c (publicPoints a).1 (publicPoints b).2 = some (some e) ∧
      agree3 c (publicPoints b).1 (publicPoints a).2 = some (some e) ∧ e.isValid ∧ e.fld ≠ 1 ∧ e.fld ^ r = 1 := by
  obtain ⟨e1, h1, v1⟩ := agree3_rep (a := a) hb hc
  obtain ⟨e2, h2, v2⟩ := agree3_rep (a := a) hc hb
  obtain ⟨e3, h3, v3⟩ := agree3_rep (a := b) ha hc
  obtain ⟨e4, h4, v4⟩ := agree3_rep (a := b) hc ha
  obtain ⟨e5, h5, v5⟩ := agree3_rep (a := c) ha hb
  obtain ⟨e6, h6, v6⟩ := agree3_rep (a := c) hb ha
  obtain ⟨a0, ar⟩ := agScalar ha
  obtain ⟨b0, br⟩ := agScalar hb
  obtain ⟨c0, cr⟩ := agScalar hc
  generalize a.toRepr.toNat = x at *
  generalize b.toRepr.toNat = y at *
  generalize c.toRepr.toNat = z at *
  rw [show x * z * y = x * y * z by ring] at v2
  rw [show y * x * z = x * y * z by ring] at v3
  rw [show y * z * x = x * y * z by ring] at v4
  rw [show z * x * y = x * y * z by ring] at v5
  rw [show z * y * x = x * y * z by ring] at v6
  have hn : ee g1Gen g2Gen ^ (x * y * z) = ee (x • y • z • g1Gen) g2Gen := by
    rw [ee_nsmul_left _ r_smul_g2Gen, ee_nsmul_left _ r_smul_g2Gen, ee_nsmul_left _ r_smul_g2Gen, ← pow_mul, ← pow_mul,
      show z * (y * x) = x * y * z by ring]
  have tz := G1Pubs.torsion_nsmul r_smul_g1Gen z
  have ty := G1Pubs.torsion_nsmul tz y
  have tx := G1Pubs.torsion_nsmul ty x
  have nz := G1Pubs.nsmul_ne_of_lt g1Gen_ne_zero r_smul_g1Gen c0 cr
  have ny := G1Pubs.nsmul_ne_of_lt nz tz b0 br
  have nx := G1Pubs.nsmul_ne_of_lt ny ty a0 ar
  refine ⟨e1, h1, ?_, ?_, ?_, ?_, ?_, v1.out.1, ?_, ?_⟩
  · rw [h2, v2.inj v1]
  · rw [h3, v3.inj v1]
  · rw [h4, v4.inj v1]
  · rw [h5, v5.inj v1]
  · rw [h6, v6.inj v1]
  · rw [v1.out.2, hn, ← GT.val_one]
    exact fun h => absurd (GT.ext h) (ee_ne_one tx r_smul_g2Gen nx g2Gen_ne_zero)
  · rw [v1.out.2, hn, ← GT.val_pow, ee_pow_r, GT.val_one]

/-- The shared value depends on the own scalar. -/
theorem C81_threeInj (a a' b c : FR) (ha : a ∈ blindings) (ha' : a' ∈ blindings) (hb : b ∈ blindings) (hc : c ∈ blindings)
    (h : agree3 a (publicPoints b).1 (publicPoints c).2 = agree3 a' (publicPoints b).1 (publicPoints c).2) : a = a' := by
  obtain ⟨e1, h1, v1⟩ := agree3_rep (a := a) hb hc
  obtain ⟨e2, h2, v2⟩ := agree3_rep (a := a') hb hc
  obtain ⟨b0, br⟩ := agScalar hb
  obtain ⟨c0, cr⟩ := agScalar hc
  rw [h1, h2, Option.some_inj, Option.some_inj] at h
  subst h
  have e := GT.ext (v1.out.2.symm.trans v2.out.2)
  refine ag_inj ha ha' ?_
  have hx := (agScalar ha).2
  have hx' := (agScalar ha').2
  generalize a.toRepr.toNat = x at *
  generalize a'.toRepr.toNat = x' at *
  generalize b.toRepr.toNat = y at *
  generalize c.toRepr.toNat = z at *
  have hn (x : ℕ) : ee g1Gen g2Gen ^ (x * y * z) = ee (x • y • z • g1Gen) g2Gen := by
    rw [ee_nsmul_left _ r_smul_g2Gen, ee_nsmul_left _ r_smul_g2Gen, ee_nsmul_left _ r_smul_g2Gen, ← pow_mul, ← pow_mul,
      show z * (y * x) = x * y * z by ring]
  rw [hn, hn] at e
  have tz := G1Pubs.torsion_nsmul r_smul_g1Gen z
  have ty := G1Pubs.torsion_nsmul tz y
  have nz := G1Pubs.nsmul_ne_of_lt g1Gen_ne_zero r_smul_g1Gen c0 cr
  have ny := G1Pubs.nsmul_ne_of_lt nz tz b0 br
  exact G1Pubs.nsmul_inj_of_lt ny ty hx hx'
    (ee_left_inj (G1Pubs.torsion_nsmul ty x) (G1Pubs.torsion_nsmul ty x') r_smul_g2Gen g2Gen_ne_zero e)

/-- A case: the scalars 1, 2 and 3 and the keys of 1. -/
example : FR.one ∈ blindings ∧ FR.one.add FR.one ∈ blindings ∧ (FR.one.add FR.one).add FR.one ∈ blindings ∧
    (∃ A, G1Pubs.privToPub ⟨some FR.one⟩ = some A) ∧ (∃ A, G2Pubs.privToPub ⟨some FR.one⟩ = some A) := by
  have h2 := FR.one_rep.add FR.one_rep
  have h3 := h2.add FR.one_rep
  have hv3 : ((FR.one.add FR.one).add FR.one).int = 3 := by
    rw [h3.int, show (1 + 1 + 1 : ZMod r) = (3 : ℕ) by push_cast; ring]
    exact ZMod.val_natCast_of_lt (a := 3) (by rw [r_eq]; decide +kernel)
  have hv : (FR.one.add FR.one).int = 2 := by
    rw [h2.int, one_add_one_eq_two]
    exact ZMod.val_natCast_of_lt (a := 2) (by rw [r_eq]; decide +kernel)
  have hv1 : FR.one.int = 1 := by
    rw [FR.one_rep.int]
    exact ZMod.val_one r
  exact ⟨⟨FR.one_rep.isValid, by rw [hv1]; decide⟩, ⟨h2.isValid, by rw [hv]; decide⟩, ⟨h3.isValid, by rw [hv3]; decide⟩,
    ⟨_, rfl⟩, ⟨_, rfl⟩⟩

end Bls.Props
