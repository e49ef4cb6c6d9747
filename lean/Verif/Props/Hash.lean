import Verif.Proof.Domain
import Verif.Proof.Denote
import Verif.Proof.HashCases
/-
C40–C43, C50, C51: hashing to the curves and to secret keys. `sha` is an arbitrary function from byte strings to byte strings. The maps are
in Verif/Spec/Hash.lean: `hashToField`, `Swu1`/`Swu2` (the simplified SWU map to the isogenous curves E1' and E2'),
`iso11Map`/`iso3Map` (the isogenies). `hashG1` and `hashG2` return `none` when the Go function panics.
-/
set_option exponentiation.threshold 1000
namespace Bls.Props

/-! ## C40: HashG1 -/

/-- The SWU image on E1' exists and is unique. -/
theorem C40_swu (t : Fq) : ∃! P : E1'.Point, Swu1 t P := Swu1.exists_unique t

/-- `HashG1` does not panic, whatever the hash function returns. -/
theorem C40_no_panic (sha : List UInt8 → List UInt8) (msg : List UInt8) : hashG1 sha msg ≠ none := by
  obtain ⟨g, hg⟩ := hashG1_some sha msg
  rw [hg]
  exact Option.some_ne_none g

/-- The isogeny is defined, and lands on E1, at every point of E1' where its denominator does not vanish. -/
theorem C40_isogeny {S : E1'.Point} {x y : Fq} (h : SwAt S x y) (hd : polyAt iso11Map.xDen x ≠ 0) :
    ∃ R : E1, iso11Map.Maps S R := by
  obtain ⟨a, ha⟩ := FQ.exists_rep x
  obtain ⟨b, hb⟩ := FQ.exists_rep y
  obtain ⟨R, hR, _⟩ := iso11_spec (a := ⟨a, b, false⟩) ⟨rfl, ha, hb⟩ h.on hd
  have hd2 : polyAt iso11Map.yDen x ≠ 0 := by
    intro e; have := iso11_den x; rw [e] at this
    exact hd (pow_eq_zero_iff (n := 3) (by norm_num) |>.mp (by rw [← this]; ring))
  exact ⟨R, x, y, h, hd, hd2, hR⟩

/-- `HashG1` is the isogeny image of the sum of the two mapped points, times `u + 1`: a point of E1 of order
dividing r. Excluded are two mapped points with the same x-coordinate and the kernel of the isogeny. -/
theorem C40_hashG1 (sha : List UInt8 → List UInt8) (msg : List UInt8) (P Q : E1'.Point) (R : E1)
    (hP : Swu1 (hashToField sha (1 :: msg) 0 1 : Fq) P) (hQ : Swu1 (hashToField sha (1 :: msg) 1 1 : Fq) Q)
    (hne : P ≠ Q) (hne' : P ≠ -Q) (hR : iso11Map.Maps (P + Q) R) :
    ∃ g, hashG1 sha msg = some g ∧ g.Denotes ((blsU + 1) • R) ∧ r • ((blsU + 1) • R) = 0 := by
  obtain ⟨g, hg, hr⟩ := hashG1_spec sha msg hP hQ hne hne' hR
  exact ⟨g, hg, G1Affine.denotes_iff.mpr hr, by rw [← mul_nsmul]; exact E1.exponent R⟩

/-- The hypotheses of `C40_hashG1` are met, with a result other than infinity. -/
example (msg : List UInt8) : ∃ (P Q : E1'.Point) (R : E1), Swu1 (hashToField Cases.sha1 (1 :: msg) 0 1 : Fq) P ∧
    Swu1 (hashToField Cases.sha1 (1 :: msg) 1 1 : Fq) Q ∧ P ≠ Q ∧ P ≠ -Q ∧ iso11Map.Maps (P + Q) R ∧
    (blsU + 1) • R ≠ 0 := by
  obtain ⟨P, Q, R, h1, h2, h3, h4, h5, h6⟩ := Cases.case1_full msg
  exact ⟨P, Q, R, h1, h2, h3, h4, h5, Cases.aMul_ne h6⟩

/-! ## C41: HashG2 -/

/-- The SWU image on E2' exists and is unique. -/
theorem C41_swu (t : Fq2) : ∃! P : E2'.Point, Swu2 t P := Swu2.exists_unique t

/-- `HashG2` does not panic (and its intermediate points are not nil), whatever the hash function returns. -/
theorem C41_no_panic (sha : List UInt8 → List UInt8) (msg : List UInt8) : hashG2 sha msg ≠ none := by
  obtain ⟨g, hg⟩ := hashG2_some sha msg
  rw [hg]
  exact Option.some_ne_none g

/-- `HashG2` is the isogeny image `R` of the sum of the two mapped points, mapped to
`(u² + u - 1)R - (u + 1)ψR + 2ψ²R`: a point of E2 of order dividing r. The isogeny is always defined. Excluded are two
mapped points with the same x-coordinate. -/
theorem C41_hashG2 (sha : List UInt8 → List UInt8) (msg : List UInt8) (P Q : E2'.Point)
    (hP : Swu2 ⟨(hashToField sha (1 :: msg) 0 1 : Fq), (hashToField sha (1 :: msg) 0 2 : Fq)⟩ P)
    (hQ : Swu2 ⟨(hashToField sha (1 :: msg) 1 1 : Fq), (hashToField sha (1 :: msg) 1 2 : Fq)⟩ Q)
    (hne : P ≠ Q) (hne' : P ≠ -Q) :
    ∃ (g : G2Affine) (R H : E2), iso3Map.Maps (P + Q) R ∧ hashG2 sha msg = some g ∧ g.Denotes H ∧
      H = (blsU * blsU + blsU) • R - R - (blsU + 1) • psi.hom R + 2 • psi.hom (psi.hom R) ∧ r • H = 0 := by
  obtain ⟨g, R, hR, hg, hr⟩ := hashG2_spec sha msg hP hQ hne hne'
  exact ⟨g, R, _, hR, hg, G2Affine.denotes_iff.mpr hr, Grp.clr_apply .., clr_torsion R⟩

/-- `ψ` on coordinates. -/
theorem C41_psi {P : E2} {x y : Fq2} (h : IsAt P x y) :
    IsAt (psi.hom P) ((gam ^ 2)⁻¹ * Fq2.conj x) ((gam ^ 3)⁻¹ * Fq2.conj y) ∧ gam ^ 6 * xi = Fq2.conj xi :=
  ⟨psi.hom_at h, gam_six⟩

/-- The hypotheses are met: the field elements 0 and 1. -/
example (msg : List UInt8) : ∃ (P Q : E2'.Point),
    Swu2 ⟨(hashToField Cases.sha2 (1 :: msg) 0 1 : Fq), (hashToField Cases.sha2 (1 :: msg) 0 2 : Fq)⟩ P ∧
    Swu2 ⟨(hashToField Cases.sha2 (1 :: msg) 1 1 : Fq), (hashToField Cases.sha2 (1 :: msg) 1 2 : Fq)⟩ Q ∧
    P ≠ Q ∧ P ≠ -Q := by
  obtain ⟨P, Q, h1, h2, h3, h4, _⟩ := Cases.case2_full msg
  exact ⟨P, Q, h1, h2, h3, h4⟩

/-! ## C42: cofactor clearing -/

/-- `ClearH` multiplies by `u + 1`, which maps E1 into the subgroup of order r. -/
theorem C42_clearH (a : G1Affine) (P : E1) (h : a.Denotes P) :
    (clearH a).Denotes ((blsU + 1) • P) ∧ r • ((blsU + 1) • P) = 0 :=
  ⟨G1Affine.denotes_iff.mpr (clearH_spec (G1Affine.denotes_iff.mp h)), by rw [← mul_nsmul]; exact E1.exponent P⟩

/-- `clearH2` maps the finite points of E2 into the subgroup of order r. -/
theorem C42_clearH2 (a : G2Affine) (P : E2) (h : a.Denotes P) (h0 : P ≠ 0) :
    ∃ H, (clearH2 a).Denotes H ∧ r • H = 0 ∧
      H = (blsU * blsU + blsU) • P - P - (blsU + 1) • psi.hom P + 2 • psi.hom (psi.hom P) :=
  ⟨_, G2Affine.denotes_iff.mpr (clearH2_spec (G2Affine.denotes_iff.mp h) h0), clr_torsion P, Grp.clr_apply ..⟩

/-- `psi` is that endomorphism on finite points. -/
theorem C42_psi (a : G2Affine) (P : E2) (h : a.Denotes P) (h0 : P ≠ 0) : (psiAffine a).Denotes (psi.hom P) :=
  G2Affine.denotes_iff.mpr (psiAffine_spec (G2Affine.denotes_iff.mp h) h0)

/-- `ScaleByCofactor` on G1 multiplies by the cofactor, into the subgroup of order r. -/
theorem C42_scaleByCofactor_G1 (a : G1Affine) (P : E1) (h : a.Denotes P) :
    a.scaleByCofactor.Denotes (h1 • P) ∧ r • (h1 • P) = 0 := by
  have h' := (G1Affine.denotes_iff.mp h).mul G1Affine.cofactor
  have e : G1Affine.cofactor.toNat = h1 := by rw [h1]; congr 1
  rw [e] at h'
  exact ⟨G1Projective.denotes_iff.mpr h', E1.cofactor_torsion P⟩

/-- `ScaleByCofactor` on G2 multiplies by the cofactor, into the subgroup of order r. -/
theorem C42_scaleByCofactor_G2 (a : G2Affine) (P : E2) (h : a.Denotes P) :
    a.scaleByCofactor.Denotes (h2 • P) ∧ r • (h2 • P) = 0 := by
  have h' := (G2Affine.denotes_iff.mp h).mulBig G2Affine.cofactor
  have e : G2Affine.cofactor = h2 := by rw [h2]; unfold G2Affine.cofactor; decide +kernel
  rw [e] at h'
  have h' : a.scaleByCofactor.Rep (h2 • P) := by unfold G2Affine.scaleByCofactor; rw [e]; exact h'
  exact ⟨G2Projective.denotes_iff.mpr h', E2.cofactor_torsion P⟩

example : ∃ (a : G2Affine) (P : E2), a.Denotes P ∧ P ≠ 0 ∧ r • P ≠ 0 := by
  obtain ⟨P, _, h0, h13, _⟩ := b13_full
  obtain ⟨a, ha⟩ := G2Affine.exists_rep P
  refine ⟨a, P, G2Affine.denotes_iff.mpr ha, h0, fun hr => h0 ?_⟩
  rw [← addOrderOf_dvd_iff_nsmul_eq_zero] at h13 hr
  have g := Nat.dvd_gcd h13 hr
  rw [r_eq, show Nat.gcd 13 rLit = 1 by decide +kernel, Nat.dvd_one, AddMonoid.addOrderOf_eq_one_iff] at g
  exact g

/-! ## C43: HashG2WithDomain -/

/-- The loop ends, within `q` steps. The result is the cofactor multiple of the point whose x-coordinate is the first of
`x₀, x₀ + 1, …` that is one, with the larger of the two y-coordinates. -/
theorem C43_hashG2WithDomain (sha : List UInt8 → List UInt8) (hsha : ∀ m, (sha m).length = 32)
    (messageHash domain : List UInt8) (x₀ : Fq2)
    (hx : x₀ = ⟨(os2ip (sha (messageHash ++ domain ++ [1])) : Fq), (os2ip (sha (messageHash ++ domain ++ [2])) : Fq)⟩) :
    ∃ (g : G2Projective) (P : E2) (k : ℕ) (y : Fq2), hashG2WithDomain sha messageHash domain = some g ∧
      g.Denotes (h2 • P) ∧ r • (h2 • P) = 0 ∧ IsAt P (x₀ + k) y ∧ Fq2.Greater y (-y) ∧
      k < q ∧ ∀ j < k, ¬ ∃ z : Fq2, z ^ 2 = (x₀ + j) ^ 3 + b2 := by
  subst hx
  obtain ⟨g, P, k, y, hk, h1, h2, h3, h4, h5⟩ := hashG2WithDomain_spec sha hsha messageHash domain
  refine ⟨g, P, k, y, h1, G2Projective.denotes_iff.mpr h2, E2.cofactor_torsion P, h3, h4, hk, fun j hj ⟨z, hz⟩ => h5 j hj ⟨z, ?_⟩⟩
  rw [← hz, sq]

example : ∃ sha : List UInt8 → List UInt8, ∀ m, (sha m).length = 32 := ⟨fun _ => List.replicate 32 7, fun _ => rfl⟩

/-! ## C50: secret keys from seeds -/

/-- `HashSecretKey` neither panics nor returns nil: a canonical element, the hash reduced modulo r. -/
theorem C50_hashSecretKey (sha : List UInt8 → List UInt8) (seed : List UInt8) :
    ∃ f, hashSecretKey sha seed = some (some f) ∧ f.isValid ∧ f.int = hashToField sha seed 0 1 % r := by
  obtain ⟨f, h1, h2⟩ := hashSecretKey_spec sha seed
  exact ⟨f, h1, h2.isValid, h2.int_eq⟩

/-! ## C51: the Shallue–van de Woestijne encoding -/

/-- `SWEncodeG2` returns the point of `SvdwG2` (Verif/Spec/Hash.lean) of E2, never nil. -/
theorem C51_swEncodeG2 (t : FQ2) (ht : t.isValid) : ∃ a P, swEncodeG2 t = some a ∧ a.Denotes P ∧ SvdwG2 t.fld P := by
  obtain ⟨a, P, h1, h2, h3⟩ := swEncodeG2_spec (FQ2.rep_iff.mpr ⟨ht, rfl⟩)
  exact ⟨a, P, h1, G2Affine.denotes_iff.mpr h2, h3⟩

/-- The three cases: 0, and elements that are neither 0 nor a root of `t² + b + 1`. -/
example : FQ2.zero.isValid ∧ FQ2.one.isValid ∧ FQ2.one.fld ≠ 0 ∧ FQ2.one.fld ^ 2 + b2 + 1 ≠ 0 := by
  have h := FQ2.rep_iff.mp FQ2.one_rep
  refine ⟨(FQ2.rep_iff.mp FQ2.zero_rep).1, h.1, by rw [h.2]; exact one_ne_zero, ?_⟩
  rw [h.2]
  intro e
  have h1 : (1 ^ 2 + b2 + 1 : Fq2).c1 = 0 := by rw [e]; rfl
  have h2 : (0 : Fq) + 4 + 0 = 0 := by rw [one_pow] at h1; exact h1
  have h3 : (2 : Fq) ≠ 0 := GoodCurve.two_ne (b := (4 : Fq))
  exact mul_ne_zero h3 h3 (by linear_combination h2)

end Bls.Props
