import Verif.Proof.MillerMul
import Verif.Proof.Nondegen
import Verif.Proof.Denote
/-
C30–C34 and C48: the pairing and the group orders. `pairing` and `compareTwoPairings` return an outer
`none` when the Go function panics; the inner `none` of `pairing` is a nil result.
-/
set_option exponentiation.threshold 1000
namespace Bls.Props

/-! ## C30: final exponentiation -/

/-- `FinalExponentiation` raises to the power `3(q¹²-1)/r`; it returns nil exactly for zero. -/
theorem C30_finalExponentiation (f : FQ12) (hf : f.isValid) :
    (f.fld = 0 → finalExponentiation f = none) ∧
    (f.fld ≠ 0 → ∃ g, finalExponentiation f = some g ∧ g.isValid ∧ g.fld = f.fld ^ (3 * ((q ^ 12 - 1) / r))) := by
  refine ⟨fun h => FQ12.Rep.finalExponentiation_zero (FQ12.rep_iff.mpr ⟨hf, h⟩), fun h => ?_⟩
  obtain ⟨g, h1, h2⟩ := (FQ12.rep hf).finalExponentiation h
  exact ⟨g, h1, h2.out.1, by rw [h2.out.2, fullExp]⟩

/-- So the result is an r-th root of unity. -/
theorem C30_root (f g : FQ12) (hf : f.isValid) (h : finalExponentiation f = some g) : g.fld ^ r = 1 := by
  by_cases h0 : f.fld = 0
  · rw [(C30_finalExponentiation f hf).1 h0] at h; cases h
  · obtain ⟨g', h1, _, h2⟩ := (C30_finalExponentiation f hf).2 h0
    rw [h1] at h
    obtain rfl := Option.some_inj.mp h
    have e : (phi f.fld h0) ^ r = 1 := phi_pow_r h0
    have e' := congrArg GT.val e
    rw [GT.val_pow, phi_val, GT.val_one, fullExp] at e'
    rw [h2]; exact e'

/-- The exponent is exact: `r` divides `q¹²-1`. -/
example : r ∣ q ^ 12 - 1 := by
  apply Nat.dvd_of_mod_eq_zero
  set_option exponentiation.threshold 5000 in rw [r, q]; decide +kernel

example : ∃ f : FQ12, f.isValid ∧ f.fld ≠ 0 ∧ f.fld ≠ 1 := by
  have h : (⟨FQ6.zero, FQ6.one⟩ : FQ12).Rep ⟨0, 1⟩ := ⟨FQ6.zero_rep, FQ6.one_rep⟩
  refine ⟨_, h.out.1, ?_, ?_⟩ <;> rw [h.out.2] <;> exact fun e => one_ne_zero (congrArg Fq12.c1 e)

/-! ## C31: the Miller loop is multiplicative -/

/-- For any list of finite points, on the curves or not, the loop does not panic and its value is the product of
the values for the single pairs (which do not panic either), even before the final exponentiation. -/
theorem C31_product (items : List (G1Affine × G2Prepared))
    (h : ∀ it ∈ items, it.1.infinity = false ∧ it.1.x.isValid ∧ it.1.y.isValid ∧
      ∃ a : G2Affine, a.infinity = false ∧ a.x.isValid ∧ a.y.isValid ∧ a.toPrepared = some it.2) :
    ∃ (f : FQ12) (fs : List FQ12), millerLoop items = some f ∧ items.map (fun it => millerLoop [it]) = fs.map some ∧
      f.isValid ∧ (∀ g ∈ fs, g.isValid) ∧ f.fld = (fs.map FQ12.fld).prod :=
  millerLoop_prod h

/-- `G2AffineToPrepared` never panics. -/
theorem C31_prepared (a : G2Affine) : ∃ prep, a.toPrepared = some prep ∧ prep.isZero = a.isZero := toPrepared_ok a

/-- On points of order r the final exponentiation of the loop is the product of the pairings. -/
theorem C31_pairings (l : List (G1Projective × G2Projective × G2Prepared))
    (h : ∀ it ∈ l, it.2.1.toAffine.toPrepared = some it.2.2 ∧
      ∃ (P : E1) (Q : E2), it.1.Denotes P ∧ it.2.1.Denotes Q ∧ P ≠ 0 ∧ Q ≠ 0 ∧ r • Q = 0) :
    ∃ (f e : FQ12) (es : List FQ12), millerLoop (l.map fun it => (it.1.toAffine, it.2.2)) = some f ∧
      finalExponentiation f = some e ∧ l.map (fun it => pairing it.1 it.2.1) = es.map (fun e => some (some e)) ∧
      e.isValid ∧ (∀ g ∈ es, g.isValid) ∧ e.fld = (es.map FQ12.fld).prod := by
  have key : ∃ ds : List (E1 × E2), List.Forall₂ ItemRep (l.map fun it => (it.1.toAffine, it.2.2)) ds ∧
      (∀ d ∈ ds, d.1 ≠ 0) ∧ (∀ d ∈ ds, Ord d.2) ∧ ∃ es : List FQ12,
      l.map (fun it => pairing it.1 it.2.1) = es.map (fun e => some (some e)) ∧ (∀ g ∈ es, g.isValid = true) ∧
      (es.map FQ12.fld).prod = (prodE ds).val := by
    induction l with
    | nil =>
      refine ⟨[], .nil, fun d hd => absurd hd List.not_mem_nil, fun d hd => absurd hd List.not_mem_nil, [], rfl,
        fun d hd => absurd hd List.not_mem_nil, ?_⟩
      rw [prodE, List.map_nil, List.map_nil, List.prod_nil, List.prod_nil, GT.val_one]
    | cons it l ih =>
      obtain ⟨ds, k1, k2, k3, es, k4, k5, k6⟩ := ih fun x hx => h x (List.mem_cons_of_mem _ hx)
      obtain ⟨e0, P, Q, hp, hq, hP, hQ, hr⟩ := h it List.mem_cons_self
      rw [G1Projective.denotes_iff] at hp
      rw [G2Projective.denotes_iff] at hq
      obtain ⟨e, m1, m2⟩ := pairing_spec hp hq hP ⟨hQ, hr⟩
      refine ⟨(P, Q) :: ds, .cons ⟨hp.toAffine, _, hq.toAffine, e0⟩ k1, ?_, ?_, e :: es, ?_, ?_, ?_⟩
      · intro d hd
        rcases List.mem_cons.mp hd with rfl | hd
        · exact hP
        · exact k2 d hd
      · intro d hd
        rcases List.mem_cons.mp hd with rfl | hd
        · exact ⟨hQ, hr⟩
        · exact k3 d hd
      · rw [List.map_cons, List.map_cons, k4, m1]
      · intro d hd
        rcases List.mem_cons.mp hd with rfl | hd
        · exact m2.out.1
        · exact k5 d hd
      · rw [List.map_cons, List.prod_cons, k6, m2.out.2, prodE, prodE, List.map_cons, List.prod_cons, GT.val_mul]
  obtain ⟨ds, k1, k2, k3, es, k4, k5, k6⟩ := key
  obtain ⟨f, Y, hY, m1, m2, m3⟩ := millerLoop_spec k1 k2 fun d hd => (k3 d hd).reg_tail
  obtain ⟨e, f1, f2⟩ := finalExp_phi m2 hY
  exact ⟨f, e, es, m1, f1, k4, f2.out.1, k5, by rw [f2.out.2, m3, k6]⟩

example : ∃ prep, G2Affine.one.toPrepared = some prep ∧ ∀ it ∈ [(G1Affine.one, prep), (G1Affine.one.neg, prep)],
    it.1.infinity = false ∧ it.1.x.isValid ∧ it.1.y.isValid ∧
      ∃ a : G2Affine, a.infinity = false ∧ a.x.isValid ∧ a.y.isValid ∧ a.toPrepared = some it.2 := by
  obtain ⟨prep, e, _⟩ := toPrepared_ok G2Affine.one
  refine ⟨prep, e, ?_⟩
  have h1 := G1Affine.denotes_iff.mpr G1Affine.one_rep
  have h2 := G1Affine.denotes_iff.mpr G1Affine.one_rep.neg
  have h3 := G2Affine.denotes_iff.mpr G2Affine.one_rep
  rcases h1 with ⟨_, h⟩ | ⟨a1, a2, a3, _⟩
  · exact absurd h g1Gen_ne_zero
  rcases h2 with ⟨_, h⟩ | ⟨b1, b2, b3, _⟩
  · exact absurd h (neg_ne_zero.mpr g1Gen_ne_zero)
  rcases h3 with ⟨_, h⟩ | ⟨c1, c2, c3, _⟩
  · exact absurd h g2Gen_ne_zero
  exact forall_pair ⟨a1, a2, a3, _, c1, c2, c3, e⟩ ⟨b1, b2, b3, _, c1, c2, c3, e⟩

/-! ## C32: bilinearity -/

/-- `Pairing(aP, bQ) = Pairing(P, Q)^(ab)`, whatever values denote the four points. -/
theorem C32_smul (p p' : G1Projective) (g g' : G2Projective) (P : E1) (Q : E2) (a b : ℕ) (hp : p.Denotes P)
    (hg : g.Denotes Q) (hp' : p'.Denotes (a • P)) (hg' : g'.Denotes (b • Q)) (hQ : r • Q = 0)
    (ha : a • P ≠ 0) (hb : b • Q ≠ 0) :
    ∃ e e', pairing p g = some (some e) ∧ pairing p' g' = some (some e') ∧ e.isValid ∧ e'.isValid ∧
      e'.fld = e.fld ^ (a * b) := by
  have hP0 : P ≠ 0 := fun e => ha (by rw [e, nsmul_zero])
  have hQ0 : Q ≠ 0 := fun e => hb (by rw [e, nsmul_zero])
  have hbQ : r • (b • Q) = 0 := by rw [nsmul_left_comm, hQ, nsmul_zero]
  obtain ⟨e, h1, h2⟩ := pairing_spec (G1Projective.denotes_iff.mp hp) (G2Projective.denotes_iff.mp hg) hP0 ⟨hQ0, hQ⟩
  obtain ⟨e', h1', h2'⟩ := pairing_spec (G1Projective.denotes_iff.mp hp') (G2Projective.denotes_iff.mp hg') ha ⟨hb, hbQ⟩
  refine ⟨e, e', h1, h1', h2.out.1, h2'.out.1, ?_⟩
  rw [h2.out.2, h2'.out.2, ee_nsmul_left _ hbQ, ee_nsmul_right _ hQ, ← pow_mul, GT.val_pow, mul_comm]

/-- The same for the values the API computes: `Pairing(p.MulFR(a), g.MulFR(b))`. -/
theorem C32_mulFR (p : G1Projective) (g : G2Projective) (P : E1) (Q : E2) (a b : FRRepr) (hp : p.Denotes P)
    (hg : g.Denotes Q) (hQ : r • Q = 0) (ha : a.toNat • P ≠ 0) (hb : b.toNat • Q ≠ 0) :
    ∃ e e', pairing p g = some (some e) ∧ pairing (p.mulFR a) (g.mulFR b) = some (some e') ∧ e.isValid ∧ e'.isValid ∧
      e'.fld = e.fld ^ (a.toNat * b.toNat) :=
  C32_smul _ _ _ _ P Q _ _ hp hg (G1Projective.denotes_iff.mpr ((G1Projective.denotes_iff.mp hp).mulFR a))
    (G2Projective.denotes_iff.mpr ((G2Projective.denotes_iff.mp hg).mulFR b)) hQ ha hb

/-- `Pairing(P₁ + P₂, Q) = Pairing(P₁, Q) · Pairing(P₂, Q)`. -/
theorem C32_add_left (p₁ p₂ : G1Projective) (g : G2Projective) (P₁ P₂ : E1) (Q : E2) (h₁ : p₁.Denotes P₁)
    (h₂ : p₂.Denotes P₂) (hg : g.Denotes Q) (hQ : r • Q = 0) (hQ0 : Q ≠ 0) (n₁ : P₁ ≠ 0) (n₂ : P₂ ≠ 0)
    (hs : P₁ + P₂ ≠ 0) :
    ∃ e₁ e₂ e, pairing p₁ g = some (some e₁) ∧ pairing p₂ g = some (some e₂) ∧ pairing (p₁.add p₂) g = some (some e) ∧
      e₁.isValid ∧ e₂.isValid ∧ e.isValid ∧ e.fld = e₁.fld * e₂.fld := by
  rw [G1Projective.denotes_iff] at h₁ h₂
  rw [G2Projective.denotes_iff] at hg
  obtain ⟨e₁, a1, b1⟩ := pairing_spec h₁ hg n₁ ⟨hQ0, hQ⟩
  obtain ⟨e₂, a2, b2⟩ := pairing_spec h₂ hg n₂ ⟨hQ0, hQ⟩
  obtain ⟨e, a3, b3⟩ := pairing_spec (h₁.add h₂) hg hs ⟨hQ0, hQ⟩
  refine ⟨e₁, e₂, e, a1, a2, a3, b1.out.1, b2.out.1, b3.out.1, ?_⟩
  rw [b1.out.2, b2.out.2, b3.out.2, ee_add_left _ _ (eig_of_torsion hQ), GT.val_mul]

/-- `Pairing(P, Q₁ + Q₂) = Pairing(P, Q₁) · Pairing(P, Q₂)`. -/
theorem C32_add_right (p : G1Projective) (g₁ g₂ : G2Projective) (P : E1) (Q₁ Q₂ : E2) (hp : p.Denotes P)
    (h₁ : g₁.Denotes Q₁) (h₂ : g₂.Denotes Q₂) (t₁ : r • Q₁ = 0) (t₂ : r • Q₂ = 0) (hP : P ≠ 0) (n₁ : Q₁ ≠ 0)
    (n₂ : Q₂ ≠ 0) (hs : Q₁ + Q₂ ≠ 0) :
    ∃ e₁ e₂ e, pairing p g₁ = some (some e₁) ∧ pairing p g₂ = some (some e₂) ∧ pairing p (g₁.add g₂) = some (some e) ∧
      e₁.isValid ∧ e₂.isValid ∧ e.isValid ∧ e.fld = e₁.fld * e₂.fld := by
  rw [G2Projective.denotes_iff] at h₁ h₂
  rw [G1Projective.denotes_iff] at hp
  obtain ⟨e₁, a1, b1⟩ := pairing_spec hp h₁ hP ⟨n₁, t₁⟩
  obtain ⟨e₂, a2, b2⟩ := pairing_spec hp h₂ hP ⟨n₂, t₂⟩
  obtain ⟨e, a3, b3⟩ := pairing_spec hp (h₁.add h₂) hP ⟨hs, by rw [nsmul_add, t₁, t₂, add_zero]⟩
  refine ⟨e₁, e₂, e, a1, a2, a3, b1.out.1, b2.out.1, b3.out.1, ?_⟩
  rw [b1.out.2, b2.out.2, b3.out.2, ee_add_right _ (eig_of_torsion t₁) (eig_of_torsion t₂), GT.val_mul]

/-- The value depends only on the points, not on the coordinates that denote them. -/
theorem C32_congr (p p' : G1Projective) (g g' : G2Projective) (P : E1) (Q : E2) (hp : p.Denotes P) (hp' : p'.Denotes P)
    (hg : g.Denotes Q) (hg' : g'.Denotes Q) : pairing p g = pairing p' g' := by
  rw [G1Projective.denotes_iff] at hp hp'
  rw [G2Projective.denotes_iff] at hg hg'
  rw [pairing, pairing, hp.toAffine.inj hp'.toAffine, hg.toAffine.inj hg'.toAffine]

/-- `CompareTwoPairings` compares the two pairings. -/
theorem C32_compare (p₁ p₂ : G1Projective) (g₁ g₂ : G2Projective) (P₁ P₂ : E1) (Q₁ Q₂ : E2) (hp₁ : p₁.Denotes P₁)
    (hg₁ : g₁.Denotes Q₁) (hp₂ : p₂.Denotes P₂) (hg₂ : g₂.Denotes Q₂) (n₁ : P₁ ≠ 0) (n₂ : P₂ ≠ 0) (m₁ : Q₁ ≠ 0)
    (m₂ : Q₂ ≠ 0) (t₁ : r • Q₁ = 0) (t₂ : r • Q₂ = 0) :
    ∃ e₁ e₂ c, pairing p₁ g₁ = some (some e₁) ∧ pairing p₂ g₂ = some (some e₂) ∧
      compareTwoPairings p₁ g₁ p₂ g₂ = some c ∧ (c = true ↔ e₁.fld = e₂.fld) := by
  rw [G1Projective.denotes_iff] at hp₁ hp₂
  rw [G2Projective.denotes_iff] at hg₁ hg₂
  obtain ⟨e₁, a1, b1⟩ := pairing_spec hp₁ hg₁ n₁ ⟨m₁, t₁⟩
  obtain ⟨e₂, a2, b2⟩ := pairing_spec hp₂ hg₂ n₂ ⟨m₂, t₂⟩
  obtain ⟨c, a3, b3⟩ := compareTwoPairings_spec hp₁ hg₁ hp₂ hg₂ n₁ n₂ ⟨m₁, t₁⟩ ⟨m₂, t₂⟩
  refine ⟨e₁, e₂, c, a1, a2, a3, ?_⟩
  rw [b3, b1.out.2, b2.out.2]
  exact ⟨fun h => by rw [h], fun h => GT.ext h⟩

/-- Generators, with scalars 2 and 3. -/
example : G1Projective.one.Denotes g1Gen ∧ G2Projective.one.Denotes g2Gen ∧ r • g1Gen = 0 ∧ r • g2Gen = 0 ∧
    (2 : ℕ) • g1Gen ≠ 0 ∧ (3 : ℕ) • g2Gen ≠ 0 := by
  refine ⟨G1Projective.denotes_iff.mpr G1Affine.one_rep.toProjective,
    G2Projective.denotes_iff.mpr G2Affine.one_rep.toProjective, r_smul_g1Gen, r_smul_g2Gen, fun h => ?_,
    Ord.smul_ne ⟨g2Gen_ne_zero, r_smul_g2Gen⟩ (by norm_num) (by rw [r]; norm_num)⟩
  have := addOrderOf_dvd_iff_nsmul_eq_zero.mpr h
  rw [addOrderOf_g1Gen] at this
  exact absurd (Nat.le_of_dvd (by norm_num) this) (by rw [r]; norm_num)

/-! ## C33: non-degeneracy -/

/-- The pairing of two non-identity points of the prime-order subgroups is a primitive r-th root of unity. -/
theorem C33_nondegenerate (p : G1Projective) (g : G2Projective) (P : E1) (Q : E2) (hp : p.Denotes P) (hg : g.Denotes Q)
    (hP : r • P = 0) (hQ : r • Q = 0) (hP0 : P ≠ 0) (hQ0 : Q ≠ 0) :
    ∃ e, pairing p g = some (some e) ∧ e.isValid ∧ e.fld ≠ 1 ∧ e.fld ^ r = 1 := by
  obtain ⟨e, h1, h2⟩ := pairing_spec (G1Projective.denotes_iff.mp hp) (G2Projective.denotes_iff.mp hg) hP0 ⟨hQ0, hQ⟩
  refine ⟨e, h1, h2.out.1, ?_, ?_⟩
  · rw [h2.out.2, ← GT.val_one]
    exact fun h => ee_ne_one hP hQ hP0 hQ0 (GT.ext h)
  · rw [h2.out.2, ← GT.val_pow, ee_pow_r, GT.val_one]

/-- The pairing separates points: `CompareTwoPairings` on a common argument decides equality of the other. -/
theorem C33_separates (p₁ p₂ : G1Projective) (g₁ g₂ : G2Projective) (P₁ P₂ : E1) (Q₁ Q₂ : E2) (hp₁ : p₁.Denotes P₁)
    (hg₁ : g₁.Denotes Q₁) (hp₂ : p₂.Denotes P₂) (hg₂ : g₂.Denotes Q₂) (n₁ : P₁ ≠ 0) (n₂ : P₂ ≠ 0) (m₁ : Q₁ ≠ 0)
    (m₂ : Q₂ ≠ 0) (s₁ : r • P₁ = 0) (s₂ : r • P₂ = 0) (t₁ : r • Q₁ = 0) (t₂ : r • Q₂ = 0) :
    (P₁ = P₂ → (compareTwoPairings p₁ g₁ p₂ g₂ = some true ↔ Q₁ = Q₂)) ∧
    (Q₁ = Q₂ → (compareTwoPairings p₁ g₁ p₂ g₂ = some true ↔ P₁ = P₂)) := by
  obtain ⟨c, a3, b3⟩ := compareTwoPairings_spec (G1Projective.denotes_iff.mp hp₁) (G2Projective.denotes_iff.mp hg₁)
    (G1Projective.denotes_iff.mp hp₂) (G2Projective.denotes_iff.mp hg₂) n₁ n₂ ⟨m₁, t₁⟩ ⟨m₂, t₂⟩
  rw [a3, Option.some_inj, b3]
  refine ⟨fun h => ⟨fun e => ?_, fun e => by rw [h, e]⟩, fun h => ⟨fun e => ?_, fun e => by rw [h, e]⟩⟩
  · rw [h] at e; exact ee_right_inj s₂ t₁ t₂ n₂ e
  · rw [h] at e; exact ee_left_inj s₁ s₂ t₂ m₂ e

/-- Two pairs with the first point in common and the second not. -/
example : G1Projective.one.Denotes g1Gen ∧ G2Projective.one.Denotes g2Gen ∧ G2Affine.one.neg.toProjective.Denotes (-g2Gen) ∧
    g2Gen ≠ -g2Gen ∧ r • -g2Gen = 0 := by
  have h := G2Affine.one_rep.toProjective
  refine ⟨G1Projective.denotes_iff.mpr G1Affine.one_rep.toProjective, G2Projective.denotes_iff.mpr h,
    G2Projective.denotes_iff.mpr G2Affine.one_rep.neg.toProjective, fun e => ?_, by rw [neg_nsmul, r_smul_g2Gen, neg_zero]⟩
  have h2 : (2 : ℕ) • g2Gen = 0 := by rw [two_nsmul]; nth_rw 2 [e]; exact add_neg_cancel _
  have := addOrderOf_dvd_iff_nsmul_eq_zero.mpr h2
  rw [addOrderOf_g2Gen, r_eq] at this
  exact absurd this (by decide +kernel)

/-! ## C34: infinity -/

/-- With a point at infinity as argument, `Pairing` and `CompareTwoPairings` always panic. -/
theorem C34_panics (p : G1Projective) (g : G2Projective) (P : E1) (Q : E2) (hp : p.Denotes P) (hg : g.Denotes Q)
    (h : P = 0 ∨ Q = 0) : pairing p g = none ∧
    ∀ (p' : G1Projective) (g' : G2Projective) (P' : E1) (Q' : E2), p'.Denotes P' → g'.Denotes Q' →
      compareTwoPairings p g p' g' = none ∧ compareTwoPairings p' g' p g = none := by
  rw [G1Projective.denotes_iff] at hp
  rw [G2Projective.denotes_iff] at hg
  refine ⟨pairing_none hp hg h, fun p' g' P' Q' hp' hg' => ?_⟩
  rw [G1Projective.denotes_iff] at hp'
  rw [G2Projective.denotes_iff] at hg'
  constructor
  · apply compareTwoPairings_none hp hg hp' hg'
    rcases h with h | h
    · exact Or.inl h
    · exact Or.inr (Or.inr (Or.inl h))
  · apply compareTwoPairings_none hp' hg' hp hg
    rcases h with h | h
    · exact Or.inr (Or.inl h)
    · exact Or.inr (Or.inr (Or.inr h))

/-- So the claim that they return the neutral element is false. -/
theorem C34_infinity_false : ¬ ∀ (p : G1Projective) (g : G2Projective) (P : E1) (Q : E2), p.Denotes P → g.Denotes Q →
    r • P = 0 → r • Q = 0 → (P = 0 ∨ Q = 0) → ∃ e, pairing p g = some (some e) ∧ e.fld = 1 := by
  intro hall
  have h1 := G1Projective.denotes_iff.mpr G1Projective.Rep.zero
  have h2 := G2Projective.denotes_iff.mpr G2Affine.one_rep.toProjective
  obtain ⟨e, h, _⟩ := hall _ _ _ _ h1 h2 (nsmul_zero _) r_smul_g2Gen (Or.inl rfl)
  rw [(C34_panics _ _ _ _ h1 h2 (Or.inl rfl)).1] at h
  cases h

/-! ## C48: group orders -/

/-- The numbers of points of the two curves, with the library's cofactors. -/
theorem C48_orders : Nat.card E1 = G1Affine.cofactor.toNat * r ∧ Nat.card E2 = G2Affine.cofactor * r ∧ Nat.Prime r := by
  refine ⟨?_, ?_, r_prime⟩
  · rw [E1.card, h1]; congr 1
  · rw [E2.card, h2]; congr 1; unfold G2Affine.cofactor; decide +kernel

/-- The r-torsion subgroups are cyclic of order r, generated by `G1AffineOne` and `G2AffineOne`. -/
theorem C48_cyclic :
    (∃ G : E1, G1Affine.one.Denotes G ∧ addOrderOf G = r ∧ ∀ P : E1, r • P = 0 ↔ ∃ k : ℕ, k < r ∧ P = k • G) ∧
    (∃ G : E2, G2Affine.one.Denotes G ∧ addOrderOf G = r ∧ ∀ P : E2, r • P = 0 ↔ ∃ k : ℕ, k < r ∧ P = k • G) := by
  have key : ∀ {A : Type} [AddCommGroup A] {G : A}, addOrderOf G = r → (∀ P : A, r • P = 0 → ∃ k : ℕ, P = k • G) →
      ∀ P : A, r • P = 0 ↔ ∃ k : ℕ, k < r ∧ P = k • G := by
    intro A _ G ho ht P
    constructor
    · intro h
      obtain ⟨k, rfl⟩ := ht P h
      refine ⟨k % r, Nat.mod_lt _ r_prime.pos, ?_⟩
      rw [← ho, mod_addOrderOf_nsmul]
    · rintro ⟨k, _, rfl⟩
      rw [nsmul_left_comm, ← ho, addOrderOf_nsmul_eq_zero, nsmul_zero]
  exact ⟨⟨g1Gen, G1Affine.denotes_iff.mpr G1Affine.one_rep, addOrderOf_g1Gen, key addOrderOf_g1Gen fun _ => E1.torsion⟩,
    ⟨g2Gen, G2Affine.denotes_iff.mpr G2Affine.one_rep, addOrderOf_g2Gen, key addOrderOf_g2Gen fun _ => E2.torsion⟩⟩

/-- `IsInCorrectSubgroupAssumingOnCurve` accepts exactly the multiples of the generators. -/
theorem C48_subgroup :
    (∃ G : E1, G1Affine.one.Denotes G ∧ ∀ (a : G1Affine) (P : E1), a.Denotes P →
      (a.isInCorrectSubgroup = true ↔ ∃ k : ℕ, P = k • G)) ∧
    (∃ G : E2, G2Affine.one.Denotes G ∧ ∀ (a : G2Affine) (P : E2), a.Denotes P →
      (a.isInCorrectSubgroup = true ↔ ∃ k : ℕ, P = k • G)) := by
  refine ⟨⟨g1Gen, G1Affine.denotes_iff.mpr G1Affine.one_rep, fun a P h => ?_⟩,
    ⟨g2Gen, G2Affine.denotes_iff.mpr G2Affine.one_rep, fun a P h => ?_⟩⟩
  · rw [(G1Affine.denotes_iff.mp h).isInCorrectSubgroup]
    refine ⟨E1.torsion, ?_⟩
    rintro ⟨k, rfl⟩
    rw [nsmul_left_comm, r_smul_g1Gen, nsmul_zero]
  · rw [(G2Affine.denotes_iff.mp h).isInCorrectSubgroup]
    refine ⟨E2.torsion, ?_⟩
    rintro ⟨k, rfl⟩
    rw [nsmul_left_comm, r_smul_g2Gen, nsmul_zero]

end Bls.Props
