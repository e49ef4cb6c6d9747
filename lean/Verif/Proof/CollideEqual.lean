import Verif.Proof.AnyCurveInv
import Verif.Proof.Collide
import Verif.Proof.Flex
/-
`HashG1` where the two mapped points are equal. `AddAffine` doubles by the formulas of `y² = x³ + c`, so the sum is on the
curve of that kind through the point, which meets E1' in no other point (Verif/Proof/Flex.lean); the isogeny maps it off E1, and clearing the cofactor
stays on the curve it starts on.
-/
set_option exponentiation.threshold 1000
set_option maxRecDepth 4000
namespace Bls.Collide

theorem sum_equal {a b : G1Affine} {x y : Fq} (ha : a.At x y) (hb : b.At x y) (hy : y ≠ 0) :
    ∃ x' y', (a.toProjective.addAffine b).toAffine.At x' y' ∧ y' ^ 2 = x' ^ 3 + (y ^ 2 - x ^ 3) ∧
      (x' = x ↔ x * (3 * x ^ 3 - 4 * y ^ 2) = 0) ∧ (x' = x → y' = -y) := by
  obtain ⟨ai, ax, ay⟩ := ha
  obtain ⟨bi, bx, byy⟩ := hb
  have h1 := FQ.one_rep
  have hz1 : FQ.one.isZero = false := by
    rw [Bool.eq_false_iff]; exact fun e => one_ne_zero (h1.isZero.mp e)
  have u2 := bx.mul h1.square
  have s2 := (byy.mul h1).mul h1.square
  have ep : a.toProjective = ⟨a.x, a.y, FQ.one⟩ := by
    unfold G1Affine.toProjective G1Affine.isZero; rw [if_neg (by rw [ai]; decide)]
  have he : (a.x.equals (b.x.mul FQ.one.square) && a.y.equals ((b.y.mul FQ.one).mul FQ.one.square)) = true := by
    rw [Bool.and_eq_true]
    exact ⟨(ax.equals u2).mpr (by ring), (ay.equals s2).mpr (by ring)⟩
  rw [ep]
  unfold G1Projective.addAffine
  rw [if_neg (by rw [G1Projective.isZero, hz1]; decide), if_neg (by rw [G1Affine.isZero, bi]; decide)]
  dsimp only
  rw [if_pos he]
  unfold G1Projective.double
  rw [if_neg (by rw [G1Projective.isZero, hz1]; decide)]
  dsimp only
  have aa := ax.square
  have bb := ay.square
  have cc := bb.square
  have d := (((ax.add bb).square.sub aa).sub cc).double
  have e := aa.double.add aa
  have f := e.square
  have nz := (h1.mul ay).double
  have nx := (f.sub d).sub d
  have ny := ((d.sub nx).mul e).sub cc.double.double.double
  have n2 : (2 : Fq) ≠ 0 := Fq.two_ne
  have hz : 1 * y + 1 * y ≠ 0 := by
    intro t
    exact mul_ne_zero n2 hy (by linear_combination t)
  unfold G1Projective.toAffine
  rw [G1Projective.isZero, if_neg (fun t => hz (nz.isZero.mp t)), if_neg (fun t => hz (nz.isZero.mp t))]
  have hi := nz.inverse
  rw [show 1 * y + 1 * y = 2 * y from by ring] at hi
  have n3 : (3 : Fq) ≠ 0 := (inferInstance : GoodCurve (4 : Fq)).three_ne
  refine ⟨(9 * x ^ 4 - 8 * x * y ^ 2) / (4 * y ^ 2),
    (3 * x ^ 2 * (12 * x * y ^ 2 - 9 * x ^ 4) - 8 * y ^ 4) / (8 * y ^ 3),
    ⟨rfl, (nx.mul hi.square).of_eq ?_, ((ny.mul hi.square).mul hi).of_eq ?_⟩, ?_, ?_, ?_⟩
  · rw [show (4 : Fq) * y ^ 2 = (2 * y) ^ 2 by ring, mul_inv, div_eq_mul_inv, ← inv_pow, mul_inv]
    ring
  · rw [show (8 : Fq) * y ^ 3 = (2 * y) ^ 3 by ring, mul_inv, div_eq_mul_inv, ← inv_pow, mul_inv]
    ring
  · rw [show (8 : Fq) * y ^ 3 = (2 * y) ^ 3 by ring, show (4 : Fq) * y ^ 2 = (2 * y) ^ 2 by ring]
    field_simp
    ring
  · rw [div_eq_iff (mul_ne_zero (by rw [show (4 : Fq) = 2 * 2 by norm_num]; exact mul_ne_zero n2 n2) (pow_ne_zero _ hy))]
    constructor
    · intro t
      have : 3 * (x * (3 * x ^ 3 - 4 * y ^ 2)) = 0 := by linear_combination t
      exact (mul_eq_zero.mp this).resolve_left n3
    · intro t
      linear_combination 3 * t
  · rw [div_eq_iff (mul_ne_zero (by rw [show (4 : Fq) = 2 * 2 by norm_num]; exact mul_ne_zero n2 n2) (pow_ne_zero _ hy)),
      div_eq_iff (mul_ne_zero (by rw [show (8 : Fq) = 2 * (2 * 2) by norm_num]; exact mul_ne_zero n2 (mul_ne_zero n2 n2)) (pow_ne_zero _ hy))]
    intro t
    linear_combination -3 * x ^ 2 * t

/-- E1 has no point of order 2. -/
theorem no_two (X : Fq) : X ^ 3 + 4 ≠ 0 := by
  intro h
  have on : (0 : Fq) ^ 2 = X ^ 3 + 4 := by rw [h]; ring
  have hP := pt_isAt on
  set P : E1 := pt X 0 on
  have h2 : 2 • P = 0 := by
    rw [two_nsmul]
    have e : -P = P := hP.neg.inj (by rw [neg_zero]; exact hP)
    nth_rewrite 1 [← e]
    exact neg_add_cancel P
  have hc := E1.exponent P
  rw [r_eq] at hc
  rw [← addOrderOf_dvd_iff_nsmul_eq_zero] at h2 hc
  have g := Nat.dvd_gcd h2 hc
  have : Nat.gcd 2 ((blsU + 1) * rLit) = 1 := by decide +kernel
  rw [this, Nat.dvd_one, AddMonoid.addOrderOf_eq_one_iff] at g
  exact hP.ne_zero g

/-- The isogeny's formulas map pairs that are not on E1' to pairs that are not on E1. -/
theorem iso11_off {a : G1Affine} {x y : Fq} (h : a.At x y) (hn : y ^ 2 ≠ weier (swuA1 : Fq) swuB1 x) :
    ∃ c : Fq, c ≠ 4 ∧ (iso11 a).InvOn c := by
  obtain ⟨r1, r2, r3⟩ := iso11_raw h.2.1 h.2.2
  refine ⟨_, ?_, Or.inr ⟨r1, _, _, r2, r3, (add_sub_cancel _ _).symm⟩⟩
  intro e
  by_cases hd : polyAt iso11Map.xDen x = 0
  · have hd2 : polyAt iso11Map.yDen x = 0 := by
      have := iso11_den x
      rw [hd] at this
      exact pow_eq_zero_iff (n := 2) (by norm_num) |>.mp (this.trans (by norm_num))
    rw [hd, hd2, div_zero, div_zero] at e
    exact (GoodCurve.b_ne : (4 : Fq) ≠ 0) (by linear_combination -e)
  · have hd2 : polyAt iso11Map.yDen x ≠ 0 := by
      intro e; have := iso11_den x; rw [e] at this
      exact hd (pow_eq_zero_iff (n := 3) (by norm_num) |>.mp (by rw [← this]; ring))
    rw [div_pow, div_pow, iso11_den] at e
    have k := iso11_num x
    have : polyAt iso11Map.yNum x ^ 2 * (y ^ 2 - weier (swuA1 : Fq) swuB1 x) = 0 := by
      field_simp at e
      linear_combination e - k
    rcases mul_eq_zero.mp this with t | t
    · rw [t, zero_mul] at k
      refine no_two (polyAt iso11Map.xNum x / polyAt iso11Map.xDen x) ?_
      rw [div_pow]
      field_simp
      linear_combination -k
    · exact hn (sub_eq_zero.mp t)

theorem clearH_inv {a : G1Affine} {c : Fq} (h : a.InvOn c) : (clearH a).InvOn c := by
  unfold clearH
  exact ((G1Projective.InvOn.mulAffine h _).addAffine h).toAffine

theorem hashG1_same {sha : List UInt8 → List UInt8} {msg : List UInt8} {P : E1'.Point} {x y : Fq}
    (hP : Swu1 (hashToField sha (1 :: msg) 0 1 : Fq) P) (hQ : Swu1 (hashToField sha (1 :: msg) 1 1 : Fq) P)
    (hx : SwAt P x y) (hy : y ≠ 0) :
    ∃ (a : G1Affine) (x' y' : Fq), hashG1 sha msg = some (clearH (iso11 a)) ∧ a.At x' y' ∧
      y' ^ 2 = x' ^ 3 + (y ^ 2 - x ^ 3) ∧ (x' = x ↔ x * (3 * x ^ 3 - 4 * y ^ 2) = 0) ∧ (x' = x → y' = -y) := by
  obtain ⟨t, h1, h1'⟩ := hp_spec sha (cipherSuite :: msg) 0
  obtain ⟨s, h2, h2'⟩ := hp_spec sha (cipherSuite :: msg) 1
  rw [hashG1_eq h1 h2]
  rw [cipherSuite_eq] at h1' h2'
  obtain ⟨p, x₁, y₁, k1, k1a, hs1⟩ := optimizedSWUMapHelper_spec h1'
  obtain ⟨p', x₂, y₂, k2, k2a, hs2⟩ := optimizedSWUMapHelper_spec h2'
  obtain ⟨x₁', y₁', hP, hs1'⟩ := hP
  obtain ⟨x₂', y₂', hQ, hs2'⟩ := hQ
  obtain ⟨rfl, rfl⟩ := hs1.unique (fun y hy => Fq.isNeg_neg hy) hs1'
  obtain ⟨rfl, rfl⟩ := hs2.unique (fun y hy => Fq.isNeg_neg hy) hs2'
  obtain ⟨rfl, rfl⟩ := hx.coord hP
  obtain ⟨rfl, rfl⟩ := hx.coord hQ
  rw [optimizedSWUMap, k1, k2]
  obtain ⟨x', y', g1, g2, g3, g4⟩ := sum_equal k1a k2a hy
  exact ⟨_, x', y', rfl, g1, g2, g3, g4⟩

/-- Equal mapped points: infinity, or off the curve. -/
theorem hashG1_same_off {sha : List UInt8 → List UInt8} {msg : List UInt8} {P : E1'.Point}
    (hP : Swu1 (hashToField sha (1 :: msg) 0 1 : Fq) P) (hQ : Swu1 (hashToField sha (1 :: msg) 1 1 : Fq) P) :
    ∃ g, hashG1 sha msg = some g ∧ (g.isOnCurve = true ↔ g = G1Affine.zero) := by
  obtain ⟨x, y, hx, hs⟩ := hP
  have hP : Swu1 (hashToField sha (1 :: msg) 0 1 : Fq) P := ⟨x, y, hx, hs⟩
  by_cases hy : y = 0
  · refine ⟨_, hashG1_opposite hP hQ (hx.inj (y := y) (by have := hx.neg; rwa [hy, neg_zero, ← hy] at this)), ?_⟩
    rw [oC_off]
    refine iff_of_false (by decide) ?_
    intro e
    have := oC_off
    rw [e] at this
    exact absurd this (by decide)
  have on := hx.on
  unfold weier at on
  have hn : x * (3 * x ^ 3 - 4 * y ^ 2) ≠ 0 := by
    refine mul_ne_zero ?_ ?_
    · rintro rfl
      exact Flex.b_nonsquare ⟨y, by linear_combination -on⟩
    · intro e
      exact Flex.no_root x (by linear_combination -e - 4 * on)
  obtain ⟨a, x', y', h1, h2, h3, h4, _⟩ := hashG1_same hP hQ hx hy
  obtain ⟨c, hc, hi⟩ := iso11_off h2 (by
    intro e
    apply hn
    rw [← h4]
    unfold weier at e
    have : (swuA1 : Fq) * (x - x') = 0 := by linear_combination e - h3 - on
    exact (sub_eq_zero.mp ((mul_eq_zero.mp this).resolve_left swu1_A_ne)).symm)
  exact ⟨_, h1, (clearH_inv hi).isOnCurve hc⟩

end Bls.Collide
