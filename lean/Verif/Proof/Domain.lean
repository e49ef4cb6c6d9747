import Verif.Proof.SwEncode
import Verif.Proof.Stepanov
import Mathlib.Algebra.Polynomial.SpecificDegree
/-
`HashG2WithDomain`: the loop ends.
-/
set_option exponentiation.threshold 1000
open Polynomial
namespace Bls

theorem prime_not_sq_mul {R : Type*} [CommRing R] [IsDomain R] [WfDvdMonoid R] {G H K L : R} (hG : Prime G) (hH : ¬ G ∣ H)
    (h : K ^ 2 * (G * H) = L ^ 2) : K = 0 := by
  by_contra hK
  have hH0 : H ≠ 0 := fun e => hH (e ▸ dvd_zero G)
  have hL : L ≠ 0 := by
    rintro rfl
    rw [zero_pow two_ne_zero] at h
    exact mul_ne_zero (pow_ne_zero 2 hK) (mul_ne_zero hG.ne_zero hH0) h
  obtain ⟨m, A, hA, rfl⟩ := WfDvdMonoid.max_power_factor hK hG.irreducible
  obtain ⟨n, B, hB, rfl⟩ := WfDvdMonoid.max_power_factor hL hG.irreducible
  rcases Nat.lt_or_ge m n with hl | hl
  · obtain ⟨d, rfl⟩ := Nat.exists_eq_add_of_lt hl
    have e : A ^ 2 * H = G * (G ^ (2 * d) * B ^ 2) := by
      apply mul_left_cancel₀ (pow_ne_zero (2 * m + 1) hG.ne_zero)
      linear_combination h
    rcases hG.dvd_or_dvd (Dvd.intro _ e.symm) with h' | h'
    · exact hA (hG.dvd_of_dvd_pow h')
    · exact hH h'
  · obtain ⟨d, rfl⟩ := Nat.exists_eq_add_of_le hl
    have e : B ^ 2 = G * (G ^ (2 * d) * A ^ 2 * H) := by
      apply mul_left_cancel₀ (pow_ne_zero (2 * n) hG.ne_zero)
      linear_combination -h
    exact hB (hG.dvd_of_dvd_pow (Dvd.intro _ e.symm))

/-- The cubic `(X + β)³ + c`. -/
noncomputable def cubic (β c : Fq2) : Fq2[X] := (X + C β) ^ 3 + C c

theorem cubic_natDegree (β c : Fq2) : (cubic β c).natDegree = 3 := by
  unfold cubic
  compute_degree!

theorem cubic_monic (β c : Fq2) : (cubic β c).Monic := by
  unfold cubic
  monicity!

theorem cubic_prime (β : Fq2) : Prime (cubic β b2) := by
  refine Irreducible.prime ?_
  have hd := cubic_natDegree β b2
  rw [irreducible_iff_roots_eq_zero_of_degree_le_three (by omega) (by omega)]
  rw [Multiset.eq_zero_iff_forall_notMem]
  intro a ha
  have := (mem_roots'.mp ha).2
  rw [IsRoot, cubic] at this
  simp only [eval_add, eval_pow, eval_X, eval_C] at this
  exact E2.y_ne_zero (x := a + β) (by rw [this]; ring)

theorem cubic_not_dvd (b : Fq) : ¬ cubic (Fq2.of b * Fq2.u) b2 ∣ cubic (-(Fq2.of b * Fq2.u)) (Fq2.conj b2) := by
  intro h
  have e := eq_of_monic_of_dvd_of_natDegree_le (cubic_monic _ _) (cubic_monic _ _) h
    (by rw [cubic_natDegree, cubic_natDegree])
  have e0 := congrArg (eval 0) e
  have e1 := congrArg (eval 1) e
  simp only [cubic, eval_add, eval_pow, eval_X, eval_C, zero_add] at e0 e1
  have h2 : (2 : Fq2) ≠ 0 := GoodCurve.two_ne (b := b2)
  have h3 : (3 : Fq2) ≠ 0 := GoodCurve.three_ne (b := b2)
  have hb : Fq2.of b * Fq2.u = 0 := by
    have : (2 * 3 : Fq2) * (Fq2.of b * Fq2.u) = 0 := by linear_combination e0 - e1
    exact (mul_eq_zero.mp this).resolve_left (mul_ne_zero h2 h3)
  rw [hb] at e0
  have hc : b2 = Fq2.conj b2 := by linear_combination -e0
  have hc1 : (4 : Fq) = -4 := congrArg Fq2.c1 hc
  have h2' : (2 : Fq) ≠ 0 := GoodCurve.two_ne (b := (4 : Fq))
  exact mul_ne_zero (mul_ne_zero h2' h2') h2' (by linear_combination hc1)

/-- The norm of `(X + bu)³ + b2`. -/
noncomputable def normPoly (b : Fq) : Fq[X] :=
  (X ^ 3 - 3 * C b ^ 2 * X + 4) ^ 2 + (3 * C b * X ^ 2 - C b ^ 3 + 4) ^ 2

theorem normPoly_natDegree (b : Fq) : (normPoly b).natDegree ≤ 6 := by
  unfold normPoly
  compute_degree

theorem normPoly_eval (a b : Fq) : (normPoly b).eval a = Fq2.nrm ((⟨a, b⟩ : Fq2) ^ 3 + b2) := by
  have e : (⟨a, b⟩ : Fq2) ^ 3 + b2 = ⟨a ^ 3 - 3 * b ^ 2 * a + 4, 3 * b * a ^ 2 - b ^ 3 + 4⟩ := by
    ext <;> simp [b2, pow_succ] <;> ring
  rw [e, Fq2.nrm_eq]
  simp only [normPoly, eval_add, eval_sub, eval_mul, eval_pow, eval_X, eval_C, eval_ofNat]
  ring

theorem normPoly_map (b : Fq) : (normPoly b).map Fq2.of =
    cubic (Fq2.of b * Fq2.u) b2 * cubic (-(Fq2.of b * Fq2.u)) (Fq2.conj b2) := by
  have hb : b2 = 4 + 4 * Fq2.u := by rw [b2_eq]; ring
  have hc : Fq2.conj b2 = 4 - 4 * Fq2.u := by
    have h4 : (4 : Fq2) = Fq2.of 4 := by rw [map_ofNat]
    rw [h4]
    ext1 <;> simp [b2, Fq2.u, Fq2.conj]
  have hu := Fq2.u_sq
  have hu' : (C Fq2.u : Fq2[X]) ^ 2 = -1 := by rw [← C_pow, hu]; simp
  rw [hc, hb]
  simp only [cubic, normPoly, Polynomial.map_add, Polynomial.map_sub, Polynomial.map_mul, Polynomial.map_pow, map_X, map_C,
    Polynomial.map_ofNat, C_neg, C_mul, C_add, C_sub, map_ofNat]
  generalize (C Fq2.u : Fq2[X]) = U at *
  generalize (C (Fq2.of b) : Fq2[X]) = B at *
  have h := hu'
  linear_combination (-3 * X * B ^ 2 * ((X ^ 3 - 3 * B ^ 2 * X + 4) + (X ^ 3 + 3 * X * B ^ 2 * U ^ 2 + 4)) -
    B ^ 3 * ((3 * B * X ^ 2 - B ^ 3 + 4) + (3 * X ^ 2 * B + B ^ 3 * U ^ 2 + 4)) +
    (3 * X ^ 2 * B + B ^ 3 * U ^ 2 + 4) ^ 2) * h

theorem Fq2.of_isSquare (a : Fq) : IsSquare (Fq2.of a) := by
  rw [Fq2.isSquare_iff]
  refine ⟨a, ?_⟩
  rw [Fq2.nrm_eq]
  change a * a + 0 * 0 = a * a
  ring

theorem normPoly_not_square (b : Fq) (k0 k1 : Fq[X]) (h : k0 ^ 2 * normPoly b = C ((normPoly b).eval 0) * k1 ^ 2) :
    k0 = 0 ∧ k1 = 0 := by
  have hk0 : k0 = 0 := by
    obtain ⟨s, hs⟩ := Fq2.of_isSquare ((normPoly b).eval 0)
    have e := congrArg (Polynomial.map Fq2.of) h
    simp only [Polynomial.map_mul, Polynomial.map_pow, map_C, normPoly_map, hs, C_mul] at e
    have e2 := prime_not_sq_mul (L := C s * k1.map Fq2.of) (cubic_prime _) (cubic_not_dvd b) (by rw [e]; ring)
    exact (Polynomial.map_eq_zero Fq2.of).mp e2
  refine ⟨hk0, ?_⟩
  rw [hk0, zero_pow two_ne_zero, zero_mul, eq_comm, mul_eq_zero] at h
  rcases h with h | h
  · exfalso
    rw [C_eq_zero, normPoly_eval, Fq2.nrm_eq_zero] at h
    exact E2.y_ne_zero (x := ⟨0, b⟩) (by rw [h]; ring)
  · exact pow_eq_zero_iff two_ne_zero |>.mp h

/-- On every line of the plane `Fq2` parallel to `Fq` there is the x-coordinate of a point of E2. -/
theorem exists_on_curve (b : Fq) : ∃ a : Fq, IsSquare ((⟨a, b⟩ : Fq2) ^ 3 + b2) := by
  obtain ⟨a, ha⟩ := Stepanov.exists_square (p := q) (normPoly_natDegree b) (by rw [q_eq]; decide +kernel) (normPoly_not_square b)
  exact ⟨a, by rw [Fq2.isSquare_iff, ← normPoly_eval]; exact ha⟩

theorem exists_step (x : Fq2) : ∃ k < q, IsSquare ((x + (k : ℕ)) ^ 3 + b2) := by
  obtain ⟨a, ha⟩ := exists_on_curve x.c1
  refine ⟨(a - x.c0).val, ZMod.val_lt _, ?_⟩
  have e : x + ((a - x.c0).val : ℕ) = ⟨a, x.c1⟩ := by
    rw [← map_natCast Fq2.of, ZMod.natCast_zmod_val]
    ext1
    · change x.c0 + (a - x.c0) = a; ring
    · change x.c1 + 0 = x.c1; ring
  rw [e]
  exact ha

theorem scaleByCofactor_rep {a : G2Affine} {P : E2} (h : a.Rep P) : a.scaleByCofactor.Rep (h2 • P) := by
  have h' := h.mulBig G2Affine.cofactor
  have e : G2Affine.cofactor = h2 := by rw [h2]; unfold G2Affine.cofactor; decide +kernel
  rw [e] at h'
  unfold G2Affine.scaleByCofactor
  rw [e]
  exact h'

theorem domainLoop_spec : ∀ (fuel : ℕ) {x0 : FQ2} {x : Fq2}, x0.Rep x →
    (∃ k < fuel, IsSquare ((x + (k : ℕ)) ^ 3 + b2)) →
    ∃ (g : G2Projective) (P : E2) (k : ℕ) (y : Fq2), k < fuel ∧ domainLoop fuel x0 = some g ∧ g.Rep (h2 • P) ∧
      IsAt P (x + (k : ℕ)) y ∧ Fq2.Greater y (-y) ∧ ∀ j < k, ¬ IsSquare ((x + (j : ℕ)) ^ 3 + b2) := by
  intro fuel
  induction fuel with
  | zero => rintro x0 x _ ⟨k, hk, _⟩; omega
  | succ fuel ih =>
    intro x0 x hx hex
    have hg := ((hx.square.mul hx).add bCoeffFQ2_rep).of_eq (show x * x * x + b2 = x ^ 3 + b2 by ring)
    rw [domainLoop]
    change FQ2.Rep (domainG x0) _ at hg
    generalize domainG x0 = gx at *
    by_cases hs : IsSquare (x ^ 3 + b2)
    · obtain ⟨h1, s, h2, h3⟩ := hg.sqrt.1 hs
      rw [if_pos h1]
      have hy : ∃ y, (domainY gx.sqrt.1).Rep y ∧
          y ^ 2 = x ^ 3 + b2 ∧ Fq2.Greater y (-y) := by
        have hp := h2.parity
        have hn := h2.neg
        generalize gx.sqrt.1 = z at *
        unfold domainY
        by_cases c : Fq2.Greater s (-s)
        · rw [if_pos (hp.mpr c)]
          exact ⟨s, h2, by rw [sq, h3], c⟩
        · rw [if_neg (fun h => c (hp.mp h))]
          refine ⟨-s, hn, by rw [neg_sq, sq, h3], ?_⟩
          have hs0 : s ≠ 0 := by
            rintro rfl
            exact E2.y_ne_zero (x := x) (by rw [← h3]; ring)
          rw [neg_neg]
          exact (Fq2.Greater.total (ne_neg_self (b := b2) hs0)).resolve_left c
      obtain ⟨y, g1, g2, g3⟩ := hy
      have hpt := pt_isAt g2
      refine ⟨_, pt x y g2, 0, y, by omega, rfl, scaleByCofactor_rep (Or.inr ⟨rfl, x, y, hx, g1, hpt⟩), ?_, g3,
        fun j hj => absurd hj (by omega)⟩
      rw [Nat.cast_zero, add_zero]
      exact hpt
    · rw [if_neg (by rw [(hg.sqrt.2 hs).1]; exact Bool.false_ne_true)]
      have hs0 : ∀ j : ℕ, (x + 1 + (j : Fq2)) = x + ((j + 1 : ℕ) : Fq2) := fun j => by push_cast; ring
      obtain ⟨g, P, k, y, hk, g1, g2, g3, g4, g5⟩ := ih (hx.add FQ2.one_rep) (by
        obtain ⟨k, hk, h⟩ := hex
        rcases k with _ | k
        · rw [Nat.cast_zero, add_zero] at h; exact absurd h hs
        · exact ⟨k, by omega, by rw [hs0]; exact h⟩)
      refine ⟨g, P, k + 1, y, by omega, g1, g2, by rw [← hs0]; exact g3, g4, ?_⟩
      intro j hj
      rcases j with _ | j
      · rw [Nat.cast_zero, add_zero]; exact hs
      · rw [← hs0]; exact g5 j (by omega)

theorem os2ip_lt {b : List UInt8} : os2ip b < 256 ^ b.length := by
  unfold os2ip
  have := Nat.ofDigits_lt_base_pow_length (b := 256) (l := b.reverse.map UInt8.toNat) (by norm_num) (by
    intro x hx
    obtain ⟨y, _, rfl⟩ := List.mem_map.mp hx
    exact UInt8.toNat_lt y)
  simpa using this

theorem hashG2WithDomain_spec (sha : List UInt8 → List UInt8) (hsha : ∀ m, (sha m).length = 32) (m d : List UInt8) :
    ∃ (g : G2Projective) (P : E2) (k : ℕ) (y : Fq2), k < q ∧ hashG2WithDomain sha m d = some g ∧ g.Rep (h2 • P) ∧
      IsAt P (⟨(os2ip (sha (m ++ d ++ [1])) : Fq), (os2ip (sha (m ++ d ++ [2])) : Fq)⟩ + (k : ℕ)) y ∧ Fq2.Greater y (-y) ∧
      ∀ j < k, ¬ IsSquare ((⟨(os2ip (sha (m ++ d ++ [1])) : Fq), (os2ip (sha (m ++ d ++ [2])) : Fq)⟩ + (j : ℕ)) ^ 3 + b2) := by
  have hlt : ∀ l, os2ip (sha l) < q := by
    intro l
    have h := os2ip_lt (b := sha l)
    rw [hsha] at h
    exact h.trans (by rw [q_eq]; decide +kernel)
  have hq := q_lt
  have h1 := reprOfBig_of_lt (n := os2ip (sha (m ++ d ++ [1]))) (by have := hlt (m ++ d ++ [1]); omega)
  have h2 := reprOfBig_of_lt (n := os2ip (sha (m ++ d ++ [2]))) (by have := hlt (m ++ d ++ [2]); omega)
  have hx : FQ2.Rep ⟨.ofRepr (.ofNat (os2ip (sha (m ++ d ++ [1])))), .ofRepr (.ofNat (os2ip (sha (m ++ d ++ [2]))))⟩
      ⟨(os2ip (sha (m ++ d ++ [1])) : Fq), (os2ip (sha (m ++ d ++ [2])) : Fq)⟩ :=
    ⟨fqHex_rep (hlt _), fqHex_rep (hlt _)⟩
  have e : qFieldModulus.toBig.toNat = q := by rw [qBig, Int.toNat_natCast]
  obtain ⟨g, P, k, y, hk, g1, g'⟩ := domainLoop_spec q hx (exists_step _)
  refine ⟨g, P, k, y, hk, ?_, g'⟩
  unfold hashG2WithDomain
  rw [bytesNat_eq, bytesNat_eq, h1, h2, Option.bind_some, Option.bind_some, e, g1]

end Bls
