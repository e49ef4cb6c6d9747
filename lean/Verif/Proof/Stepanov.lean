import Mathlib.NumberTheory.LegendreSymbol.Basic
import Mathlib.RingTheory.Polynomial.Basic
import Mathlib.LinearAlgebra.Dimension.Constructions
import Mathlib.FieldTheory.Finite.Basic
import Mathlib.LinearAlgebra.FiniteDimensional.Lemmas
import Mathlib.Tactic.LinearCombination
/-
Stepanov's method: a polynomial of degree at most 6 over a large prime field that is not a constant times a square
takes a square value. Used for the termination of the try-and-increment loop of `HashG2WithDomain`.
-/
open Polynomial

namespace Bls.Stepanov

variable {p : ℕ} [Fact p.Prime]
local notation "K" => ZMod p

/-- On pairs `(k₀, k₁)` standing for `k₀ + k₁F`, `F = f ^ c`: the operator `f · d/dX`. -/
noncomputable def T (f : K[X]) (c : ℕ) : (K[X] × K[X]) →ₗ[K] (K[X] × K[X]) where
  toFun k := (f * derivative k.1, f * derivative k.2 + (c : K[X]) * derivative f * k.2)
  map_add' a b := by
    ext1 <;> simp only [Prod.fst_add, Prod.snd_add, derivative_add] <;> ring
  map_smul' s a := by
    ext1 <;> simp only [Prod.smul_fst, Prod.smul_snd, derivative_smul, RingHom.id_apply, mul_smul_comm, smul_add]

/-- `Σⱼ (k_{j0} + k_{j1}F) X^{jp}` -/
noncomputable def R (F : K[X]) (k : Fin 4 → K[X] × K[X]) : K[X] := ∑ j, ((k j).1 + (k j).2 * F) * X ^ (j.val * p)

/-- `Σⱼ (k_{j0} - k_{j1}) X^j` -/
noncomputable def S : (Fin 4 → K[X] × K[X]) →ₗ[K] K[X] where
  toFun k := ∑ j, ((k j).1 - (k j).2) * X ^ j.val
  map_add' a b := by
    rw [← Finset.sum_add_distrib]
    refine Finset.sum_congr rfl fun j _ => ?_
    simp only [Pi.add_apply, Prod.fst_add, Prod.snd_add]; ring
  map_smul' s a := by
    rw [RingHom.id_apply, Finset.smul_sum]
    refine Finset.sum_congr rfl fun j _ => ?_
    simp only [Pi.smul_apply, Prod.smul_fst, Prod.smul_snd, ← smul_sub, smul_mul_assoc]

theorem derivative_Xp (j : ℕ) : derivative ((X : K[X]) ^ (j * p)) = 0 := by
  rw [derivative_X_pow]
  simp

theorem D_F (f : K[X]) (c : ℕ) (hc : 0 < c) : f * derivative (f ^ c) = (c : K[X]) * derivative f * f ^ c := by
  obtain ⟨c, rfl⟩ := Nat.exists_eq_add_of_lt hc
  rw [derivative_pow, zero_add, Nat.add_sub_cancel, pow_succ]
  simp only [map_natCast]
  ring

theorem D_R (f : K[X]) (c : ℕ) (hc : 0 < c) (k : Fin 4 → K[X] × K[X]) :
    f * derivative (R (f ^ c) k) = R (f ^ c) (fun j => T f c (k j)) := by
  unfold R
  rw [derivative_sum, Finset.mul_sum]
  refine Finset.sum_congr rfl fun j _ => ?_
  have h := D_F f c hc
  rw [derivative_mul, derivative_Xp, mul_zero, add_zero, derivative_add, derivative_mul]
  simp only [T, LinearMap.coe_mk, AddHom.coe_mk]
  linear_combination (k j).2 * X ^ (j.val * p) * h

theorem iter_D (f : K[X]) (c : ℕ) (hc : 0 < c) (k : Fin 4 → K[X] × K[X]) (i : ℕ) :
    (fun P => f * derivative P)^[i] (R (f ^ c) k) = R (f ^ c) (fun j => (T f c ^ i) (k j)) := by
  induction i with
  | zero => simp
  | succ i ih =>
    rw [Function.iterate_succ_apply', ih, D_R f c hc]
    simp only [pow_succ', Module.End.mul_apply]

theorem eval_R {F : K[X]} {a : K} (hF : F.eval a = -1) (k : Fin 4 → K[X] × K[X]) :
    (R F k).eval a = (S k).eval a := by
  simp only [R, S, LinearMap.coe_mk, AddHom.coe_mk, eval_finsetSum, eval_mul, eval_add, eval_sub, eval_pow, eval_X, hF]
  refine Finset.sum_congr rfl fun j _ => ?_
  rw [mul_comm j.val p, pow_mul, ZMod.pow_card]
  ring

/-- Vanishing to order `M` from `M` applications of the operator. -/
theorem order_of_iter {f : K[X]} {a : K} (hf : f.eval a ≠ 0) : ∀ (M : ℕ), M ≤ p → ∀ (P : K[X]),
    (∀ i < M, ((fun P => f * derivative P)^[i] P).eval a = 0) → (X - C a) ^ M ∣ P := by
  intro M
  induction M with
  | zero => intro _ P _; simp
  | succ M ih =>
    intro hM P h
    obtain ⟨Q, hQ⟩ := ih (by omega) P fun i hi => h i (by omega)
    rcases Nat.eq_zero_or_pos M with rfl | h0
    · have := h 0 (by omega)
      simp only [Function.iterate_zero, id] at this
      rw [zero_add, pow_one]
      exact dvd_iff_isRoot.mpr this
    obtain ⟨Q', hQ'⟩ := ih (by omega) (f * derivative P) fun i hi => by
      rw [← Function.iterate_succ_apply (fun P => f * derivative P)]
      exact h (i + 1) (by omega)
    obtain ⟨m, rfl⟩ := Nat.exists_eq_add_of_lt h0
    rw [zero_add] at *
    have hx : (X - C a : K[X]) ^ m ≠ 0 := pow_ne_zero _ (X_sub_C_ne_zero a)
    have e : f * ((m + 1 : ℕ) : K[X]) * Q = (X - C a) * (Q' - f * derivative Q) := by
      apply mul_left_cancel₀ hx
      rw [hQ, derivative_mul, derivative_pow, Nat.add_sub_cancel] at hQ'
      simp only [derivative_sub, derivative_X, derivative_C, sub_zero, mul_one, map_natCast] at hQ'
      linear_combination hQ'
    have e2 := congrArg (eval a) e
    simp only [eval_mul, eval_sub, eval_X, eval_C, sub_self, zero_mul, eval_natCast, mul_eq_zero, hf, false_or] at e2
    have hm : ((m + 1 : ℕ) : K) ≠ 0 := by
      rw [Ne, ZMod.natCast_eq_zero_iff]
      exact fun hd => absurd (Nat.le_of_dvd (by omega) hd) (by omega)
    obtain ⟨Q2, hQ2⟩ := dvd_iff_isRoot.mpr (e2.resolve_left hm)
    exact ⟨Q2, by rw [hQ, hQ2]; ring⟩

/-- Too many zeros. -/
theorem eq_zero_of_orders {P : K[X]} {M : ℕ} (h : ∀ a, (X - C a) ^ M ∣ P) (hd : P.natDegree < M * p) : P = 0 := by
  by_contra h0
  have h1 : ∏ a : K, (X - C a) ^ M ∣ P := by
    refine Finset.prod_dvd_of_coprime ?_ fun a _ => h a
    intro a _ b _ hab
    exact (isCoprime_X_sub_C_of_isUnit_sub (sub_ne_zero.mpr hab).isUnit).pow
  have h2 := natDegree_le_of_dvd h1 h0
  rw [natDegree_prod_of_monic _ _ fun a _ => (monic_X_sub_C a).pow M] at h2
  simp only [natDegree_pow, natDegree_X_sub_C, mul_one, Finset.sum_const, Finset.card_univ, ZMod.card, smul_eq_mul] at h2
  rw [mul_comm] at h2
  omega

theorem T_degree {f : K[X]} (hf : f.natDegree ≤ 6) (c : ℕ) {k : K[X] × K[X]} {n : ℕ} (h1 : k.1.natDegree ≤ n)
    (h2 : k.2.natDegree ≤ n) : ((T f c k).1).natDegree ≤ n + 6 ∧ ((T f c k).2).natDegree ≤ n + 6 := by
  have d1 := natDegree_derivative_le k.1
  have d2 := natDegree_derivative_le k.2
  have d3 := natDegree_derivative_le f
  simp only [T, LinearMap.coe_mk, AddHom.coe_mk]
  constructor
  · refine (natDegree_mul_le).trans ?_
    omega
  · refine (natDegree_add_le _ _).trans (max_le ((natDegree_mul_le).trans (by omega)) ?_)
    refine (natDegree_mul_le).trans ?_
    have : ((c : K[X]) * derivative f).natDegree ≤ 6 := by
      refine (natDegree_mul_le).trans ?_
      rw [natDegree_natCast]
      omega
    omega

theorem T_pow_degree {f : K[X]} (hf : f.natDegree ≤ 6) (c : ℕ) {k : K[X] × K[X]} {n : ℕ} (h1 : k.1.natDegree ≤ n)
    (h2 : k.2.natDegree ≤ n) (i : ℕ) :
    (((T f c ^ i) k).1).natDegree ≤ n + 6 * i ∧ (((T f c ^ i) k).2).natDegree ≤ n + 6 * i := by
  induction i with
  | zero => simpa using ⟨h1, h2⟩
  | succ i ih =>
    rw [pow_succ', Module.End.mul_apply]
    have := T_degree hf c ih.1 ih.2
    rw [Nat.mul_succ, ← add_assoc]
    exact this

theorem S_degree {k : Fin 4 → K[X] × K[X]} {n : ℕ} (h : ∀ j, (k j).1.natDegree ≤ n ∧ (k j).2.natDegree ≤ n) :
    (S k).natDegree ≤ n + 3 := by
  simp only [S, LinearMap.coe_mk, AddHom.coe_mk]
  refine natDegree_sum_le_of_forall_le _ _ fun j _ => ?_
  refine (natDegree_mul_le).trans ?_
  rw [natDegree_X_pow]
  have := (natDegree_sub_le (k j).1 (k j).2).trans (max_le (h j).1 (h j).2)
  have := j.isLt
  omega

theorem R_degree {F : K[X]} {k : Fin 4 → K[X] × K[X]} {n d : ℕ} (hF : F.natDegree ≤ d)
    (h : ∀ j, (k j).1.natDegree ≤ n ∧ (k j).2.natDegree ≤ n) : (R F k).natDegree ≤ n + d + 3 * p := by
  refine natDegree_sum_le_of_forall_le _ _ fun j _ => ?_
  refine (natDegree_mul_le).trans ?_
  rw [natDegree_X_pow]
  have h1 := (natDegree_mul_le (p := (k j).2) (q := F)).trans (Nat.add_le_add (h j).2 hF)
  have h2 := (natDegree_add_le (k j).1 ((k j).2 * F)).trans (max_le ((h j).1.trans (by omega)) h1)
  have : j.val * p ≤ 3 * p := Nat.mul_le_mul_right p (by omega)
  omega

/-- The unknowns: eight polynomials of degree below 281. -/
abbrev V (p : ℕ) := Fin 4 → (degreeLT (ZMod p) 281 × degreeLT (ZMod p) 281)

noncomputable def incl : V p →ₗ[K] (Fin 4 → K[X] × K[X]) where
  toFun v j := ((v j).1, (v j).2)
  map_add' _ _ := rfl
  map_smul' _ _ := rfl

noncomputable def lin (f : K[X]) (c : ℕ) : V p →ₗ[K] (Fin 7 × Fin 321 → K) where
  toFun v ij := (S (fun j => (T f c ^ ij.1.val) (incl v j))).coeff ij.2
  map_add' a b := by
    funext ij
    have : (fun j => (T f c ^ ij.1.val) (incl (a + b) j)) = (fun j => (T f c ^ ij.1.val) (incl a j)) +
        fun j => (T f c ^ ij.1.val) (incl b j) := by
      funext j; simp only [map_add, Pi.add_apply]
    rw [this, map_add, coeff_add]; rfl
  map_smul' s a := by
    funext ij
    have : (fun j => (T f c ^ ij.1.val) (incl (s • a) j)) = s • (fun j => (T f c ^ ij.1.val) (incl a j)) := by
      funext j; simp only [map_smul, Pi.smul_apply]
    rw [this, map_smul, coeff_smul]; rfl

theorem exists_kernel (f : K[X]) (c : ℕ) : ∃ v : V p, v ≠ 0 ∧ lin f c v = 0 := by
  have e : Module.finrank K (degreeLT K 281) = 281 := by
    rw [(degreeLTEquiv K 281).finrank_eq, Module.finrank_fintype_fun_eq_card, Fintype.card_fin]
  have : Module.Finite K (degreeLT K 281) := Module.Finite.equiv (degreeLTEquiv K 281).symm
  have h : LinearMap.ker (lin f c) ≠ ⊥ := by
    apply LinearMap.ker_ne_bot_of_finrank_lt
    rw [Module.finrank_fintype_fun_eq_card, Module.finrank_pi_fintype]
    simp only [Module.finrank_prod, e, Fintype.card_prod, Fintype.card_fin, Finset.sum_const, Finset.card_univ]
    norm_num
  obtain ⟨v, hv, h0⟩ := (Submodule.ne_bot_iff _).mp h
  exact ⟨v, h0, hv⟩

theorem natDegree_of_degreeLT (x : degreeLT K 281) : (x : K[X]).natDegree ≤ 280 := by
  have h := mem_degreeLT.mp x.2
  by_cases h0 : (x : K[X]) = 0
  · rw [h0]; simp
  · have := (natDegree_lt_iff_degree_lt h0).mpr h
    omega

/-- The relation that comes out of `R = 0`. -/
theorem square_relation {f : K[X]} (hf : f.natDegree ≤ 6) (hp : 1000 < p) {k : Fin 4 → K[X] × K[X]}
    (hd : ∀ j, (k j).1.natDegree ≤ 280 ∧ (k j).2.natDegree ≤ 280) (hk : k ≠ 0) (hR : R (f ^ (p / 2)) k = 0) :
    ∃ k0 k1 : K[X], (k0 ≠ 0 ∨ k1 ≠ 0) ∧ k0 ^ 2 * f = C (f.eval 0) * k1 ^ 2 := by
  obtain ⟨j, hj, hmin⟩ : ∃ j, k j ≠ 0 ∧ ∀ i < j, k i = 0 := by
    have h : ∃ j, k j ≠ 0 := by
      by_contra hn
      push Not at hn
      exact hk (funext hn)
    classical
    refine ⟨(Finset.univ.filter fun j => k j ≠ 0).min' ⟨h.choose, by simpa using h.choose_spec⟩, ?_, ?_⟩
    · have := Finset.min'_mem (Finset.univ.filter fun j => k j ≠ 0) ⟨h.choose, by simpa using h.choose_spec⟩
      exact (Finset.mem_filter.mp this).2
    · intro i hi
      by_contra hn
      exact absurd (Finset.min'_le _ i (Finset.mem_filter.mpr ⟨Finset.mem_univ _, hn⟩)) (not_le.mpr hi)
  have hx : (X : K[X]) ^ (j.val * p) ≠ 0 := pow_ne_zero _ X_ne_zero
  have h1 : (X : K[X]) ^ p ∣ (k j).1 + (k j).2 * f ^ (p / 2) := by
    have h2 : (X : K[X]) ^ (j.val * p) * X ^ p ∣ ((k j).1 + (k j).2 * f ^ (p / 2)) * X ^ (j.val * p) := by
      have h3 : ((k j).1 + (k j).2 * f ^ (p / 2)) * X ^ (j.val * p) =
          -∑ i ∈ Finset.univ.erase j, ((k i).1 + (k i).2 * f ^ (p / 2)) * X ^ (i.val * p) := by
        rw [R, ← Finset.add_sum_erase _ _ (Finset.mem_univ j)] at hR
        linear_combination hR
      rw [h3, dvd_neg]
      refine Finset.dvd_sum fun i hi => ?_
      rcases lt_or_gt_of_ne (Finset.ne_of_mem_erase hi) with h | h
      · rw [hmin i h]; simp
      · refine Dvd.dvd.mul_left ?_ _
        rw [← pow_add, ← Nat.succ_mul]
        exact pow_dvd_pow _ (Nat.mul_le_mul_right p h)
    rw [mul_comm _ ((X : K[X]) ^ (j.val * p))] at h2
    exact (mul_dvd_mul_iff_left hx).mp h2
  have h4 : (X : K[X]) ^ p ∣ f ^ p - C (f.eval 0) := by
    have e : f ^ p = f.comp (X ^ p) := by
      rw [← expand_eq_comp_X_pow, ZMod.expand_card]
    have : C (f.eval 0) = (C (f.eval 0)).comp (X ^ p) := by simp
    rw [e, this, ← sub_comp]
    have h5 : (X : K[X]) ∣ f - C (f.eval 0) := by
      rw [X_dvd_iff]; simp [coeff_zero_eq_eval_zero]
    obtain ⟨g, hg⟩ := h5
    rw [hg, mul_comp, X_comp]
    exact Dvd.intro _ rfl
  have hodd : f ^ p = f ^ (p / 2) * f ^ (p / 2) * f := by
    rw [← pow_add, ← pow_succ]
    congr 1
    have := (Fact.out (p := p.Prime)).eq_two_or_odd
    omega
  have h6 : (X : K[X]) ^ p ∣ (k j).1 ^ 2 * f - C (f.eval 0) * (k j).2 ^ 2 := by
    have e : (k j).1 ^ 2 * f - C (f.eval 0) * (k j).2 ^ 2 =
        ((k j).1 + (k j).2 * f ^ (p / 2)) * (((k j).1 - (k j).2 * f ^ (p / 2)) * f) +
        (f ^ p - C (f.eval 0)) * (k j).2 ^ 2 := by
      rw [hodd]; ring
    rw [e]
    exact dvd_add (h1.mul_right _) (h4.mul_right _)
  refine ⟨(k j).1, (k j).2, ?_, ?_⟩
  · by_contra hn
    push Not at hn
    exact hj (Prod.ext hn.1 hn.2)
  · by_contra hn
    have h7 := natDegree_le_of_dvd h6 (sub_ne_zero.mpr hn)
    rw [natDegree_X_pow] at h7
    have d0 : ((k j).1 ^ 2).natDegree ≤ 560 := natDegree_pow_le.trans (by have := (hd j).1; omega)
    have d1 : ((k j).2 ^ 2).natDegree ≤ 560 := natDegree_pow_le.trans (by have := (hd j).2; omega)
    have d2 := (natDegree_mul_le (p := (k j).1 ^ 2) (q := f)).trans (Nat.add_le_add d0 hf)
    have d3 := (natDegree_C_mul_le (f.eval 0) ((k j).2 ^ 2)).trans d1
    have d4 := (natDegree_sub_le ((k j).1 ^ 2 * f) (C (f.eval 0) * (k j).2 ^ 2)).trans (max_le d2 (d3.trans (by norm_num)))
    omega

theorem exists_square {f : K[X]} (hf : f.natDegree ≤ 6) (hp : 1000 < p)
    (hns : ∀ k0 k1 : K[X], k0 ^ 2 * f = C (f.eval 0) * k1 ^ 2 → k0 = 0 ∧ k1 = 0) : ∃ a, IsSquare (f.eval a) := by
  by_contra hall
  push Not at hall
  have hne : ∀ a, f.eval a ≠ 0 := fun a h => hall a (h ▸ IsSquare.zero)
  have hF : ∀ a, (f ^ (p / 2)).eval a = -1 := by
    intro a
    rw [eval_pow]
    rcases ZMod.pow_div_two_eq_neg_one_or_one p (hne a) with h | h
    · exact absurd ((ZMod.euler_criterion p (hne a)).mpr h) (hall a)
    · exact h
  obtain ⟨v, hv, hlin⟩ := exists_kernel f (p / 2)
  have hd : ∀ j, (incl v j).1.natDegree ≤ 280 ∧ (incl v j).2.natDegree ≤ 280 :=
    fun j => ⟨natDegree_of_degreeLT _, natDegree_of_degreeLT _⟩
  have hS : ∀ i < 7, S (fun j => (T f (p / 2) ^ i) (incl v j)) = 0 := by
    intro i hi
    have hdeg := S_degree (k := fun j => (T f (p / 2) ^ i) (incl v j)) (n := 280 + 6 * i)
      fun j => T_pow_degree hf _ (hd j).1 (hd j).2 i
    ext n
    rw [coeff_zero]
    by_cases hn : n < 321
    · exact congrFun hlin (⟨i, hi⟩, ⟨n, hn⟩)
    · exact coeff_eq_zero_of_natDegree_lt (by omega)
  have hR : R (f ^ (p / 2)) (incl v) = 0 := by
    apply eq_zero_of_orders (M := 7)
    · intro a
      refine order_of_iter (hne a) 7 (by omega) _ fun i hi => ?_
      rw [iter_D f _ (by omega), eval_R (hF a), hS i hi, eval_zero]
    · have := R_degree (F := f ^ (p / 2)) (d := (p / 2) * 6)
        (natDegree_pow_le.trans (Nat.mul_le_mul_left _ hf)) hd
      have : (p / 2) * 6 ≤ 3 * p := by omega
      omega
  have hk : incl v ≠ 0 := by
    intro h
    apply hv
    funext j
    have := congrFun h j
    exact Prod.ext (Subtype.ext (congrArg Prod.fst this)) (Subtype.ext (congrArg Prod.snd this))
  obtain ⟨k0, k1, h1, h2⟩ := square_relation hf hp hd hk hR
  have := hns k0 k1 h2
  exact h1.elim (fun h => h this.1) (fun h => h this.2)

end Bls.Stepanov
