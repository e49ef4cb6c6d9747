import Mathlib.LinearAlgebra.Lagrange
import Mathlib.Algebra.BigOperators.Group.List.Basic
/-
Interpolation at zero, with lists.
-/
open Polynomial
namespace Bls
variable {F : Type} [Field F] [DecidableEq F]

/-- The value at `x` of the polynomial with the coefficients `cs`, the constant one first. -/
def valueAt (x : F) : List F → F
  | [] => 0
  | c :: cs => valueAt x cs * x + c

/-- The weight of the node `x` among the nodes `xs`. -/
def weightAt (xs : List F) (x : F) : F := ((xs.filter (· ≠ x)).map fun o => o * (o - x)⁻¹).prod

noncomputable def listPoly : List F → F[X]
  | [] => 0
  | c :: cs => listPoly cs * X + C c

omit [DecidableEq F] in
theorem eval_listPoly (x : F) (cs : List F) : (listPoly cs).eval x = valueAt x cs := by
  induction cs with
  | nil => simp [listPoly, valueAt]
  | cons c cs ih => simp [listPoly, valueAt, ih]

omit [DecidableEq F] in
theorem listPoly_degree (cs : List F) : (listPoly cs).degree < (cs.length : ℕ) := by
  rw [degree_lt_iff_coeff_zero]
  induction cs with
  | nil => simp [listPoly]
  | cons c cs ih =>
    intro m hm
    cases m with
    | zero => simp at hm
    | succ m =>
      rw [listPoly, coeff_add, coeff_mul_X, coeff_C_succ, ih m (by simpa using hm), add_zero]

theorem interpolate_zero {xs : List F} (hn : xs.Nodup) {cs : List F} (hl : cs.length ≤ xs.length) :
    (xs.map fun x => weightAt xs x * valueAt x cs).sum = cs.headD 0 := by
  have hc : xs.toFinset.card = xs.length := List.toFinset_card_of_nodup hn
  have h := Lagrange.eq_interpolate (s := xs.toFinset) (v := id) (f := listPoly cs) Function.injective_id.injOn
    (lt_of_lt_of_le (listPoly_degree cs) (by rw [hc]; exact_mod_cast hl))
  have h0 : (listPoly cs).eval 0 = cs.headD 0 := by
    rw [eval_listPoly]
    cases cs with
    | nil => rfl
    | cons c cs => simp [valueAt]
  rw [← h0, h, Lagrange.interpolate_apply, eval_finsetSum, List.sum_toFinset _ hn]
  congr 1
  refine List.map_congr_left fun x hx => ?_
  rw [eval_mul, eval_C, id, eval_listPoly, mul_comm, Lagrange.basis, eval_prod]
  congr 1
  rw [weightAt, ← List.prod_toFinset _ (hn.filter _)]
  refine Finset.prod_congr ?_ fun o ho => ?_
  · ext o; simp [and_comm]
  · simp only [Lagrange.basisDivisor, id, eval_mul, eval_C, eval_sub, eval_X, zero_sub]
    rw [mul_neg, ← neg_mul, ← inv_neg, neg_sub, mul_comm]

/-- Coefficients, constant one 1, of a polynomial of degree `xs.length` that is zero at `xs`. -/
def vanishing : List F → List F
  | [] => [1]
  | x :: xs => List.zipWith (· + ·) (vanishing xs ++ [0]) (0 :: (vanishing xs).map (· * -x⁻¹))

omit [DecidableEq F] in
theorem vanishing_length (xs : List F) : (vanishing xs).length = xs.length + 1 := by
  induction xs with
  | nil => rfl
  | cons x xs ih => simp [vanishing, ih]

omit [DecidableEq F] in
theorem valueAt_zipWith (x k : F) {cs ds : List F} (h : cs.length = ds.length) :
    valueAt x (List.zipWith (fun c d => c + k * d) cs ds) = valueAt x cs + k * valueAt x ds := by
  induction cs generalizing ds with
  | nil =>
    cases ds with
    | nil => simp [valueAt]
    | cons d ds => simp at h
  | cons c cs ih =>
    cases ds with
    | nil => simp at h
    | cons d ds =>
      rw [List.zipWith_cons_cons, valueAt, valueAt, valueAt, ih (by simpa using h)]
      ring

omit [DecidableEq F] in
theorem valueAt_append_zeros (x : F) (cs : List F) (n : ℕ) :
    valueAt x (cs ++ List.replicate n 0) = valueAt x cs := by
  induction cs with
  | nil =>
    induction n with
    | zero => rfl
    | succ n ih =>
      rw [List.nil_append] at *
      rw [List.replicate_succ, show valueAt x (0 :: List.replicate n 0) = valueAt x (List.replicate n 0) * x + 0 from rfl,
        ih, valueAt, zero_mul, add_zero]
  | cons c cs ih => rw [List.cons_append, valueAt, valueAt, ih]

omit [DecidableEq F] in
theorem valueAt_map_mul (x k : F) (cs : List F) : valueAt x (cs.map (· * k)) = valueAt x cs * k := by
  induction cs with
  | nil => simp [valueAt]
  | cons c cs ih => rw [List.map_cons, valueAt, valueAt, ih]; ring

omit [DecidableEq F] in
theorem valueAt_vanishing {xs : List F} (h0 : ∀ x ∈ xs, x ≠ 0) (y : F) :
    valueAt y (vanishing xs) = (xs.map fun x => 1 - y * x⁻¹).prod := by
  induction xs with
  | nil => simp [vanishing, valueAt]
  | cons x xs ih =>
    have e := valueAt_zipWith y 1 (cs := vanishing xs ++ [0]) (ds := 0 :: (vanishing xs).map (· * -x⁻¹)) (by simp)
    simp only [one_mul] at e
    have e1 : valueAt y (vanishing xs ++ [0]) = valueAt y (vanishing xs) := valueAt_append_zeros y _ 1
    rw [vanishing, e, e1, valueAt, valueAt_map_mul,
      ih fun x m => h0 x (List.mem_cons_of_mem _ m), List.map_cons, List.prod_cons]
    ring

omit [DecidableEq F] in
theorem vanishing_head (xs : List F) : (vanishing xs).headD 0 = 1 := by
  induction xs with
  | nil => rfl
  | cons x xs ih =>
    have := vanishing_length xs
    cases h : vanishing xs with
    | nil => simp [h] at this
    | cons c cs => rw [h] at ih; simpa [vanishing, h] using ih

omit [DecidableEq F] in
/-- A polynomial below a degree with constant coefficient 1 and zero at fewer points, none of them 0. -/
theorem exists_vanishing {xs : List F} (h0 : ∀ x ∈ xs, x ≠ 0) {n : ℕ} (hl : xs.length < n) :
    ∃ ds : List F, ds.length = n ∧ ds.headD 0 = 1 ∧ ∀ x ∈ xs, valueAt x ds = 0 := by
  refine ⟨vanishing xs ++ List.replicate (n - (xs.length + 1)) 0, ?_, ?_, fun x hx => ?_⟩
  · rw [List.length_append, vanishing_length, List.length_replicate]; omega
  · have := vanishing_length xs
    have h := vanishing_head xs
    cases e : vanishing xs with
    | nil => simp [e] at this
    | cons c cs => rw [e] at h; simpa using h
  · rw [valueAt_append_zeros, valueAt_vanishing h0]
    refine List.prod_eq_zero (List.mem_map.mpr ⟨x, hx, ?_⟩)
    rw [mul_inv_cancel₀ (h0 x hx), sub_self]

end Bls
