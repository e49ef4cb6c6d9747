import Verif.Proof.FQExp
import Mathlib.NumberTheory.LegendreSymbol.QuadraticReciprocity
import Mathlib.Tactic.Ring
import Mathlib.Tactic.LinearCombination
/-
The fields Fq2 = Fq[u]/(u²+1), Fq6 = Fq2[v]/(v³-(1+u)) and Fq12 = Fq6[w]/(w²-v), on coordinates.
That they are fields (that the three polynomials are irreducible) is proved here.
-/
set_option exponentiation.threshold 1000
namespace Bls

/-- `-1` is not a square modulo q. -/
theorem Fq.neg_one_nonsquare (t : Fq) : t ^ 2 ≠ -1 := by
  intro h
  have : IsSquare (-1 : Fq) := ⟨t, by rw [← h, pow_two]⟩
  rw [ZMod.exists_sq_eq_neg_one_iff] at this
  exact this q_mod4

/-- `Fq[u]/(u²+1)`: `c0 + c1·u`. -/
@[ext] structure Fq2 where
  c0 : Fq
  c1 : Fq

namespace Fq2

noncomputable instance : DecidableEq Fq2 := Classical.decEq _
noncomputable instance : Zero Fq2 := ⟨⟨0, 0⟩⟩
noncomputable instance : One Fq2 := ⟨⟨1, 0⟩⟩
noncomputable instance : Add Fq2 := ⟨fun a b => ⟨a.c0 + b.c0, a.c1 + b.c1⟩⟩
noncomputable instance : Neg Fq2 := ⟨fun a => ⟨-a.c0, -a.c1⟩⟩
noncomputable instance : Sub Fq2 := ⟨fun a b => ⟨a.c0 - b.c0, a.c1 - b.c1⟩⟩
noncomputable instance : Mul Fq2 := ⟨fun a b => ⟨a.c0 * b.c0 + (-1) * (a.c1 * b.c1), a.c0 * b.c1 + a.c1 * b.c0⟩⟩

@[simp] theorem zero_c0 : (0 : Fq2).c0 = 0 := rfl
@[simp] theorem zero_c1 : (0 : Fq2).c1 = 0 := rfl
@[simp] theorem one_c0 : (1 : Fq2).c0 = 1 := rfl
@[simp] theorem one_c1 : (1 : Fq2).c1 = 0 := rfl
@[simp] theorem add_c0 (a b : Fq2) : (a + b).c0 = a.c0 + b.c0 := rfl
@[simp] theorem add_c1 (a b : Fq2) : (a + b).c1 = a.c1 + b.c1 := rfl
@[simp] theorem neg_c0 (a : Fq2) : (-a).c0 = -a.c0 := rfl
@[simp] theorem neg_c1 (a : Fq2) : (-a).c1 = -a.c1 := rfl
@[simp] theorem sub_c0 (a b : Fq2) : (a - b).c0 = a.c0 - b.c0 := rfl
@[simp] theorem sub_c1 (a b : Fq2) : (a - b).c1 = a.c1 - b.c1 := rfl
@[simp] theorem mul_c0 (a b : Fq2) : (a * b).c0 = a.c0 * b.c0 + (-1) * (a.c1 * b.c1) := rfl
@[simp] theorem mul_c1 (a b : Fq2) : (a * b).c1 = a.c0 * b.c1 + a.c1 * b.c0 := rfl

/-- The norm form. -/
noncomputable def nrm (a : Fq2) : Fq := a.c0 * a.c0 - (-1) * (a.c1 * a.c1)

theorem nrm_eq_zero {a : Fq2} : nrm a = 0 ↔ a = 0 := by
  constructor
  · intro h
    by_cases h1 : a.c1 = 0
    · have h0 : a.c0 = 0 := by
        rw [nrm, h1, mul_zero, mul_zero, sub_zero] at h; exact mul_self_eq_zero.mp h
      ext <;> assumption
    · exfalso
      apply Fq.neg_one_nonsquare (a.c0 / a.c1)
      rw [div_pow, div_eq_iff (pow_ne_zero 2 h1)]
      rw [nrm] at h
      linear_combination h
  · rintro rfl; rw [nrm, zero_c0, zero_c1]; ring

noncomputable instance : CommRing Fq2 where
  add_assoc a b c := by ext <;> simp only [add_c0, add_c1] <;> ring
  zero_add a := by ext <;> simp only [add_c0, add_c1, zero_c0, zero_c1] <;> ring
  add_zero a := by ext <;> simp only [add_c0, add_c1, zero_c0, zero_c1] <;> ring
  add_comm a b := by ext <;> simp only [add_c0, add_c1] <;> ring
  nsmul := nsmulRec
  zsmul := zsmulRec
  neg_add_cancel a := by ext <;> simp only [add_c0, add_c1, neg_c0, neg_c1, zero_c0, zero_c1] <;> ring
  sub_eq_add_neg a b := by ext <;> simp only [add_c0, add_c1, neg_c0, neg_c1, sub_c0, sub_c1] <;> ring
  left_distrib a b c := by ext <;> simp only [add_c0, add_c1, mul_c0, mul_c1] <;> ring
  right_distrib a b c := by ext <;> simp only [add_c0, add_c1, mul_c0, mul_c1] <;> ring
  zero_mul a := by ext <;> simp only [zero_c0, zero_c1, mul_c0, mul_c1] <;> ring
  mul_zero a := by ext <;> simp only [zero_c0, zero_c1, mul_c0, mul_c1] <;> ring
  mul_assoc a b c := by ext <;> simp only [mul_c0, mul_c1] <;> ring
  one_mul a := by ext <;> simp only [one_c0, one_c1, mul_c0, mul_c1] <;> ring
  mul_one a := by ext <;> simp only [one_c0, one_c1, mul_c0, mul_c1] <;> ring
  mul_comm a b := by ext <;> simp only [mul_c0, mul_c1] <;> ring

@[irreducible] noncomputable def invImpl (a : Fq2) : Fq2 := ⟨a.c0 * (nrm a)⁻¹, -(a.c1 * (nrm a)⁻¹)⟩

noncomputable instance : Inv Fq2 := ⟨invImpl⟩

theorem inv_c0 (a : Fq2) : (a⁻¹).c0 = a.c0 * (nrm a)⁻¹ := by show (invImpl a).c0 = _; rw [invImpl]
theorem inv_c1 (a : Fq2) : (a⁻¹).c1 = -(a.c1 * (nrm a)⁻¹) := by show (invImpl a).c1 = _; rw [invImpl]

noncomputable instance : Field Fq2 where
  exists_pair_ne := ⟨0, 1, fun e => zero_ne_one (congrArg Fq2.c0 e)⟩
  mul_inv_cancel a ha := by
    have hn : nrm a * (nrm a)⁻¹ = 1 := mul_inv_cancel₀ (fun e => ha (nrm_eq_zero.mp e))
    have hd : nrm a = a.c0 * a.c0 - (-1) * (a.c1 * a.c1) := rfl
    ext <;> simp only [mul_c0, mul_c1, inv_c0, inv_c1, one_c0, one_c1]
    · linear_combination hn - (nrm a)⁻¹ * hd
    · ring
  inv_zero := by ext <;> simp only [inv_c0, inv_c1, zero_c0, zero_c1] <;> ring
  nnqsmul := _
  nnqsmul_def := fun _ _ => rfl
  qsmul := _
  qsmul_def := fun _ _ => rfl

/-- The embedding of the base field. -/
noncomputable def of : Fq →+* Fq2 where
  toFun k := ⟨k, 0⟩
  map_one' := rfl
  map_zero' := rfl
  map_mul' a b := by ext <;> simp only [mul_c0, mul_c1] <;> ring
  map_add' a b := by ext <;> simp only [add_c0, add_c1] <;> ring

@[simp] theorem of_c0 (k : Fq) : (of k).c0 = k := rfl
@[simp] theorem of_c1 (k : Fq) : (of k).c1 = 0 := rfl

/-- Conjugation over the base field. -/
noncomputable def conj : Fq2 →+* Fq2 where
  toFun a := ⟨a.c0, -a.c1⟩
  map_one' := by ext <;> simp
  map_zero' := by ext <;> simp
  map_mul' a b := by ext <;> simp only [mul_c0, mul_c1] <;> ring
  map_add' a b := by ext <;> simp only [add_c0, add_c1] <;> ring

@[simp] theorem conj_c0 (a : Fq2) : (conj a).c0 = a.c0 := rfl
@[simp] theorem conj_c1 (a : Fq2) : (conj a).c1 = -a.c1 := rfl
@[simp] theorem conj_conj (a : Fq2) : conj (conj a) = a := by ext <;> simp

theorem mul_conj (a : Fq2) : a * conj a = of (nrm a) := by
  ext <;> simp only [mul_c0, mul_c1, conj_c0, conj_c1, of_c0, of_c1, nrm] <;> ring

theorem nrm_mul (a b : Fq2) : nrm (a * b) = nrm a * nrm b := by
  simp only [nrm, mul_c0, mul_c1]; ring

theorem nrm_one : nrm (1 : Fq2) = 1 := by simp [nrm]

theorem nrm_pow (a : Fq2) (n : ℕ) : nrm (a ^ n) = nrm a ^ n := by
  induction n with
  | zero => rw [pow_zero, pow_zero, nrm_one]
  | succ n ih => rw [pow_succ, pow_succ, nrm_mul, ih]

end Fq2

/-- The quadratic and cubic non-residue `1 + u`. -/
noncomputable def xi : Fq2 := ⟨1, 1⟩

@[simp] theorem xi_c0 : xi.c0 = 1 := rfl
@[simp] theorem xi_c1 : xi.c1 = 1 := rfl

/-- `u`. -/
noncomputable def Fq2.u : Fq2 := ⟨0, 1⟩

@[simp] theorem Fq2.u_c0 : Fq2.u.c0 = 0 := rfl
@[simp] theorem Fq2.u_c1 : Fq2.u.c1 = 1 := rfl

/-- 2 is not a cube modulo q: its power `(q-1)/3` is not one. -/
theorem Fq.two_pow : (2 : Fq) ^ ((q - 1) / 3) ≠ 1 := by
  intro h
  have e : powMod qLit 384 2 ((qLit - 1) / 3) 1 % qLit ≠ 1 := by decide +kernel
  apply e
  have hm : ((qLit : ℕ) : Fq) = 0 := by rw [← q_eq]; exact ZMod.natCast_self q
  have hs := powMod_spec hm 384 2 ((qLit - 1) / 3) 1 (by decide +kernel)
  rw [← q_eq] at hs ⊢
  rw [show ((2 : ℕ) : Fq) = 2 from Nat.cast_ofNat, h, mul_one, ZMod.natCast_eq_natCast_iff] at hs
  rw [hs]; exact Nat.mod_eq_of_lt (by have := q_gt3; omega)

/-- 2 is not a square modulo q. -/
theorem Fq.two_nonsquare : ¬ IsSquare (2 : Fq) := by
  rw [ZMod.exists_sq_eq_two_iff (by have := q_gt3; omega)]
  have : q % 8 = 3 := by rw [q]
  omega

theorem Fq2.nrm_xi : nrm xi = 2 := by
  rw [nrm, xi_c0, xi_c1]; ring

/-- `1+u` is not a cube in Fq2. -/
theorem Fq2.xi_noncube (t : Fq2) : t ^ 3 ≠ xi := by
  intro h
  have hn : nrm t ^ 3 = 2 := by rw [← nrm_pow, h, Fq2.nrm_xi]
  have h0 : nrm t ≠ 0 := by
    intro e; rw [e] at hn
    have h2 : (2 : Fq) = 0 := by rw [← hn]; ring
    exact Fq.two_nonsquare (h2 ▸ IsSquare.zero)
  apply Fq.two_pow
  rw [← hn, ← pow_mul, Nat.mul_div_cancel' (by have := q_mod3; have := q_gt3; omega)]
  exact ZMod.pow_card_sub_one_eq_one h0

/-- `1+u` is not a square in Fq2. -/
theorem Fq2.xi_nonsquare : ¬ IsSquare xi := by
  rintro ⟨t, ht⟩
  apply Fq.two_nonsquare
  exact ⟨nrm t, by rw [← nrm_mul, ← ht, Fq2.nrm_xi]⟩

/-- `Fq2[v]/(v³-(1+u))`: `c0 + c1·v + c2·v²`. -/
@[ext] structure Fq6 where
  c0 : Fq2
  c1 : Fq2
  c2 : Fq2

namespace Fq6

noncomputable instance : DecidableEq Fq6 := Classical.decEq _
noncomputable instance : Zero Fq6 := ⟨⟨0, 0, 0⟩⟩
noncomputable instance : One Fq6 := ⟨⟨1, 0, 0⟩⟩
noncomputable instance : Add Fq6 := ⟨fun a b => ⟨a.c0 + b.c0, a.c1 + b.c1, a.c2 + b.c2⟩⟩
noncomputable instance : Neg Fq6 := ⟨fun a => ⟨-a.c0, -a.c1, -a.c2⟩⟩
noncomputable instance : Sub Fq6 := ⟨fun a b => ⟨a.c0 - b.c0, a.c1 - b.c1, a.c2 - b.c2⟩⟩
/-- Schoolbook product with `v³ = 1+u`. -/
noncomputable instance : Mul Fq6 := ⟨fun a b =>
  ⟨a.c0 * b.c0 + xi * (a.c1 * b.c2 + a.c2 * b.c1),
   a.c0 * b.c1 + a.c1 * b.c0 + xi * (a.c2 * b.c2),
   a.c0 * b.c2 + a.c1 * b.c1 + a.c2 * b.c0⟩⟩

@[simp] theorem zero_c0 : (0 : Fq6).c0 = 0 := rfl
@[simp] theorem one_c0 : (1 : Fq6).c0 = 1 := rfl
@[simp] theorem add_c0 (a b : Fq6) : (a + b).c0 = a.c0 + b.c0 := rfl
@[simp] theorem neg_c0 (a : Fq6) : (-a).c0 = -a.c0 := rfl
@[simp] theorem sub_c0 (a b : Fq6) : (a - b).c0 = a.c0 - b.c0 := rfl
@[simp] theorem zero_c1 : (0 : Fq6).c1 = 0 := rfl
@[simp] theorem one_c1 : (1 : Fq6).c1 = 0 := rfl
@[simp] theorem add_c1 (a b : Fq6) : (a + b).c1 = a.c1 + b.c1 := rfl
@[simp] theorem neg_c1 (a : Fq6) : (-a).c1 = -a.c1 := rfl
@[simp] theorem sub_c1 (a b : Fq6) : (a - b).c1 = a.c1 - b.c1 := rfl
@[simp] theorem zero_c2 : (0 : Fq6).c2 = 0 := rfl
@[simp] theorem one_c2 : (1 : Fq6).c2 = 0 := rfl
@[simp] theorem add_c2 (a b : Fq6) : (a + b).c2 = a.c2 + b.c2 := rfl
@[simp] theorem neg_c2 (a : Fq6) : (-a).c2 = -a.c2 := rfl
@[simp] theorem sub_c2 (a b : Fq6) : (a - b).c2 = a.c2 - b.c2 := rfl
@[simp] theorem mul_c0 (a b : Fq6) :
    (a * b).c0 = a.c0 * b.c0 + xi * (a.c1 * b.c2 + a.c2 * b.c1) := rfl
@[simp] theorem mul_c1 (a b : Fq6) :
    (a * b).c1 = a.c0 * b.c1 + a.c1 * b.c0 + xi * (a.c2 * b.c2) := rfl
@[simp] theorem mul_c2 (a b : Fq6) :
    (a * b).c2 = a.c0 * b.c2 + a.c1 * b.c1 + a.c2 * b.c0 := rfl

/-- The norm form to Fq2. -/
noncomputable def nrm (a : Fq6) : Fq2 :=
  a.c0 * (a.c0 ^ 2 - xi * (a.c1 * a.c2)) + xi * (a.c2 * (xi * a.c2 ^ 2 - a.c0 * a.c1) + a.c1 * (a.c1 ^ 2 - a.c0 * a.c2))

/-- The cofactor with `a * adj a = nrm a`. -/
noncomputable def adj (a : Fq6) : Fq6 :=
  ⟨a.c0 ^ 2 - xi * (a.c1 * a.c2), xi * a.c2 ^ 2 - a.c0 * a.c1, a.c1 ^ 2 - a.c0 * a.c2⟩

theorem adj_c0 (a : Fq6) : (adj a).c0 = a.c0 ^ 2 - xi * (a.c1 * a.c2) := rfl
theorem adj_c1 (a : Fq6) : (adj a).c1 = xi * a.c2 ^ 2 - a.c0 * a.c1 := rfl
theorem adj_c2 (a : Fq6) : (adj a).c2 = a.c1 ^ 2 - a.c0 * a.c2 := rfl


theorem nrm_mul (a b : Fq6) : nrm (a * b) = nrm a * nrm b := by
  simp only [nrm, mul_c0, mul_c1, mul_c2]; ring

theorem eq_zero_of_adj {a : Fq6} (h0 : (adj a).c0 = 0) (h1 : (adj a).c1 = 0) (h2 : (adj a).c2 = 0) : a = 0 := by
  rw [adj_c0] at h0
  rw [adj_c1] at h1
  rw [adj_c2] at h2
  by_cases hc : a.c2 = 0
  · have hb : a.c1 = 0 := by rw [hc] at h2; simpa using h2
    have h00 : a.c0 = 0 := by rw [hc] at h0; simpa using h0
    ext1 <;> assumption
  · exfalso
    apply Fq2.xi_noncube (a.c1 / a.c2)
    rw [div_pow, div_eq_iff (pow_ne_zero 3 hc)]
    linear_combination a.c1 * h2 - a.c2 * h1

theorem nrm_eq_zero {a : Fq6} : nrm a = 0 ↔ a = 0 := by
  constructor
  · intro hn
    have key : adj a = 0 := by
      rw [nrm] at hn
      apply eq_zero_of_adj
      · rw [adj_c0, adj_c0, adj_c1, adj_c2]; linear_combination a.c0 * hn
      · rw [adj_c1, adj_c0, adj_c1, adj_c2]; linear_combination a.c1 * hn
      · rw [adj_c2, adj_c0, adj_c1, adj_c2]; linear_combination a.c2 * hn
    exact eq_zero_of_adj (congrArg Fq6.c0 key) (congrArg Fq6.c1 key) (congrArg Fq6.c2 key)
  · rintro rfl; simp [nrm]

noncomputable instance : CommRing Fq6 where
  add_assoc a b c := by ext1 <;> simp only [add_c0, add_c1, add_c2] <;> ring
  zero_add a := by ext1 <;> simp only [add_c0, add_c1, add_c2, zero_c0, zero_c1, zero_c2] <;> ring
  add_zero a := by ext1 <;> simp only [add_c0, add_c1, add_c2, zero_c0, zero_c1, zero_c2] <;> ring
  add_comm a b := by ext1 <;> simp only [add_c0, add_c1, add_c2] <;> ring
  nsmul := nsmulRec
  zsmul := zsmulRec
  neg_add_cancel a := by ext1 <;> simp only [add_c0, add_c1, add_c2, neg_c0, neg_c1, neg_c2, zero_c0, zero_c1, zero_c2] <;> ring
  sub_eq_add_neg a b := by ext1 <;> simp only [add_c0, add_c1, add_c2, neg_c0, neg_c1, neg_c2, sub_c0, sub_c1, sub_c2] <;> ring
  left_distrib a b c := by ext1 <;> simp only [add_c0, add_c1, add_c2, mul_c0, mul_c1, mul_c2] <;> ring
  right_distrib a b c := by ext1 <;> simp only [add_c0, add_c1, add_c2, mul_c0, mul_c1, mul_c2] <;> ring
  zero_mul a := by ext1 <;> simp only [zero_c0, zero_c1, zero_c2, mul_c0, mul_c1, mul_c2] <;> ring
  mul_zero a := by ext1 <;> simp only [zero_c0, zero_c1, zero_c2, mul_c0, mul_c1, mul_c2] <;> ring
  mul_assoc a b c := by ext1 <;> simp only [mul_c0, mul_c1, mul_c2] <;> ring
  one_mul a := by ext1 <;> simp only [one_c0, one_c1, one_c2, mul_c0, mul_c1, mul_c2] <;> ring
  mul_one a := by ext1 <;> simp only [one_c0, one_c1, one_c2, mul_c0, mul_c1, mul_c2] <;> ring
  mul_comm a b := by ext1 <;> simp only [mul_c0, mul_c1, mul_c2] <;> ring

@[irreducible] noncomputable def invImpl (a : Fq6) : Fq6 := ⟨(nrm a)⁻¹ * (adj a).c0, (nrm a)⁻¹ * (adj a).c1, (nrm a)⁻¹ * (adj a).c2⟩

noncomputable instance : Inv Fq6 := ⟨invImpl⟩

theorem inv_c0 (a : Fq6) : (a⁻¹).c0 = (nrm a)⁻¹ * (adj a).c0 := by show (invImpl a).c0 = _; rw [invImpl]
theorem inv_c1 (a : Fq6) : (a⁻¹).c1 = (nrm a)⁻¹ * (adj a).c1 := by show (invImpl a).c1 = _; rw [invImpl]
theorem inv_c2 (a : Fq6) : (a⁻¹).c2 = (nrm a)⁻¹ * (adj a).c2 := by show (invImpl a).c2 = _; rw [invImpl]

noncomputable instance : Field Fq6 where
  exists_pair_ne := ⟨0, 1, fun e => zero_ne_one (congrArg Fq6.c0 e)⟩
  mul_inv_cancel a ha := by
    have hn : nrm a * (nrm a)⁻¹ = 1 := mul_inv_cancel₀ (fun e => ha (nrm_eq_zero.mp e))
    have hd : nrm a = a.c0 * (a.c0 ^ 2 - xi * (a.c1 * a.c2)) + xi * (a.c2 * (xi * a.c2 ^ 2 - a.c0 * a.c1) + a.c1 * (a.c1 ^ 2 - a.c0 * a.c2)) := rfl
    ext1 <;> simp only [mul_c0, mul_c1, mul_c2, inv_c0, inv_c1, inv_c2, adj_c0, adj_c1, adj_c2, one_c0, one_c1, one_c2]
    · linear_combination hn - (nrm a)⁻¹ * hd
    · ring
    · ring
  inv_zero := by ext1 <;> simp only [inv_c0, inv_c1, inv_c2, adj_c0, adj_c1, adj_c2, zero_c0, zero_c1, zero_c2] <;> ring
  nnqsmul := _
  nnqsmul_def := fun _ _ => rfl
  qsmul := _
  qsmul_def := fun _ _ => rfl

/-- The embedding of Fq2. -/
noncomputable def of : Fq2 →+* Fq6 where
  toFun k := ⟨k, 0, 0⟩
  map_one' := rfl
  map_zero' := rfl
  map_mul' a b := by ext1 <;> simp only [mul_c0, mul_c1, mul_c2] <;> ring
  map_add' a b := by ext1 <;> simp only [add_c0, add_c1, add_c2] <;> ring

@[simp] theorem of_c0 (k : Fq2) : (of k).c0 = k := rfl
@[simp] theorem of_c1 (k : Fq2) : (of k).c1 = 0 := rfl
@[simp] theorem of_c2 (k : Fq2) : (of k).c2 = 0 := rfl

/-- The root `v`. -/
noncomputable def v : Fq6 := ⟨0, 1, 0⟩

@[simp] theorem v_c0 : v.c0 = 0 := rfl
@[simp] theorem v_c1 : v.c1 = 1 := rfl
@[simp] theorem v_c2 : v.c2 = 0 := rfl

theorem v_cube : v ^ 3 = of xi := by
  have : v ^ 3 = v * v * v := by ring
  rw [this]; ext1 <;> simp

theorem eq_sum (a : Fq6) : a = of a.c0 + of a.c1 * v + of a.c2 * v ^ 2 := by
  rw [pow_two]; ext1 <;> simp

theorem nrm_v : nrm v = xi := by simp [nrm]

/-- `v` is not a square in Fq6. -/
theorem v_nonsquare (t : Fq6) : t ^ 2 ≠ v := by
  intro h
  apply Fq2.xi_nonsquare
  refine ⟨nrm t, ?_⟩
  rw [← nrm_mul, ← pow_two, h, nrm_v]

end Fq6

/-- `Fq6[w]/(w²-v)`: `c0 + c1·w`. -/
@[ext] structure Fq12 where
  c0 : Fq6
  c1 : Fq6

namespace Fq12

noncomputable instance : DecidableEq Fq12 := Classical.decEq _
noncomputable instance : Zero Fq12 := ⟨⟨0, 0⟩⟩
noncomputable instance : One Fq12 := ⟨⟨1, 0⟩⟩
noncomputable instance : Add Fq12 := ⟨fun a b => ⟨a.c0 + b.c0, a.c1 + b.c1⟩⟩
noncomputable instance : Neg Fq12 := ⟨fun a => ⟨-a.c0, -a.c1⟩⟩
noncomputable instance : Sub Fq12 := ⟨fun a b => ⟨a.c0 - b.c0, a.c1 - b.c1⟩⟩
noncomputable instance : Mul Fq12 := ⟨fun a b => ⟨a.c0 * b.c0 + Fq6.v * (a.c1 * b.c1), a.c0 * b.c1 + a.c1 * b.c0⟩⟩

@[simp] theorem zero_c0 : (0 : Fq12).c0 = 0 := rfl
@[simp] theorem zero_c1 : (0 : Fq12).c1 = 0 := rfl
@[simp] theorem one_c0 : (1 : Fq12).c0 = 1 := rfl
@[simp] theorem one_c1 : (1 : Fq12).c1 = 0 := rfl
@[simp] theorem add_c0 (a b : Fq12) : (a + b).c0 = a.c0 + b.c0 := rfl
@[simp] theorem add_c1 (a b : Fq12) : (a + b).c1 = a.c1 + b.c1 := rfl
@[simp] theorem neg_c0 (a : Fq12) : (-a).c0 = -a.c0 := rfl
@[simp] theorem neg_c1 (a : Fq12) : (-a).c1 = -a.c1 := rfl
@[simp] theorem sub_c0 (a b : Fq12) : (a - b).c0 = a.c0 - b.c0 := rfl
@[simp] theorem sub_c1 (a b : Fq12) : (a - b).c1 = a.c1 - b.c1 := rfl
@[simp] theorem mul_c0 (a b : Fq12) : (a * b).c0 = a.c0 * b.c0 + Fq6.v * (a.c1 * b.c1) := rfl
@[simp] theorem mul_c1 (a b : Fq12) : (a * b).c1 = a.c0 * b.c1 + a.c1 * b.c0 := rfl

/-- The norm form. -/
noncomputable def nrm (a : Fq12) : Fq6 := a.c0 * a.c0 - Fq6.v * (a.c1 * a.c1)

theorem nrm_eq_zero {a : Fq12} : nrm a = 0 ↔ a = 0 := by
  constructor
  · intro h
    by_cases h1 : a.c1 = 0
    · have h0 : a.c0 = 0 := by
        rw [nrm, h1, mul_zero, mul_zero, sub_zero] at h; exact mul_self_eq_zero.mp h
      ext1 <;> assumption
    · exfalso
      apply Fq6.v_nonsquare (a.c0 / a.c1)
      rw [div_pow, div_eq_iff (pow_ne_zero 2 h1)]
      rw [nrm] at h
      linear_combination h
  · rintro rfl; rw [nrm, zero_c0, zero_c1]; ring

noncomputable instance : CommRing Fq12 where
  add_assoc a b c := by ext1 <;> simp only [add_c0, add_c1] <;> ring
  zero_add a := by ext1 <;> simp only [add_c0, add_c1, zero_c0, zero_c1] <;> ring
  add_zero a := by ext1 <;> simp only [add_c0, add_c1, zero_c0, zero_c1] <;> ring
  add_comm a b := by ext1 <;> simp only [add_c0, add_c1] <;> ring
  nsmul := nsmulRec
  zsmul := zsmulRec
  neg_add_cancel a := by ext1 <;> simp only [add_c0, add_c1, neg_c0, neg_c1, zero_c0, zero_c1] <;> ring
  sub_eq_add_neg a b := by ext1 <;> simp only [add_c0, add_c1, neg_c0, neg_c1, sub_c0, sub_c1] <;> ring
  left_distrib a b c := by ext1 <;> simp only [add_c0, add_c1, mul_c0, mul_c1] <;> ring
  right_distrib a b c := by ext1 <;> simp only [add_c0, add_c1, mul_c0, mul_c1] <;> ring
  zero_mul a := by ext1 <;> simp only [zero_c0, zero_c1, mul_c0, mul_c1] <;> ring
  mul_zero a := by ext1 <;> simp only [zero_c0, zero_c1, mul_c0, mul_c1] <;> ring
  mul_assoc a b c := by ext1 <;> simp only [mul_c0, mul_c1] <;> ring
  one_mul a := by ext1 <;> simp only [one_c0, one_c1, mul_c0, mul_c1] <;> ring
  mul_one a := by ext1 <;> simp only [one_c0, one_c1, mul_c0, mul_c1] <;> ring
  mul_comm a b := by ext1 <;> simp only [mul_c0, mul_c1] <;> ring

@[irreducible] noncomputable def invImpl (a : Fq12) : Fq12 := ⟨a.c0 * (nrm a)⁻¹, -(a.c1 * (nrm a)⁻¹)⟩

noncomputable instance : Inv Fq12 := ⟨invImpl⟩

theorem inv_c0 (a : Fq12) : (a⁻¹).c0 = a.c0 * (nrm a)⁻¹ := by show (invImpl a).c0 = _; rw [invImpl]
theorem inv_c1 (a : Fq12) : (a⁻¹).c1 = -(a.c1 * (nrm a)⁻¹) := by show (invImpl a).c1 = _; rw [invImpl]

noncomputable instance : Field Fq12 where
  exists_pair_ne := ⟨0, 1, fun e => zero_ne_one (congrArg Fq12.c0 e)⟩
  mul_inv_cancel a ha := by
    have hn : nrm a * (nrm a)⁻¹ = 1 := mul_inv_cancel₀ (fun e => ha (nrm_eq_zero.mp e))
    have hd : nrm a = a.c0 * a.c0 - Fq6.v * (a.c1 * a.c1) := rfl
    ext1 <;> simp only [mul_c0, mul_c1, inv_c0, inv_c1, one_c0, one_c1]
    · linear_combination hn - (nrm a)⁻¹ * hd
    · ring
  inv_zero := by ext1 <;> simp only [inv_c0, inv_c1, zero_c0, zero_c1] <;> ring
  nnqsmul := _
  nnqsmul_def := fun _ _ => rfl
  qsmul := _
  qsmul_def := fun _ _ => rfl

/-- The embedding of the base field. -/
noncomputable def of : Fq6 →+* Fq12 where
  toFun k := ⟨k, 0⟩
  map_one' := rfl
  map_zero' := rfl
  map_mul' a b := by ext1 <;> simp only [mul_c0, mul_c1] <;> ring
  map_add' a b := by ext1 <;> simp only [add_c0, add_c1] <;> ring

@[simp] theorem of_c0 (k : Fq6) : (of k).c0 = k := rfl
@[simp] theorem of_c1 (k : Fq6) : (of k).c1 = 0 := rfl

/-- Conjugation over the base field. -/
noncomputable def conj : Fq12 →+* Fq12 where
  toFun a := ⟨a.c0, -a.c1⟩
  map_one' := by ext1 <;> simp
  map_zero' := by ext1 <;> simp
  map_mul' a b := by ext1 <;> simp only [mul_c0, mul_c1] <;> ring
  map_add' a b := by ext1 <;> simp only [add_c0, add_c1] <;> ring

@[simp] theorem conj_c0 (a : Fq12) : (conj a).c0 = a.c0 := rfl
@[simp] theorem conj_c1 (a : Fq12) : (conj a).c1 = -a.c1 := rfl
@[simp] theorem conj_conj (a : Fq12) : conj (conj a) = a := by ext1 <;> simp

theorem mul_conj (a : Fq12) : a * conj a = of (nrm a) := by
  ext1 <;> simp only [mul_c0, mul_c1, conj_c0, conj_c1, of_c0, of_c1, nrm] <;> ring

theorem nrm_mul (a b : Fq12) : nrm (a * b) = nrm a * nrm b := by
  simp only [nrm, mul_c0, mul_c1]; ring

theorem nrm_one : nrm (1 : Fq12) = 1 := by simp [nrm]

theorem nrm_pow (a : Fq12) (n : ℕ) : nrm (a ^ n) = nrm a ^ n := by
  induction n with
  | zero => rw [pow_zero, pow_zero, nrm_one]
  | succ n ih => rw [pow_succ, pow_succ, nrm_mul, ih]

end Fq12

/-- `w`. -/
noncomputable def Fq12.w : Fq12 := ⟨0, 1⟩

@[simp] theorem Fq12.w_c0 : Fq12.w.c0 = 0 := rfl
@[simp] theorem Fq12.w_c1 : Fq12.w.c1 = 1 := rfl

/-- The embedding of Fq2. -/
noncomputable def Fq12.ofFq2 : Fq2 →+* Fq12 := Fq12.of.comp Fq6.of

end Bls
