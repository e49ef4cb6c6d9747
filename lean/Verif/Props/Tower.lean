import Verif.Proof.TowerVal
import Verif.Proof.Cards
/-
C14–C19 and the FQ2 part of C44. `a.isValid`: every coordinate is canonical (`IsValid` of FQ).
`a.fld` is the element of the field of Verif/Spec/Fields.lean whose coordinates are the integers
`ToRepr` returns for the coordinates of `a`:
  Fq2 = Fq[u]/(u²+1), Fq6 = Fq2[v]/(v³-(1+u)), Fq12 = Fq6[w]/(w²-v).
-/
set_option exponentiation.threshold 1000
namespace Bls.Props

/-- 5 + (q-2)u. -/
def ex2 : FQ2 := ⟨FQ.ofRepr (.new 5), FQ.ofRepr (.ofNat 4002409555221667393417789825735904156556882819939007885332058136124031650490837864442687629129015664037894272559785)⟩
/-- 7 + 11u. -/
def ex2' : FQ2 := ⟨FQ.ofRepr (.new 7), FQ.ofRepr (.new 11)⟩
/-- A non-trivial FQ6. -/
def ex6 : FQ6 := ⟨ex2, ex2', ex2⟩
/-- A non-trivial FQ12. -/
def ex12 : FQ12 := ⟨ex6, ⟨ex2', ex2, ex2'⟩⟩

example : ex2.isValid ∧ ex2'.isValid ∧ ex6.isValid ∧ ex12.isValid := by decide +kernel

/-- The field tower is the advertised one: `u² = -1`, `v³ = 1 + u`, `w² = v`. -/
theorem C14_tower : Fq2.u ^ 2 = -1 ∧ Fq6.v ^ 3 = Fq6.of (1 + Fq2.u) ∧ Fq12.w ^ 2 = Fq12.of Fq6.v ∧
    (∀ x : Fq2, x = Fq2.of x.c0 + Fq2.of x.c1 * Fq2.u) ∧
    (∀ x : Fq6, x = Fq6.of x.c0 + Fq6.of x.c1 * Fq6.v + Fq6.of x.c2 * Fq6.v ^ 2) ∧
    (∀ x : Fq12, x = Fq12.of x.c0 + Fq12.of x.c1 * Fq12.w) := by
  refine ⟨Fq2.u_sq, ?_, Fq12.w_sq, Fq2.eq_add, Fq6.eq_sum, Fq12.eq_add⟩
  rw [Fq6.v_cube]
  congr 1
  ext1 <;> simp [xi, Fq2.u]

/-! ## C14 -/

/-- Canonical representation is faithful and complete: `fld` is a bijection from canonical FQ2. -/
theorem C14_faithful : (∀ a b : FQ2, a.isValid → b.isValid → a.fld = b.fld → a = b) ∧
    ∀ x : Fq2, ∃ a : FQ2, a.isValid ∧ a.fld = x := by
  refine ⟨fun a b ha hb h => (FQ2.rep ha).inj (h ▸ FQ2.rep hb), fun x => ?_⟩
  obtain ⟨a, ha⟩ := FQ2.exists_rep x
  exact ⟨a, ha.out⟩

theorem C14_add (a b : FQ2) (ha : a.isValid) (hb : b.isValid) :
    (a.add b).isValid ∧ (a.add b).fld = a.fld + b.fld := ((FQ2.rep ha).add (FQ2.rep hb)).out

theorem C14_sub (a b : FQ2) (ha : a.isValid) (hb : b.isValid) :
    (a.sub b).isValid ∧ (a.sub b).fld = a.fld - b.fld := ((FQ2.rep ha).sub (FQ2.rep hb)).out

theorem C14_neg (a : FQ2) (ha : a.isValid) : a.neg.isValid ∧ a.neg.fld = -a.fld := (FQ2.rep ha).neg.out

theorem C14_double (a : FQ2) (ha : a.isValid) : a.double.isValid ∧ a.double.fld = a.fld + a.fld :=
  (FQ2.rep ha).double.out

theorem C14_mul (a b : FQ2) (ha : a.isValid) (hb : b.isValid) :
    (a.mul b).isValid ∧ (a.mul b).fld = a.fld * b.fld := ((FQ2.rep ha).mul (FQ2.rep hb)).out

theorem C14_square (a : FQ2) (ha : a.isValid) : a.square.isValid ∧ a.square.fld = a.fld * a.fld :=
  (FQ2.rep ha).square.out

theorem C14_mulByNonresidue (a : FQ2) (ha : a.isValid) :
    a.mulByNonresidue.isValid ∧ a.mulByNonresidue.fld = (1 + Fq2.u) * a.fld := by
  have h : xi = 1 + Fq2.u := by ext1 <;> simp [xi, Fq2.u]
  rw [← h]
  exact (FQ2.rep ha).mulByNonresidue.out

/-- `Norm`: the product of the element and its conjugate, an element of Fq. -/
theorem C14_norm (a : FQ2) (ha : a.isValid) :
    a.norm.isValid ∧ Fq2.of (a.norm.int : Fq) = a.fld * ⟨a.fld.c0, -a.fld.c1⟩ := by
  have h := FQ.rep_iff_int.mp (FQ2.rep ha).norm
  refine ⟨h.1, ?_⟩
  rw [h.2, Fq2.nrm_eq]
  ext1
  · simp
  · simp; ring

/-- `InverseAssign` fails exactly for zero, leaving the receiver as it was; otherwise the receiver
becomes the inverse. -/
theorem C14_inverse (a : FQ2) (ha : a.isValid) :
    (a.fld = 0 → a.inverse = (a, false)) ∧
    (a.fld ≠ 0 → a.inverse.2 = true ∧ a.inverse.1.isValid ∧ a.inverse.1.fld * a.fld = 1) := by
  refine ⟨fun h => FQ2.Rep.inverse_zero (h ▸ FQ2.rep ha), fun h => ?_⟩
  have h1 := (FQ2.rep ha).inverse_ne h
  have h2 := h1.2.out
  exact ⟨h1.1, h2.1, by rw [h2.2, inv_mul_cancel₀ h]⟩

/-- `IsZero` and `Equals`. -/
theorem C14_equals (a b : FQ2) (ha : a.isValid) (hb : b.isValid) :
    (a.isZero = true ↔ a.fld = 0) ∧ (a.equals b = true ↔ a.fld = b.fld) :=
  ⟨(FQ2.rep ha).isZero, (FQ2.rep ha).equals (FQ2.rep hb)⟩

/-- `Cmp` is the lexicographic order on (c1, c0), as integers. -/
theorem C14_cmp (a b : FQ2) (ha : a.isValid) (hb : b.isValid) :
    a.cmp b = if a.c1.int < b.c1.int then -1 else if b.c1.int < a.c1.int then 1
      else if a.c0.int < b.c0.int then -1 else if b.c0.int < a.c0.int then 1 else 0 := by
  have h := (FQ2.rep ha).cmp (FQ2.rep hb)
  have a0 := (FQ2.rep ha).c0
  have a1 := (FQ2.rep ha).c1
  have b0 := (FQ2.rep hb).c0
  have b1 := (FQ2.rep hb).c1
  rw [h, a0.int, a1.int, b0.int, b1.int]
  have hi : a.fld.c1 = b.fld.c1 ↔ a.fld.c1.val = b.fld.c1.val := (ZMod.val_injective q).eq_iff.symm
  have hr : a.fld.c0 = b.fld.c0 ↔ a.fld.c0.val = b.fld.c0.val := (ZMod.val_injective q).eq_iff.symm
  have hxy : a.fld = b.fld ↔ a.fld.c0.val = b.fld.c0.val ∧ a.fld.c1.val = b.fld.c1.val := by
    rw [Fq2.ext_iff, hi, hr]
  simp only [hxy, hi]
  generalize a.fld.c0.val = a0, b.fld.c0.val = b0, a.fld.c1.val = a1, b.fld.c1.val = b1
  split_ifs <;> first | rfl | omega

/-- `DivAssign` (division by zero multiplies by zero). -/
theorem C14_div (a b : FQ2) (ha : a.isValid) (hb : b.isValid) :
    (a.div b).isValid ∧ (a.div b).fld = a.fld / b.fld := ((FQ2.rep ha).div (FQ2.rep hb)).out

/-- `Exp`: terminates without panic and returns the power. -/
theorem C14_exp (a : FQ2) (ha : a.isValid) (n : FQRepr) :
    ∃ o, a.exp? n = some o ∧ o.isValid ∧ o.fld = a.fld ^ n.toNat :=
  ⟨a.exp n, FQ2.exp?_eq a n, ((FQ2.rep ha).exp n).out⟩

example : (ex2.mul ex2').c0.int = 5 * 7 + 2 * 11 ∧ (ex2.mul ex2').c1.int = 5 * 11 - 2 * 7 ∧
    ex2.cmp ex2' = 1 ∧ ex2.isZero = false := by decide +kernel

/-! ## C15 -/

/-- `Legendre` classifies zero, squares and non-squares. -/
theorem C15_legendre (a : FQ2) (ha : a.isValid) :
    (a.legendre = .zero ↔ a.fld = 0) ∧
    (a.legendre = .quadraticResidue ↔ a.fld ≠ 0 ∧ IsSquare a.fld) ∧
    (a.legendre = .quadraticNonResidue ↔ ¬ IsSquare a.fld) := by
  classical
  rw [(FQ2.rep ha).legendre]
  by_cases h0 : a.fld = 0
  · rw [if_pos h0, h0]; simp
  · rw [if_neg h0]
    by_cases hs : IsSquare a.fld <;> simp [hs, h0]

/-- `Sqrt` succeeds exactly on squares. -/
theorem C15_sqrt_iff (a : FQ2) (ha : a.isValid) : a.sqrt.2 = true ↔ IsSquare a.fld := by
  have h := (FQ2.rep ha).sqrt
  constructor
  · intro h2
    by_contra hn
    rw [(h.2 hn).1] at h2
    exact Bool.false_ne_true h2
  · exact fun hs => (h.1 hs).1

/-- When it succeeds the result is a canonical root. -/
theorem C15_sqrt_root (a : FQ2) (ha : a.isValid) (h : a.sqrt.2 = true) :
    a.sqrt.1.isValid ∧ a.sqrt.1.fld * a.sqrt.1.fld = a.fld := by
  obtain ⟨s, h1, h2⟩ := ((FQ2.rep ha).sqrt.1 ((C15_sqrt_iff a ha).mp h)).2
  exact ⟨h1.out.1, by rw [h1.out.2, h2]⟩

/-- Both answers occur: 1 is a square, `1 + u` is not. -/
example : IsSquare (1 : Fq2) ∧ ¬ IsSquare (1 + Fq2.u) := by
  refine ⟨⟨1, by simp⟩, ?_⟩
  have h : xi = 1 + Fq2.u := by ext1 <;> simp [xi, Fq2.u]
  rw [← h]
  exact Fq2.xi_nonsquare

/-! ## C16 -/

theorem C16_faithful : (∀ a b : FQ6, a.isValid → b.isValid → a.fld = b.fld → a = b) ∧
    ∀ x : Fq6, ∃ a : FQ6, a.isValid ∧ a.fld = x := by
  refine ⟨fun a b ha hb h => (FQ6.rep ha).inj (h ▸ FQ6.rep hb), fun x => ?_⟩
  obtain ⟨a, ha⟩ := FQ6.exists_rep x
  exact ⟨a, ha.out⟩

theorem C16_add (a b : FQ6) (ha : a.isValid) (hb : b.isValid) :
    (a.add b).isValid ∧ (a.add b).fld = a.fld + b.fld := ((FQ6.rep ha).add (FQ6.rep hb)).out

theorem C16_sub (a b : FQ6) (ha : a.isValid) (hb : b.isValid) :
    (a.sub b).isValid ∧ (a.sub b).fld = a.fld - b.fld := ((FQ6.rep ha).sub (FQ6.rep hb)).out

theorem C16_neg (a : FQ6) (ha : a.isValid) : a.neg.isValid ∧ a.neg.fld = -a.fld := (FQ6.rep ha).neg.out

theorem C16_double (a : FQ6) (ha : a.isValid) : a.double.isValid ∧ a.double.fld = a.fld + a.fld :=
  (FQ6.rep ha).double.out

/-- `MulAssign` with a receiver distinct from the argument. -/
theorem C16_mul (a b : FQ6) (ha : a.isValid) (hb : b.isValid) :
    (a.mul b).isValid ∧ (a.mul b).fld = a.fld * b.fld := ((FQ6.rep ha).mul (FQ6.rep hb)).out

theorem C16_square (a : FQ6) (ha : a.isValid) : a.square.isValid ∧ a.square.fld = a.fld * a.fld :=
  (FQ6.rep ha).square.out

theorem C16_mulByNonresidue (a : FQ6) (ha : a.isValid) :
    a.mulByNonresidue.isValid ∧ a.mulByNonresidue.fld = Fq6.v * a.fld := (FQ6.rep ha).mulByNonresidue.out

/-- `MulBy1Assign(c1)`: product with `c1·v`. -/
theorem C16_mulBy1 (a : FQ6) (c : FQ2) (ha : a.isValid) (hc : c.isValid) :
    (a.mulBy1 c).isValid ∧ (a.mulBy1 c).fld = a.fld * ⟨0, c.fld, 0⟩ := ((FQ6.rep ha).mulBy1 (FQ2.rep hc)).out

/-- `MulBy01Assign(c0, c1)`: product with `c0 + c1·v`. -/
theorem C16_mulBy01 (a : FQ6) (c d : FQ2) (ha : a.isValid) (hc : c.isValid) (hd : d.isValid) :
    (a.mulBy01 c d).isValid ∧ (a.mulBy01 c d).fld = a.fld * ⟨c.fld, d.fld, 0⟩ :=
  ((FQ6.rep ha).mulBy01 (FQ2.rep hc) (FQ2.rep hd)).out

theorem C16_inverse (a : FQ6) (ha : a.isValid) :
    (a.fld = 0 → a.inverse = (a, false)) ∧
    (a.fld ≠ 0 → a.inverse.2 = true ∧ a.inverse.1.isValid ∧ a.inverse.1.fld * a.fld = 1) := by
  refine ⟨fun h => FQ6.Rep.inverse_zero (h ▸ FQ6.rep ha), fun h => ?_⟩
  have h1 := (FQ6.rep ha).inverse_ne h
  have h2 := h1.2.out
  exact ⟨h1.1, h2.1, by rw [h2.2, inv_mul_cancel₀ h]⟩

theorem C16_equals (a b : FQ6) (ha : a.isValid) (hb : b.isValid) :
    (a.isZero = true ↔ a.fld = 0) ∧ (a.equals b = true ↔ a.fld = b.fld) :=
  ⟨(FQ6.rep ha).isZero, (FQ6.rep ha).equals (FQ6.rep hb)⟩

/-- Calling `MulAssign` with the receiver as its own argument does not square: for `v` it gives a
wrong element. -/
theorem C19_mul_aliased_false : ¬ ∀ a : FQ6, a.isValid → a.mulSelf.fld = a.fld * a.fld := by
  intro h
  obtain ⟨a, ha⟩ := FQ6.exists_rep Fq6.v
  have h1 := h a ha.out.1
  rw [ha.mulSelf.out.2, ha.out.2] at h1
  have h2 := congrArg Fq6.c1 h1
  simp [Fq6.v] at h2

/-! ## C17 -/

theorem C17_faithful : (∀ a b : FQ12, a.isValid → b.isValid → a.fld = b.fld → a = b) ∧
    ∀ x : Fq12, ∃ a : FQ12, a.isValid ∧ a.fld = x := by
  refine ⟨fun a b ha hb h => (FQ12.rep ha).inj (h ▸ FQ12.rep hb), fun x => ?_⟩
  obtain ⟨a, ha⟩ := FQ12.exists_rep x
  exact ⟨a, ha.out⟩

theorem C17_add (a b : FQ12) (ha : a.isValid) (hb : b.isValid) :
    (a.add b).isValid ∧ (a.add b).fld = a.fld + b.fld := ((FQ12.rep ha).add (FQ12.rep hb)).out

theorem C17_sub (a b : FQ12) (ha : a.isValid) (hb : b.isValid) :
    (a.sub b).isValid ∧ (a.sub b).fld = a.fld - b.fld := ((FQ12.rep ha).sub (FQ12.rep hb)).out

theorem C17_neg (a : FQ12) (ha : a.isValid) : a.neg.isValid ∧ a.neg.fld = -a.fld := (FQ12.rep ha).neg.out

theorem C17_double (a : FQ12) (ha : a.isValid) : a.double.isValid ∧ a.double.fld = a.fld + a.fld :=
  (FQ12.rep ha).double.out

theorem C17_mul (a b : FQ12) (ha : a.isValid) (hb : b.isValid) :
    (a.mul b).isValid ∧ (a.mul b).fld = a.fld * b.fld := ((FQ12.rep ha).mul (FQ12.rep hb)).out

theorem C17_square (a : FQ12) (ha : a.isValid) : a.square.isValid ∧ a.square.fld = a.fld * a.fld :=
  (FQ12.rep ha).square.out

/-- `ConjugateAssign` negates the coefficient of `w`; it is `x ↦ x^(q⁶)`. -/
theorem C17_conjugate (a : FQ12) (ha : a.isValid) :
    a.conjugate.isValid ∧ a.conjugate.fld = ⟨a.fld.c0, -a.fld.c1⟩ ∧ a.conjugate.fld = a.fld ^ q ^ 6 :=
  have h := (FQ12.rep ha).conjugate
  ⟨h.out.1, h.out.2, h.out.2.trans (Fq12.conj_eq _)⟩

/-- `MulBy014Assign(c0, c1, c4)`: product with `(c0 + c1·v) + (c4·v)·w`. -/
theorem C17_mulBy014 (a : FQ12) (c d e : FQ2) (ha : a.isValid) (hc : c.isValid) (hd : d.isValid) (he : e.isValid) :
    (a.mulBy014 c d e).isValid ∧
      (a.mulBy014 c d e).fld = a.fld * ⟨⟨c.fld, d.fld, 0⟩, ⟨0, e.fld, 0⟩⟩ :=
  ((FQ12.rep ha).mulBy014 (FQ2.rep hc) (FQ2.rep hd) (FQ2.rep he)).out

theorem C17_inverse (a : FQ12) (ha : a.isValid) :
    (a.fld = 0 → a.inverse = (a, false)) ∧
    (a.fld ≠ 0 → a.inverse.2 = true ∧ a.inverse.1.isValid ∧ a.inverse.1.fld * a.fld = 1) := by
  refine ⟨fun h => FQ12.Rep.inverse_zero (h ▸ FQ12.rep ha), fun h => ?_⟩
  have h1 := (FQ12.rep ha).inverse_ne h
  have h2 := h1.2.out
  exact ⟨h1.1, h2.1, by rw [h2.2, inv_mul_cancel₀ h]⟩

theorem C17_equals (a b : FQ12) (ha : a.isValid) (hb : b.isValid) :
    (a.isZero = true ↔ a.fld = 0) ∧ (a.equals b = true ↔ a.fld = b.fld) :=
  ⟨(FQ12.rep ha).isZero, (FQ12.rep ha).equals (FQ12.rep hb)⟩

/-- `Exp` terminates and returns the power. -/
theorem C17_exp (a : FQ12) (ha : a.isValid) (n : FQRepr) :
    ∃ o, a.exp? n = some o ∧ o.isValid ∧ o.fld = a.fld ^ n.toNat := by
  obtain ⟨o, h1, h2⟩ := (FQ12.rep ha).exp? n
  exact ⟨o, h1, h2.out⟩

/-- Fq12 (and Fq2, Fq6) has no zero divisors: the quotient rings really are fields. -/
theorem C17_field : (∀ x : Fq2, x ≠ 0 → ∃ y, x * y = 1) ∧ (∀ x : Fq6, x ≠ 0 → ∃ y, x * y = 1) ∧
    (∀ x : Fq12, x ≠ 0 → ∃ y, x * y = 1) :=
  ⟨fun x h => ⟨x⁻¹, mul_inv_cancel₀ h⟩, fun x h => ⟨x⁻¹, mul_inv_cancel₀ h⟩, fun x h => ⟨x⁻¹, mul_inv_cancel₀ h⟩⟩

/-! ## C18 -/

theorem C18_fq2 (a : FQ2) (ha : a.isValid) (k : UInt8) :
    (a.frobeniusMap k).isValid ∧ (a.frobeniusMap k).fld = a.fld ^ q ^ k.toNat := ((FQ2.rep ha).frobeniusMap k).out

theorem C18_fq6 (a : FQ6) (ha : a.isValid) (k : UInt8) :
    (a.frobeniusMap k).isValid ∧ (a.frobeniusMap k).fld = a.fld ^ q ^ k.toNat := ((FQ6.rep ha).frobeniusMap k).out

theorem C18_fq12 (a : FQ12) (ha : a.isValid) (k : UInt8) :
    (a.frobeniusMap k).isValid ∧ (a.frobeniusMap k).fld = a.fld ^ q ^ k.toNat := ((FQ12.rep ha).frobeniusMap k).out

/-- The map is not trivial: it moves this element. -/
example : (ex12.frobeniusMap 1).equals ex12 = false := by decide +kernel

/-! ## C19 -/

/-- `FQ6.Exp` does not compute powers: `v²` comes out wrong. -/
theorem C19_exp_false : ¬ ∀ (a : FQ6) (n : FQRepr), a.isValid →
    ∃ o, a.exp? n = some o ∧ o.fld = a.fld ^ n.toNat := by
  intro h
  obtain ⟨a, ha⟩ := FQ6.exists_rep Fq6.v
  obtain ⟨o, h1, h2⟩ := h a (.new 2) ha.out.1
  obtain ⟨o', h3, h4⟩ := ha.exp? (.new 2)
  rw [h1, Option.some.injEq] at h3
  subst h3
  rw [h4.out.2, ha.out.2] at h2
  have e : (FQRepr.new 2).toNat = 2 := by decide +kernel
  rw [e] at h2
  have h6 := prod_bits_two (fun i => Fq6.badSq^[i] Fq6.v) 382
  rw [h6, Function.iterate_one] at h2
  have h5 := congrArg Fq6.c1 h2
  simp [Fq6.v, Fq6.badSq, pow_two] at h5

/-- What it computes instead: it terminates, and multiplies together iterates of the map `badSq`
(which is `MulAssign` with an aliased argument) at the positions of the one bits of `n`. -/
theorem C19_exp_actual (a : FQ6) (ha : a.isValid) (n : FQRepr) :
    ∃ o, a.exp? n = some o ∧ o.isValid ∧
      o.fld = ∏ i ∈ Finset.range 384, if n.toNat.testBit i then Fq6.badSq^[i] a.fld else 1 := by
  obtain ⟨o, h1, h2⟩ := (FQ6.rep ha).exp? n
  exact ⟨o, h1, h2.out⟩

/-- The part of the claim that holds: exponents 0 and 1. Missing: all other exponents, for which the
claim is false. -/
theorem C19_exp_partial (a : FQ6) (ha : a.isValid) (n : FQRepr) (hn : n.toNat < 2) :
    ∃ o, a.exp? n = some o ∧ o.fld = a.fld ^ n.toNat := by
  obtain ⟨o, h1, h2⟩ := (FQ6.rep ha).exp? n
  refine ⟨o, h1, ?_⟩
  rw [h2.out.2]
  have hb : ∀ i ∈ Finset.range 383, (if n.toNat.testBit (i + 1) then Fq6.badSq^[i + 1] a.fld else 1) = 1 := by
    intro i _
    rw [show n.toNat.testBit (i + 1) = false by
      rw [Nat.testBit_succ, Nat.div_eq_of_lt hn]; simp]
    rfl
  rw [Finset.prod_range_succ', Finset.prod_congr rfl hb, Finset.prod_const_one, one_mul]
  have : n.toNat = 0 ∨ n.toNat = 1 := by omega
  rcases this with e | e <;> simp [e]

example : (FQRepr.new 1).toNat < 2 ∧ ex6.isValid := by decide +kernel

/-! ## C44, FQ2 -/

/-- `FQ2.MulBits(b)` for a non-negative `b` multiplies by `b`. -/
theorem C44_fq2_mulBits (a : FQ2) (ha : a.isValid) (b : ℕ) :
    (a.mulBits b).isValid ∧ (a.mulBits b).fld = (b : Fq2) * a.fld := ((FQ2.rep ha).mulBits b).out

/-- `HashFQ2`: the digest read as a big-endian integer, as an element of Fq. -/
theorem C44_hashFQ2 (d : List UInt8) :
    (FQ2.hashFQ2 d).isValid ∧ (FQ2.hashFQ2 d).fld = (beNat d : Fq2) := by
  have h := (FQ2.one_rep.mulBits (beNat d)).out
  rw [mul_one] at h
  exact h

end Bls.Props
