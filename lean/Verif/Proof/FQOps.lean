import Verif.Proof.FQMont
import Mathlib.Data.ZMod.Basic
import Mathlib.Data.ZMod.Units
import Mathlib.Tactic.NormNum.GCD
/-
FQ operations refine arithmetic in `ZMod q`.
-/
namespace Bls
set_option exponentiation.threshold 1000

/-- The base field (a commutative ring here; `Verif.Proof.Primes` makes it a field). -/
abbrev Fq := ZMod q

instance : NeZero q := ⟨by norm_num [q]⟩
instance : Fact (1 < q) := ⟨by norm_num [q]⟩

/-- The Montgomery radix R = 2^384 in `ZMod q`. -/
@[irreducible] def Rq : Fq := ((2 ^ 384 : ℕ) : Fq)

theorem Rq_eq : Rq = ((2 ^ 384 : ℕ) : Fq) := by rw [Rq]

theorem R_mul_inv : Rq * Rq⁻¹ = 1 := by
  rw [Rq_eq]
  refine ZMod.coe_mul_inv_eq_one (n := q) (2 ^ 384) ?_
  rw [Nat.coprime_iff_gcd_eq_one]
  norm_num [q]

theorem R_ne : IsUnit Rq := IsUnit.of_mul_eq_one _ R_mul_inv

/-- The element of `ZMod q` an FQ denotes: its integer divided by R = 2^384. -/
def FQ.val (a : FQ) : Fq := a.n.toNat * Rq⁻¹

/-- Canonical: the integer is below q. -/
def FQ.Valid (a : FQ) : Prop := a.n.toNat < q

theorem FQ.val_mul_R (a : FQ) : a.val * Rq = (a.n.toNat : Fq) := by
  rw [FQ.val, mul_assoc, mul_comm _ Rq, R_mul_inv, mul_one]

theorem FQ.val_eq_iff {a : FQ} {x : Fq} : a.val = x ↔ (a.n.toNat : Fq) = x * Rq := by
  rw [← FQ.val_mul_R]
  exact ⟨fun h => by rw [h], fun h => R_ne.mul_right_cancel h⟩

/-- `Rep a x`: the limb array `a` is canonical and denotes `x`. -/
structure FQ.Rep (a : FQ) (x : Fq) : Prop where
  valid : a.Valid
  eq : a.val = x

theorem FQ.Valid.rep {a : FQ} (h : a.Valid) : a.Rep a.val := ⟨h, rfl⟩

theorem FQ.rep_iff {a : FQ} {x : Fq} :
    a.Rep x ↔ a.n.toNat < q ∧ (a.n.toNat : Fq) = x * Rq :=
  ⟨fun h => ⟨h.1, FQ.val_eq_iff.mp h.2⟩, fun h => ⟨h.1, FQ.val_eq_iff.mpr h.2⟩⟩

theorem natCast_inj_of_lt {a b : ℕ} (ha : a < q) (hb : b < q) (h : (a : Fq) = b) : a = b := by
  have := (ZMod.natCast_eq_natCast_iff' a b q).mp h
  rwa [Nat.mod_eq_of_lt ha, Nat.mod_eq_of_lt hb] at this

/-- A canonical representation is unique. -/
theorem FQ.Rep.inj {a b : FQ} {x : Fq} (ha : a.Rep x) (hb : b.Rep x) : a = b := by
  have h := (FQ.rep_iff.mp ha).2.trans (FQ.rep_iff.mp hb).2.symm
  have := natCast_inj_of_lt ha.valid hb.valid h
  exact FQ.ext (FQRepr.toNat_inj this)

theorem FQ.Valid.ext {a b : FQ} (ha : a.Valid) (hb : b.Valid) (h : a.val = b.val) : a = b :=
  ha.rep.inj (h ▸ hb.rep)

theorem mask_top (x : W) (h : x &&& 0xf000000000000000 = 0) : x.toNat < 2 ^ 60 := by
  have hx := x.lt
  have h1 : x.toNat &&& 0xf000000000000000 = 0 := by
    have := congrArg UInt64.toNat h
    simpa [UInt64.toNat_and] using this
  have h2 : (x.toNat &&& 0xf000000000000000) >>> 60 = 0 := by rw [h1]; rfl
  rw [Nat.shiftRight_and_distrib] at h2
  have h3 : (0xf000000000000000 >>> 60 : ℕ) = 2 ^ 4 - 1 := by decide
  rw [h3, Nat.and_two_pow_sub_one_eq_mod, Nat.shiftRight_eq_div_pow] at h2
  omega

theorem FQ.isValid_iff {a : FQ} : a.isValid = true ↔ a.Valid := by
  simp only [isValid, Bool.or_eq_true, beq_iff_eq, decide_eq_true_eq, FQRepr.cmp_lt_zero,
    qFieldModulus_toNat, Valid]
  constructor
  · rintro (h | h)
    · have h5 := mask_top _ h
      have := a.n.l0.lt; have := a.n.l1.lt; have := a.n.l2.lt
      have := a.n.l3.lt; have := a.n.l4.lt
      have := q_gt
      simp only [FQRepr.toNat]
      omega
    · exact h
  · exact Or.inr

theorem FQ.reduceRepr_spec {n : FQRepr} (h : n.toNat < 2 * q) :
    (reduceRepr n).toNat = n.toNat % q := by
  unfold reduceRepr
  by_cases hv : (FQ.mk n).isValid = true
  · rw [hv]
    have := isValid_iff.mp hv
    simp only [Bool.not_true, Bool.false_eq_true, if_false]
    exact (Nat.mod_eq_of_lt this).symm
  · have h2 : q ≤ n.toNat := by
      have := mt isValid_iff.mpr hv
      simpa [Valid] using this
    simp only [Bool.not_eq_true] at hv
    rw [hv]
    simp only [Bool.not_false, if_true]
    rw [FQRepr.subNoBorrow_of_le (by rw [qFieldModulus_toNat]; exact h2), qFieldModulus_toNat]
    rw [Nat.mod_eq_sub_mod h2, Nat.mod_eq_of_lt (by omega)]

theorem FQ.reduce_spec {a : FQ} (h : a.n.toNat < 2 * q) :
    a.reduce.n.toNat = a.n.toNat % q := by
  unfold reduce
  exact FQ.reduceRepr_spec h

theorem FQ.Rep.of_nat {a : FQ} {x : Fq} {m : ℕ} (h : a.n.toNat = m % q)
    (hx : (m : Fq) = x * Rq) : a.Rep x := by
  rw [rep_iff, h]
  refine ⟨Nat.mod_lt _ q_pos, ?_⟩
  rw [ZMod.natCast_mod, hx]

/-- Montgomery reduction: the result denotes the 768-bit number divided by R². -/
theorem FQ.montReduce_rep {hi lo : FQRepr} {x : Fq}
    (h : hi.toNat * 2 ^ 384 + lo.toNat < q * 2 ^ 384)
    (hx : ((hi.toNat * 2 ^ 384 + lo.toNat : ℕ) : Fq) = x * Rq * Rq) :
    (montReduce hi lo).Rep x := by
  obtain ⟨K, c, hK, he⟩ := montReduceRepr_spec hi lo
  have hq := q_lt
  have hKq : K * q < 2 ^ 384 * q := Nat.mul_lt_mul_of_pos_right hK q_pos
  have hc : c = 0 := by
    by_contra hc
    have : 1 * 2 ^ 768 ≤ c * 2 ^ 768 := Nat.mul_le_mul_right _ (Nat.one_le_iff_ne_zero.mpr hc)
    omega
  subst hc
  have hlt : (montReduceRepr hi lo).toNat < 2 * q := by omega
  unfold FQ.montReduce
  refine FQ.Rep.of_nat (FQ.reduceRepr_spec hlt) ?_
  apply R_ne.mul_right_cancel
  rw [← hx]
  have := congrArg (Nat.cast (R := Fq)) he
  simp only [Nat.cast_add, Nat.cast_mul, ← Rq_eq, ZMod.natCast_self, zero_mul, Nat.cast_zero] at this ⊢
  linear_combination this

theorem FQ.Rep.mul {a b : FQ} {x y : Fq} (ha : a.Rep x) (hb : b.Rep y) :
    (a.mul b).Rep (x * y) := by
  have hm := FQRepr.multiply_spec a.n b.n
  have ha' := rep_iff.mp ha
  have hb' := rep_iff.mp hb
  unfold FQ.mul
  change (montReduce (a.n.multiply b.n).1 (a.n.multiply b.n).2).Rep _
  generalize a.n.multiply b.n = p at hm ⊢
  apply FQ.montReduce_rep
  · rw [hm]
    exact Nat.mul_lt_mul'' ha'.1 b.n.toNat_lt
  · rw [hm, Nat.cast_mul]; rw [ha'.2, hb'.2]; ring

theorem FQ.Rep.add {a b : FQ} {x y : Fq} (ha : a.Rep x) (hb : b.Rep y) :
    (a.add b).Rep (x + y) := by
  have ha' := rep_iff.mp ha
  have hb' := rep_iff.mp hb
  have hq := q_lt
  have hs : (a.n.addNoCarry b.n).toNat = a.n.toNat + b.n.toNat := by
    rw [FQRepr.addNoCarry_spec, Nat.mod_eq_of_lt (by omega)]
  unfold FQ.add
  refine FQ.Rep.of_nat (FQ.reduce_spec (by simp only [hs]; omega)) ?_
  rw [hs]; push_cast; rw [ha'.2, hb'.2]; ring

theorem FQ.Rep.double {a : FQ} {x : Fq} (ha : a.Rep x) : a.double.Rep (x + x) := by
  have ha' := rep_iff.mp ha
  have hq := q_lt
  have hs : a.n.mul2.toNat = 2 * a.n.toNat := by
    rw [FQRepr.mul2_spec, Nat.mod_eq_of_lt (by omega)]
  unfold FQ.double
  refine FQ.Rep.of_nat (FQ.reduce_spec (by simp only [hs]; omega)) ?_
  rw [hs]; push_cast; rw [ha'.2]; ring

theorem FQ.Rep.sub {a b : FQ} {x y : Fq} (ha : a.Rep x) (hb : b.Rep y) :
    (a.sub b).Rep (x - y) := by
  have ha' := rep_iff.mp ha
  have hb' := rep_iff.mp hb
  have hq := q_lt
  unfold FQ.sub
  simp only [FQRepr.cmp_pos]
  split_ifs with h
  · have hs : (a.n.addNoCarry qFieldModulus).toNat = a.n.toNat + q := by
      rw [FQRepr.addNoCarry_spec, qFieldModulus_toNat, Nat.mod_eq_of_lt (by omega)]
    rw [rep_iff, FQRepr.subNoBorrow_of_le (by omega), hs]
    refine ⟨by omega, ?_⟩
    rw [Nat.cast_sub (by omega)]; push_cast
    rw [ha'.2, hb'.2, ZMod.natCast_self]; ring
  · rw [rep_iff, FQRepr.subNoBorrow_of_le (by omega)]
    refine ⟨by omega, ?_⟩
    rw [Nat.cast_sub (by omega), ha'.2, hb'.2]; ring

theorem bigZero_toNat : bigZero.toNat = 0 := by decide
theorem bigOne_toNat : bigOne.toNat = 1 := by decide

theorem FQ.isZero_iff_toNat {a : FQ} : a.isZero = true ↔ a.n.toNat = 0 := by
  rw [isZero, FQRepr.equals_iff, ← FQRepr.toNat_inj_iff, bigZero_toNat]

theorem FQ.Rep.toNat_eq_zero {a : FQ} {x : Fq} (ha : a.Rep x) : a.n.toNat = 0 ↔ x = 0 := by
  have ha' := rep_iff.mp ha
  constructor
  · intro h
    rw [h, Nat.cast_zero] at ha'
    exact R_ne.mul_right_cancel (by rw [← ha'.2, zero_mul])
  · rintro rfl
    exact natCast_inj_of_lt ha'.1 q_pos (by rw [ha'.2]; simp)

theorem FQ.Rep.isZero {a : FQ} {x : Fq} (ha : a.Rep x) : a.isZero = true ↔ x = 0 := by
  rw [isZero_iff_toNat, ha.toNat_eq_zero]

theorem FQ.Rep.equals {a b : FQ} {x y : Fq} (ha : a.Rep x) (hb : b.Rep y) :
    a.equals b = true ↔ x = y := by
  rw [FQ.equals, FQRepr.equals_iff]
  constructor
  · intro h
    rw [← ha.eq, ← hb.eq, FQ.val, FQ.val, h]
  · rintro rfl
    rw [ha.inj hb]

theorem FQ.Rep.neg {a : FQ} {x : Fq} (ha : a.Rep x) : a.neg.Rep (-x) := by
  have ha' := rep_iff.mp ha
  unfold FQ.neg
  by_cases hz : a.isZero = true
  · have hx := ha.isZero.mp hz
    rw [hz]
    simp only [Bool.not_true, Bool.false_eq_true, if_false]
    subst hx
    rw [neg_zero]
    exact ha
  · have hx := mt isZero_iff_toNat.mpr hz
    simp only [Bool.not_eq_true] at hz
    rw [hz]
    simp only [Bool.not_false, if_true]
    rw [rep_iff, FQRepr.subNoBorrow_of_le (by rw [qFieldModulus_toNat]; omega), qFieldModulus_toNat]
    refine ⟨by omega, ?_⟩
    rw [Nat.cast_sub (by omega), ha'.2, ZMod.natCast_self]; ring

theorem FQ.zero_rep : FQ.zero.Rep 0 := by
  rw [rep_iff]
  have : FQ.zero.n.toNat = 0 := bigZero_toNat
  rw [this]
  exact ⟨q_pos, by simp⟩

theorem FQ.zero'_rep : FQ.Rep ⟨⟨0, 0, 0, 0, 0, 0⟩⟩ 0 := FQ.zero_rep

theorem fqR2_rep : FQ.Rep ⟨fqR2⟩ Rq := by
  rw [FQ.rep_iff]
  refine ⟨?_, ?_⟩
  · rw [fqR2_toNat]; exact Nat.mod_lt _ q_pos
  · rw [fqR2_toNat, ZMod.natCast_mod, show (2:ℕ) ^ 768 = 2 ^ 384 * 2 ^ 384 by norm_num, Nat.cast_mul, Rq_eq]

/-- `FQReprToFQ` of an integer below q is that integer. -/
theorem FQ.ofRepr_rep {o : FQRepr} (h : o.toNat < q) : (FQ.ofRepr o).Rep (o.toNat : Fq) := by
  have hv : (⟨o⟩ : FQ).isValid = true := isValid_iff.mpr h
  simp only [FQ.ofRepr, hv, if_true]
  have h1 : FQ.Rep ⟨o⟩ ((o.toNat : Fq) * Rq⁻¹) := ⟨h, rfl⟩
  have := h1.mul fqR2_rep
  rwa [mul_assoc, mul_comm _ Rq, R_mul_inv, mul_one] at this

/-- `FQReprToFQ` of an integer at or above q is zero. -/
theorem FQ.ofRepr_of_le {o : FQRepr} (h : q ≤ o.toNat) : (FQ.ofRepr o).Rep 0 := by
  have hv : (⟨o⟩ : FQ).isValid = false := by
    rw [Bool.eq_false_iff]; intro h'; exact absurd (isValid_iff.mp h') (by simpa [Valid] using h)
  simp only [FQ.ofRepr, hv]
  exact FQ.zero'_rep

theorem FQ.one_rep : FQ.one.Rep 1 := by
  have := FQ.ofRepr_rep (o := bigOne) (by rw [bigOne_toNat]; norm_num [q])
  rw [bigOne_toNat, Nat.cast_one] at this
  unfold FQ.one
  exact this

/-- `ToRepr` is the unique integer in [0,q) denoted by the element. -/
theorem FQ.Rep.toRepr {a : FQ} {x : Fq} (ha : a.Rep x) : a.toRepr.toNat = x.val := by
  have ha' := rep_iff.mp ha
  have h0 : (⟨0, 0, 0, 0, 0, 0⟩ : FQRepr).toNat = 0 := bigZero_toNat
  unfold FQ.toRepr
  generalize (⟨0, 0, 0, 0, 0, 0⟩ : FQRepr) = o at h0 ⊢
  have h : (montReduce o a.n).Rep (x * Rq⁻¹) := by
    apply FQ.montReduce_rep
    · rw [h0]; have := q_gt; have := a.n.toNat_lt; omega
    · rw [h0, zero_mul, zero_add, ha'.2]
      rw [mul_assoc x Rq⁻¹ Rq, mul_comm Rq⁻¹ Rq, R_mul_inv, mul_one]
  unfold FQ.montReduce at h
  have h' := rep_iff.mp h
  rw [mul_assoc, mul_comm _ Rq, R_mul_inv, mul_one] at h'
  have hc := congrArg ZMod.val h'.2
  rw [ZMod.val_natCast, Nat.mod_eq_of_lt h'.1] at hc
  exact hc

theorem FQ.Rep.cmp {a b : FQ} {x y : Fq} (ha : a.Rep x) (hb : b.Rep y) :
    a.cmp b = if x.val < y.val then -1 else if x.val = y.val then 0 else 1 := by
  rw [FQ.cmp, FQRepr.cmp_spec, ha.toRepr, hb.toRepr]

end Bls
