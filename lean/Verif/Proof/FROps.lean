import Verif.Model.FR
import Verif.Proof.FRRepr
import Verif.Proof.Primes
import Verif.Proof.FQSquare
import Mathlib.Data.ZMod.Basic
import Mathlib.Data.ZMod.Units
import Mathlib.Tactic.NormNum.GCD
/-
FR operations refine arithmetic in `ZMod r`.
-/
namespace Bls
set_option exponentiation.threshold 1000

theorem rFieldModulus_toNat : rFieldModulus.toNat = r := by
  simp only [rFieldModulus, r]; exact FRRepr.ofNat_toNat (by norm_num)

theorem frR2_toNat : frR2.toNat = 2 ^ 512 % r := by
  rw [frR2, FRRepr.ofNat_toNat (by norm_num)]
  norm_num [r]

theorem r_pos : 0 < r := by norm_num [r]
theorem r_lt : 2 * r < 2 ^ 256 := by norm_num [r]
theorem r_gt : 2 ^ 254 < r := by norm_num [r]

theorem fr_mont_low {lo z c : W}
    (h : (z.toNat : ℤ) + 2 ^ 64 * c.toNat
      = lo.toNat + (lo * montInvFR).toNat * rFieldModulus.l0.toNat + (0 : W).toNat) : z.toNat = 0 := by
  have hq : rFieldModulus.l0.toNat = 0xffffffff00000001 := by decide
  have hm : montInvFR.toNat = 0xfffffffeffffffff := by decide
  rw [UInt64.toNat_mul, hq, hm] at h
  have hl := lo.lt; have hz := z.lt; have hc := c.lt
  simp only [UInt64.toNat_zero] at h
  omega

theorem montReduceFRRepr_spec (hi lo : FRRepr) :
    ∃ K c : ℕ, K < 2 ^ 256 ∧
      (montReduceFRRepr hi lo).toNat * 2 ^ 256 + c * 2 ^ 512
        = hi.toNat * 2 ^ 256 + lo.toNat + K * r := by
  rw [← rFieldModulus_toNat]
  generalize hr : montReduceFRRepr hi lo = r
  revert hr
  unfold montReduceFRRepr
  mac z0 c0 a0
  mac b1 c1 a1
  mac b2 c2 a2
  mac b3 c3 a3
  adc h0 c6 a6
  replace z0 := fr_mont_low a0
  mac z1 c10 a10
  mac b12 c12 a12
  mac b13 c13 a13
  mac h10 c16 a16
  adc h11 c17 a17
  replace z1 := fr_mont_low a10
  mac z2 c20 a20
  mac b23 c23 a23
  mac h20 c26 a26
  mac h21 c27 a27
  adc h22 c28 a28
  replace z2 := fr_mont_low a20
  mac z3 c30 a30
  mac h30 c36 a36
  mac h31 c37 a37
  mac h32 c38 a38
  adc h33 c39 a39
  replace z3 := fr_mont_low a30
  rintro rfl
  rw [z0] at a0; rw [z1] at a10; rw [z2] at a20; rw [z3] at a30
  generalize hk0 : lo.l0 * montInvFR = k0 at *
  generalize hk1 : b1 * montInvFR = k1 at *
  generalize hk2 : b12 * montInvFR = k2 at *
  generalize hk3 : b23 * montInvFR = k3 at *
  refine ⟨FRRepr.toNat ⟨k0, k1, k2, k3⟩, c39.toNat, FRRepr.toNat_lt _, ?_⟩
  clear hk0 hk1 hk2 hk3 z0 z1 z2 z3
  simp only [FRRepr.toNat]
  zify
  simp only [UInt64.toNat_zero, Nat.cast_zero] at *
  linear_combination a0 + 2 ^ 64 * a1 + 2 ^ 128 * a2 + 2 ^ 192 * a3 + 2 ^ 256 * a6
    + 2 ^ 64 * (a10 + 2 ^ 64 * a12 + 2 ^ 128 * a13 + 2 ^ 192 * a16 + 2 ^ 256 * a17)
    + 2 ^ 128 * (a20 + 2 ^ 64 * a23 + 2 ^ 128 * a26 + 2 ^ 192 * a27 + 2 ^ 256 * a28)
    + 2 ^ 192 * (a30 + 2 ^ 64 * a36 + 2 ^ 128 * a37 + 2 ^ 192 * a38 + 2 ^ 256 * a39)

theorem FR.multiply_spec (a b : FRRepr) :
    (FR.multiply a b).1.toNat * 2 ^ 256 + (FR.multiply a b).2.toNat = a.toNat * b.toNat := by
  generalize hr : FR.multiply a b = r
  revert hr
  unfold FR.multiply
  mac lo0 c0 e1
  mac lo1 c1 e2
  mac lo2 c2 e3
  mac lo3 c3 e4
  mac lo1' d0 f1
  mac lo2' d1 f2
  mac lo3' d2 f3
  mac lo4' d3 f4
  mac lo2'' g0 g1
  mac lo3'' g2 g3
  mac lo4'' g4 g5
  mac lo5'' g6 g7
  mac lp3 h0 h1
  mac lp4 h2 h3
  mac lp5 h4 h5
  mac hi0'' h6 h7
  rintro rfl
  simp only [FRRepr.toNat]
  zify
  simp only [UInt64.toNat_zero, Nat.cast_zero] at *
  linear_combination e1 + 2 ^ 64 * e2 + 2 ^ 128 * e3 + 2 ^ 192 * e4
    + 2 ^ 64 * (f1 + 2 ^ 64 * f2 + 2 ^ 128 * f3 + 2 ^ 192 * f4)
    + 2 ^ 128 * (g1 + 2 ^ 64 * g3 + 2 ^ 128 * g5 + 2 ^ 192 * g7)
    + 2 ^ 192 * (h1 + 2 ^ 64 * h3 + 2 ^ 128 * h5 + 2 ^ 192 * h7)

theorem FR.squareWide_spec (f : FRRepr) :
    (FR.squareWide f).1.toNat * 2 ^ 256 + (FR.squareWide f).2.toNat = f.toNat * f.toNat := by
  have key : ∃ k : ℕ, (FR.squareWide f).1.toNat * 2 ^ 256 + (FR.squareWide f).2.toNat + 2 ^ 512 * k
      = f.toNat * f.toNat := by
    generalize hr : FR.squareWide f = r
    revert hr
    unfold FR.squareWide
    mac a1 c1 e1
    mac a2 c2 e2
    mac a3 c3 e3
    mac b3 d1 f1
    mac b4 d2 f2
    mac x5 y1 g1
    mac m0 n0 j0
    adc m1 n1 j1
    mac m2 n2 j2
    adc m3 n3 j3
    mac m4 n4 j4
    adc m5 n5 j5
    mac m6 n6 j6
    adc m7 n7 j7
    rintro rfl
    refine ⟨n7.toNat, ?_⟩
    simp only [FRRepr.toNat]
    zify
    simp only [shl1_or_int, shl1_int, shr63_int, UInt64.toNat_zero, Nat.cast_zero] at *
    linear_combination 2 * 2 ^ 64 * (e1 + 2 ^ 64 * e2 + 2 ^ 128 * e3)
      + 2 * 2 ^ 192 * (f1 + 2 ^ 64 * f2)
      + 2 * 2 ^ 320 * g1
      + (j0 + 2 ^ 64 * j1 + 2 ^ 128 * j2 + 2 ^ 192 * j3 + 2 ^ 256 * j4 + 2 ^ 320 * j5 + 2 ^ 384 * j6
      + 2 ^ 448 * j7)
  obtain ⟨k, hk⟩ := key
  have h1 := f.toNat_lt
  have h2 : f.toNat * f.toNat < 2 ^ 256 * 2 ^ 256 := Nat.mul_lt_mul'' h1 h1
  have h3 : k = 0 := by
    by_contra h
    have : 2 ^ 512 * 1 ≤ 2 ^ 512 * k := Nat.mul_le_mul_left _ (by omega)
    omega
  rw [h3, mul_zero, add_zero] at hk
  exact hk

/-- The scalar field. -/
abbrev Fr := ZMod r

instance : NeZero r := ⟨by norm_num [r]⟩
instance : Fact (1 < r) := ⟨by norm_num [r]⟩

/-- The Montgomery radix R = 2^256 in `ZMod r`. -/
@[irreducible] def Rr : Fr := ((2 ^ 256 : ℕ) : Fr)

theorem Rr_eq : Rr = ((2 ^ 256 : ℕ) : Fr) := by rw [Rr]

theorem Rr_mul_inv : Rr * Rr⁻¹ = 1 := by
  rw [Rr_eq]
  refine ZMod.coe_mul_inv_eq_one (n := r) (2 ^ 256) ?_
  rw [Nat.coprime_iff_gcd_eq_one]
  norm_num [r]

theorem Rr_ne : IsUnit Rr := IsUnit.of_mul_eq_one _ Rr_mul_inv

/-- The element of `ZMod r` an FR denotes: its integer divided by R = 2^256. -/
def FR.val (a : FR) : Fr := a.n.toNat * Rr⁻¹

/-- Canonical: the integer is below r. -/
def FR.Valid (a : FR) : Prop := a.n.toNat < r

theorem FR.val_mul_R (a : FR) : a.val * Rr = (a.n.toNat : Fr) := by
  rw [FR.val, mul_assoc, mul_comm _ Rr, Rr_mul_inv, mul_one]

theorem FR.val_eq_iff {a : FR} {x : Fr} : a.val = x ↔ (a.n.toNat : Fr) = x * Rr := by
  rw [← FR.val_mul_R]
  exact ⟨fun h => by rw [h], fun h => Rr_ne.mul_right_cancel h⟩

/-- `Rep a x`: the limb array `a` is canonical and denotes `x`. -/
structure FR.Rep (a : FR) (x : Fr) : Prop where
  valid : a.Valid
  eq : a.val = x

theorem FR.Valid.rep {a : FR} (h : a.Valid) : a.Rep a.val := ⟨h, rfl⟩

theorem FR.rep_iff {a : FR} {x : Fr} :
    a.Rep x ↔ a.n.toNat < r ∧ (a.n.toNat : Fr) = x * Rr :=
  ⟨fun h => ⟨h.1, FR.val_eq_iff.mp h.2⟩, fun h => ⟨h.1, FR.val_eq_iff.mpr h.2⟩⟩

theorem fr_natCast_inj_of_lt {a b : ℕ} (ha : a < r) (hb : b < r) (h : (a : Fr) = b) : a = b := by
  have := (ZMod.natCast_eq_natCast_iff' a b r).mp h
  rwa [Nat.mod_eq_of_lt ha, Nat.mod_eq_of_lt hb] at this

/-- A canonical representation is unique. -/
theorem FR.Rep.inj {a b : FR} {x : Fr} (ha : a.Rep x) (hb : b.Rep x) : a = b := by
  have h := (FR.rep_iff.mp ha).2.trans (FR.rep_iff.mp hb).2.symm
  have := fr_natCast_inj_of_lt ha.valid hb.valid h
  exact FR.ext (FRRepr.toNat_inj this)

theorem FR.Valid.ext {a b : FR} (ha : a.Valid) (hb : b.Valid) (h : a.val = b.val) : a = b :=
  ha.rep.inj (h ▸ hb.rep)

theorem FR.isValid_iff {a : FR} : a.isValid = true ↔ a.Valid := by
  simp only [isValid, decide_eq_true_eq, FRRepr.cmp_lt_zero,
    rFieldModulus_toNat, Valid]

theorem FR.reduceRepr_spec {n : FRRepr} (h : n.toNat < 2 * r) :
    (reduceRepr n).toNat = n.toNat % r := by
  unfold reduceRepr
  by_cases hv : (FR.mk n).isValid = true
  · rw [hv]
    have := isValid_iff.mp hv
    simp only [Bool.not_true, Bool.false_eq_true, if_false]
    exact (Nat.mod_eq_of_lt this).symm
  · have h2 : r ≤ n.toNat := by
      have := mt isValid_iff.mpr hv
      simpa [Valid] using this
    simp only [Bool.not_eq_true] at hv
    rw [hv]
    simp only [Bool.not_false, if_true]
    rw [FRRepr.subNoBorrow_of_le (by rw [rFieldModulus_toNat]; exact h2), rFieldModulus_toNat]
    rw [Nat.mod_eq_sub_mod h2, Nat.mod_eq_of_lt (by omega)]

theorem FR.reduce_spec {a : FR} (h : a.n.toNat < 2 * r) :
    a.reduce.n.toNat = a.n.toNat % r := by
  unfold reduce
  exact FR.reduceRepr_spec h

theorem FR.Rep.of_nat {a : FR} {x : Fr} {m : ℕ} (h : a.n.toNat = m % r)
    (hx : (m : Fr) = x * Rr) : a.Rep x := by
  rw [rep_iff, h]
  refine ⟨Nat.mod_lt _ r_pos, ?_⟩
  rw [ZMod.natCast_mod, hx]

/-- Montgomery reduction: the result denotes the 512-bit number divided by R². -/
theorem FR.montReduce_rep {hi lo : FRRepr} {x : Fr}
    (h : hi.toNat * 2 ^ 256 + lo.toNat < r * 2 ^ 256)
    (hx : ((hi.toNat * 2 ^ 256 + lo.toNat : ℕ) : Fr) = x * Rr * Rr) :
    (montReduce hi lo).Rep x := by
  obtain ⟨K, c, hK, he⟩ := montReduceFRRepr_spec hi lo
  have hq := r_lt
  have hKq : K * r < 2 ^ 256 * r := Nat.mul_lt_mul_of_pos_right hK r_pos
  have hc : c = 0 := by
    by_contra hc
    have : 1 * 2 ^ 512 ≤ c * 2 ^ 512 := Nat.mul_le_mul_right _ (Nat.one_le_iff_ne_zero.mpr hc)
    omega
  subst hc
  have hlt : (montReduceFRRepr hi lo).toNat < 2 * r := by omega
  unfold FR.montReduce
  refine FR.Rep.of_nat (FR.reduceRepr_spec hlt) ?_
  apply Rr_ne.mul_right_cancel
  rw [← hx]
  have := congrArg (Nat.cast (R := Fr)) he
  simp only [Nat.cast_add, Nat.cast_mul, ← Rr_eq, ZMod.natCast_self, zero_mul, Nat.cast_zero] at this ⊢
  linear_combination this

theorem FR.Rep.mul {a b : FR} {x y : Fr} (ha : a.Rep x) (hb : b.Rep y) :
    (a.mul b).Rep (x * y) := by
  have hm := FR.multiply_spec a.n b.n
  have ha' := rep_iff.mp ha
  have hb' := rep_iff.mp hb
  unfold FR.mul
  change (montReduce (FR.multiply a.n b.n).1 (FR.multiply a.n b.n).2).Rep _
  generalize FR.multiply a.n b.n = p at hm ⊢
  apply FR.montReduce_rep
  · rw [hm]
    exact Nat.mul_lt_mul'' ha'.1 b.n.toNat_lt
  · rw [hm, Nat.cast_mul]; rw [ha'.2, hb'.2]; ring

theorem FR.Rep.add {a b : FR} {x y : Fr} (ha : a.Rep x) (hb : b.Rep y) :
    (a.add b).Rep (x + y) := by
  have ha' := rep_iff.mp ha
  have hb' := rep_iff.mp hb
  have hq := r_lt
  have hs : (a.n.addNoCarry b.n).toNat = a.n.toNat + b.n.toNat := by
    rw [FRRepr.addNoCarry_spec, Nat.mod_eq_of_lt (by omega)]
  unfold FR.add
  refine FR.Rep.of_nat (FR.reduce_spec (by simp only [hs]; omega)) ?_
  rw [hs]; push_cast; rw [ha'.2, hb'.2]; ring

theorem FR.Rep.double {a : FR} {x : Fr} (ha : a.Rep x) : a.double.Rep (x + x) := by
  have ha' := rep_iff.mp ha
  have hq := r_lt
  have hs : a.n.mul2.toNat = 2 * a.n.toNat := by
    rw [FRRepr.mul2_spec, Nat.mod_eq_of_lt (by omega)]
  unfold FR.double
  refine FR.Rep.of_nat (FR.reduce_spec (by simp only [hs]; omega)) ?_
  rw [hs]; push_cast; rw [ha'.2]; ring

theorem FR.Rep.sub {a b : FR} {x y : Fr} (ha : a.Rep x) (hb : b.Rep y) :
    (a.sub b).Rep (x - y) := by
  have ha' := rep_iff.mp ha
  have hb' := rep_iff.mp hb
  have hq := r_lt
  unfold FR.sub
  simp only [FRRepr.cmp_pos]
  split_ifs with h
  · have hs : (a.n.addNoCarry rFieldModulus).toNat = a.n.toNat + r := by
      rw [FRRepr.addNoCarry_spec, rFieldModulus_toNat, Nat.mod_eq_of_lt (by omega)]
    rw [rep_iff, FRRepr.subNoBorrow_of_le (by omega), hs]
    refine ⟨by omega, ?_⟩
    rw [Nat.cast_sub (by omega)]; push_cast
    rw [ha'.2, hb'.2, ZMod.natCast_self]; ring
  · rw [rep_iff, FRRepr.subNoBorrow_of_le (by omega)]
    refine ⟨by omega, ?_⟩
    rw [Nat.cast_sub (by omega), ha'.2, hb'.2]; ring

theorem frZero_toNat : frZero.toNat = 0 := by decide
theorem frOneRepr_toNat : (FRRepr.new 1).toNat = 1 := by decide

theorem FR.isZero_iff_toNat {a : FR} : a.isZero = true ↔ a.n.toNat = 0 := by
  rw [isZero, beq_iff_eq, FRRepr.cmp_eq_zero, ← FRRepr.toNat_inj_iff, frZero_toNat]

theorem FR.Rep.toNat_eq_zero {a : FR} {x : Fr} (ha : a.Rep x) : a.n.toNat = 0 ↔ x = 0 := by
  have ha' := rep_iff.mp ha
  constructor
  · intro h
    rw [h, Nat.cast_zero] at ha'
    exact Rr_ne.mul_right_cancel (by rw [← ha'.2, zero_mul])
  · rintro rfl
    exact fr_natCast_inj_of_lt ha'.1 r_pos (by rw [ha'.2]; simp)

theorem FR.Rep.isZero {a : FR} {x : Fr} (ha : a.Rep x) : a.isZero = true ↔ x = 0 := by
  rw [isZero_iff_toNat, ha.toNat_eq_zero]

theorem FR.Rep.equals {a b : FR} {x y : Fr} (ha : a.Rep x) (hb : b.Rep y) :
    a.equals b = true ↔ x = y := by
  rw [FR.equals, FRRepr.equals_iff]
  constructor
  · intro h
    rw [← ha.eq, ← hb.eq, FR.val, FR.val, h]
  · rintro rfl
    rw [ha.inj hb]

theorem FR.Rep.neg {a : FR} {x : Fr} (ha : a.Rep x) : a.neg.Rep (-x) := by
  have ha' := rep_iff.mp ha
  unfold FR.neg
  by_cases hz : a.isZero = true
  · have hx := ha.isZero.mp hz
    rw [hz]
    simp only [Bool.not_true, Bool.false_eq_true, if_false]
    subst hx
    rw [neg_zero]
    exact ha
  · have hx := mt isZero_iff_toNat.mpr hz
    simp only [Bool.not_eq_true] at hz
    rw [hz]
    simp only [Bool.not_false, if_true]
    rw [rep_iff, FRRepr.subNoBorrow_of_le (by rw [rFieldModulus_toNat]; omega), rFieldModulus_toNat]
    refine ⟨by omega, ?_⟩
    rw [Nat.cast_sub (by omega), ha'.2, ZMod.natCast_self]; ring

theorem frR2_rep : FR.Rep ⟨frR2⟩ Rr := by
  rw [FR.rep_iff]
  refine ⟨?_, ?_⟩
  · rw [frR2_toNat]; exact Nat.mod_lt _ r_pos
  · rw [frR2_toNat, ZMod.natCast_mod, show (2:ℕ) ^ 512 = 2 ^ 256 * 2 ^ 256 by norm_num, Nat.cast_mul, Rr_eq]

theorem FR.raw_mul_R2 {o : FRRepr} (h : o.toNat < r) : (FR.mul ⟨o⟩ ⟨frR2⟩).Rep (o.toNat : Fr) := by
  have h1 : FR.Rep ⟨o⟩ ((o.toNat : Fr) * Rr⁻¹) := ⟨h, rfl⟩
  have := h1.mul frR2_rep
  rwa [mul_assoc, mul_comm _ Rr, Rr_mul_inv, mul_one] at this

/-- `FRReprToFR` of an integer below r is that integer. -/
theorem FR.ofRepr?_lt {o : FRRepr} (h : o.toNat < r) :
    ∃ a, FR.ofRepr? o = some a ∧ a.Rep (o.toNat : Fr) := by
  have hv : (⟨o⟩ : FR).isValid = true := isValid_iff.mpr h
  refine ⟨_, ?_, FR.raw_mul_R2 h⟩
  simp only [FR.ofRepr?, hv, if_true]

/-- `FRReprToFR` of an integer at or above r is nil. -/
theorem FR.ofRepr?_of_le {o : FRRepr} (h : r ≤ o.toNat) : FR.ofRepr? o = none := by
  have hv : (⟨o⟩ : FR).isValid = false := by
    rw [Bool.eq_false_iff]; intro h'; exact absurd (isValid_iff.mp h') (by simpa [Valid] using h)
  simp only [FR.ofRepr?, hv, Bool.false_eq_true, if_false]

theorem FR.one_rep : FR.one.Rep 1 := by
  have := FR.raw_mul_R2 (o := .new 1) (by rw [frOneRepr_toNat]; norm_num [r])
  rw [frOneRepr_toNat, Nat.cast_one] at this
  unfold FR.one
  exact this

theorem FR.zero_rep : FR.zero.Rep 0 := by
  have := FR.raw_mul_R2 (o := frZero) (by rw [frZero_toNat]; norm_num [r])
  rw [frZero_toNat, Nat.cast_zero] at this
  unfold FR.zero
  exact this

/-- `ToRepr` is the unique integer in [0,r) denoted by the element. -/
theorem FR.Rep.toRepr {a : FR} {x : Fr} (ha : a.Rep x) : a.toRepr.toNat = x.val := by
  have ha' := rep_iff.mp ha
  have h0 : (⟨0, 0, 0, 0⟩ : FRRepr).toNat = 0 := frZero_toNat
  unfold FR.toRepr
  generalize (⟨0, 0, 0, 0⟩ : FRRepr) = o at h0 ⊢
  have h : (montReduce o a.n).Rep (x * Rr⁻¹) := by
    apply FR.montReduce_rep
    · rw [h0]; have := r_gt; have := a.n.toNat_lt; omega
    · rw [h0, zero_mul, zero_add, ha'.2]
      rw [mul_assoc x Rr⁻¹ Rr, mul_comm Rr⁻¹ Rr, Rr_mul_inv, mul_one]
  unfold FR.montReduce at h
  have h' := rep_iff.mp h
  rw [mul_assoc, mul_comm _ Rr, Rr_mul_inv, mul_one] at h'
  have hc := congrArg ZMod.val h'.2
  rw [ZMod.val_natCast, Nat.mod_eq_of_lt h'.1] at hc
  exact hc

theorem FR.Rep.cmp {a b : FR} {x y : Fr} (ha : a.Rep x) (hb : b.Rep y) :
    a.cmp b = if x.val < y.val then -1 else if x.val = y.val then 0 else 1 := by
  rw [FR.cmp, FRRepr.cmp_spec, ha.toRepr, hb.toRepr]

theorem FR.Rep.square {a : FR} {x : Fr} (ha : a.Rep x) : a.square.Rep (x * x) := by
  have hm := FR.squareWide_spec a.n
  have ha' := rep_iff.mp ha
  unfold FR.square
  change (montReduce (squareWide a.n).1 (squareWide a.n).2).Rep _
  generalize squareWide a.n = p at hm ⊢
  apply FR.montReduce_rep
  · rw [hm]
    exact Nat.mul_lt_mul'' ha'.1 a.n.toNat_lt
  · rw [hm, Nat.cast_mul]; rw [ha'.2]; ring

instance : Field Fr := ZMod.instField r

end Bls
