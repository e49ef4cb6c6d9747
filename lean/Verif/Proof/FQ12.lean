import Verif.Model.FQ12
import Verif.Proof.FQ6
/-
FQ12 refines Fq12 = Fq6[w]/(w²-v).
-/
set_option exponentiation.threshold 1000
namespace Bls

/-- `a` represents `x`. -/
structure FQ12.Rep (a : FQ12) (x : Fq12) : Prop where
  c0 : a.c0.Rep x.c0
  c1 : a.c1.Rep x.c1

namespace FQ12.Rep
variable {a b : FQ12} {x y : Fq12}

theorem inj (ha : a.Rep x) (hb : b.Rep x) : a = b := FQ12.ext (ha.c0.inj hb.c0) (ha.c1.inj hb.c1)

theorem add (ha : a.Rep x) (hb : b.Rep y) : (a.add b).Rep (x + y) := by
  unfold FQ12.add; exact ⟨ha.c0.add hb.c0, ha.c1.add hb.c1⟩

theorem sub (ha : a.Rep x) (hb : b.Rep y) : (a.sub b).Rep (x - y) := by
  unfold FQ12.sub; exact ⟨ha.c0.sub hb.c0, ha.c1.sub hb.c1⟩

theorem neg (ha : a.Rep x) : a.neg.Rep (-x) := by
  unfold FQ12.neg; exact ⟨ha.c0.neg, ha.c1.neg⟩

theorem double (ha : a.Rep x) : a.double.Rep (x + x) := by
  unfold FQ12.double; exact ⟨ha.c0.double, ha.c1.double⟩

theorem conjugate (ha : a.Rep x) : a.conjugate.Rep (Fq12.conj x) := by
  unfold FQ12.conjugate
  refine ⟨?_, ?_⟩
  · convert ha.c0 using 1; simp
  · convert ha.c1.neg using 1; exact Fq12.conj_c1 x

theorem mul (ha : a.Rep x) (hb : b.Rep y) : (a.mul b).Rep (x * y) := by
  unfold FQ12.mul
  have haa := ha.c0.mul hb.c0
  have hbb := ha.c1.mul hb.c1
  refine ⟨?_, ?_⟩
  · convert hbb.mulByNonresidue.add haa using 1
    rw [Fq12.mul_c0]; ring
  · convert (((ha.c1.add ha.c0).mul (hb.c0.add hb.c1)).sub haa).sub hbb using 1
    rw [Fq12.mul_c1]; ring

theorem square (ha : a.Rep x) : a.square.Rep (x * x) := by
  unfold FQ12.square
  have hab := ha.c0.mul ha.c1
  refine ⟨?_, ?_⟩
  · convert (((ha.c1.mulByNonresidue.add ha.c0).mul (ha.c0.add ha.c1)).sub hab).sub hab.mulByNonresidue using 1
    rw [Fq12.mul_c0]; ring
  · convert hab.add hab using 1
    rw [Fq12.mul_c1]; ring

theorem mulBy014 (ha : a.Rep x) {c0 c1 c4 : FQ2} {y0 y1 y4 : Fq2} (h0 : c0.Rep y0) (h1 : c1.Rep y1) (h4 : c4.Rep y4) :
    (a.mulBy014 c0 c1 c4).Rep (x * ⟨⟨y0, y1, 0⟩, ⟨0, y4, 0⟩⟩) := by
  unfold FQ12.mulBy014
  have haa := ha.c0.mulBy01 h0 h1
  have hbb := ha.c1.mulBy1 h4
  have hs : (⟨y0, y1 + y4, 0⟩ : Fq6) = ⟨y0, y1, 0⟩ + ⟨0, y4, 0⟩ := by ext1 <;> simp
  have hd := (ha.c1.add ha.c0).mulBy01 h0 (h1.add h4)
  rw [hs] at hd
  refine ⟨?_, ?_⟩
  · convert hbb.mulByNonresidue.add haa using 1
    rw [Fq12.mul_c0]; ring
  · convert (hd.sub haa).sub hbb using 1
    rw [Fq12.mul_c1]; ring

theorem equals (ha : a.Rep x) (hb : b.Rep y) : a.equals b = true ↔ x = y := by
  unfold FQ12.equals
  rw [Bool.and_eq_true, ha.c0.equals hb.c0, ha.c1.equals hb.c1, Fq12.ext_iff]

theorem isZero (ha : a.Rep x) : a.isZero = true ↔ x = 0 := by
  unfold FQ12.isZero
  rw [Bool.and_eq_true, ha.c0.isZero, ha.c1.isZero, Fq12.ext_iff]; rfl

theorem _root_.Bls.FQ12.inverse_eq (a : FQ12) : a.inverse =
    if !(a.c0.square.sub a.c1.square.mulByNonresidue).inverse.2 then (a, false)
    else (⟨(a.c0.square.sub a.c1.square.mulByNonresidue).inverse.1.mul a.c0,
      ((a.c0.square.sub a.c1.square.mulByNonresidue).inverse.1.mul a.c1).neg⟩, true) := by
  unfold FQ12.inverse; dsimp only

theorem inverse_norm (ha : a.Rep x) :
    (a.c0.square.sub a.c1.square.mulByNonresidue).Rep (Fq12.nrm x) := by
  convert ha.c0.square.sub ha.c1.square.mulByNonresidue using 1
  rw [Fq12.nrm]

theorem inverse_ne (ha : a.Rep x) (hx : x ≠ 0) : a.inverse.2 = true ∧ a.inverse.1.Rep x⁻¹ := by
  have hn := ha.inverse_norm.inverse_ne (fun e => hx (Fq12.nrm_eq_zero.mp e))
  rw [FQ12.inverse_eq, hn.1, Bool.not_true, if_neg Bool.false_ne_true]
  refine ⟨rfl, ?_, ?_⟩
  · convert hn.2.mul ha.c0 using 1
    rw [Fq12.inv_c0, mul_comm]
  · convert (hn.2.mul ha.c1).neg using 1
    rw [Fq12.inv_c1, mul_comm]

theorem inverse_zero (ha : a.Rep 0) : a.inverse = (a, false) := by
  have hn := ha.inverse_norm
  rw [Fq12.nrm_eq_zero.mpr rfl] at hn
  have e := hn.inverse_zero
  rw [FQ12.inverse_eq, e]; rfl

theorem inverse (ha : a.Rep x) : a.inverse.1.Rep x⁻¹ := by
  by_cases hx : x = 0
  · subst hx; rw [ha.inverse_zero, inv_zero]; exact ha
  · exact (ha.inverse_ne hx).2

end FQ12.Rep

theorem FQ12.zero_rep : FQ12.zero.Rep 0 := by
  unfold FQ12.zero; exact ⟨FQ6.zero_rep, FQ6.zero_rep⟩

theorem FQ12.one_rep : FQ12.one.Rep 1 := by
  unfold FQ12.one; exact ⟨FQ6.one_rep, FQ6.zero_rep⟩

/-! ### Exponentiation -/

theorem pow_half_even {M : Type*} [CommMonoid M] (x y : M) {n : ℕ} (h : n % 2 = 0) :
    y * (x * x) ^ (n / 2) = y * x ^ n := by
  rw [← pow_two, ← pow_mul]; congr 2; omega

theorem pow_half_odd {M : Type*} [CommMonoid M] (x y : M) {n : ℕ} (h : n % 2 = 1) :
    y * x * (x * x) ^ (n / 2) = y * x ^ n := by
  rw [← pow_two, ← pow_mul, mul_assoc, ← pow_succ']; congr 2; omega

theorem FQRepr.cmp_bigZero {n : FQRepr} : n.cmp bigZero = 0 ↔ n.toNat = 0 := by
  rw [FQRepr.cmp_eq_zero, ← FQRepr.toNat_inj_iff, bigZero_toNat]

theorem FQ12.expLoop_spec : ∀ (k fuel : ℕ) (n : FQRepr) (fi res : FQ12) (x y : Fq12), n.toNat < 2 ^ k → k < fuel →
    fi.Rep x → res.Rep y → ∃ out, FQ12.expLoop fuel n fi res = some out ∧ out.Rep (y * x ^ n.toNat) := by
  intro k
  induction k with
  | zero =>
    intro fuel n fi res x y hn hf hfi hN
    obtain ⟨fuel, rfl⟩ := Nat.exists_eq_add_of_lt hf
    have h0 : n.toNat = 0 := by simpa using hn
    refine ⟨res, ?_, by rw [h0, pow_zero, mul_one]; exact hN⟩
    rw [FQ12.expLoop, if_neg (not_not.mpr (FQRepr.cmp_bigZero.mpr h0))]
  | succ k ih =>
    intro fuel n fi res x y hn hf hfi hN
    obtain ⟨fuel, rfl⟩ := Nat.exists_eq_add_of_lt (lt_of_le_of_lt (Nat.zero_le _) hf)
    rw [FQ12.expLoop]
    by_cases hc : n.cmp bigZero = 0
    · rw [if_neg (not_not.mpr hc)]
      have h0 := FQRepr.cmp_bigZero.mp hc
      exact ⟨res, rfl, by rw [h0, pow_zero, mul_one]; exact hN⟩
    · rw [if_pos hc]
      have hs := FQRepr.rsh_spec n 1
      rw [pow_one] at hs
      have hd := Nat.div_add_mod n.toNat 2
      by_cases ho : n.isEven = true
      · obtain ⟨out, h1, h2⟩ := ih (0 + fuel) (n.rsh 1) (fi.mul fi) res (x * x) y
          (by rw [hs]; rw [pow_succ] at hn; omega) (by omega) (hfi.mul hfi) hN
        refine ⟨out, ?_, ?_⟩
        · simp only [ho, Bool.not_true, Bool.false_eq_true, if_false]; exact h1
        · rw [FQRepr.isEven_iff] at ho
          rw [hs, pow_half_even _ _ ho] at h2
          exact h2
      · obtain ⟨out, h1, h2⟩ := ih (0 + fuel) (n.rsh 1) (fi.mul fi) (res.mul fi) (x * x) (y * x)
          (by rw [hs]; rw [pow_succ] at hn; omega) (by omega) (hfi.mul hfi) (hN.mul hfi)
        refine ⟨out, ?_, ?_⟩
        · simp only [Bool.not_eq_true] at ho
          simp only [ho, Bool.not_false, if_true]; exact h1
        · rw [FQRepr.isEven_iff] at ho
          have hm : n.toNat % 2 = 1 := by clear h2; omega
          have e := pow_half_odd x y hm
          rw [hs] at h2
          exact e ▸ h2

theorem FQ12.Rep.exp? {f : FQ12} {x : Fq12} (hf : f.Rep x) (n : FQRepr) :
    ∃ out, f.exp? n = some out ∧ out.Rep (x ^ n.toNat) := by
  have := FQ12.expLoop_spec 384 385 n f FQ12.one x 1 n.toNat_lt (by norm_num) hf FQ12.one_rep
  rwa [one_mul] at this

theorem FQ12.Rep.exp {f : FQ12} {x : Fq12} (hf : f.Rep x) (n : FQRepr) : (f.exp n).Rep (x ^ n.toNat) := by
  obtain ⟨out, h1, h2⟩ := hf.exp? n
  unfold FQ12.exp
  rw [h1]; exact h2

/-! ### Frobenius -/

theorem Fq12.of_inj : Function.Injective Fq12.of := Fq12.of.injective

instance : CharP Fq12 q := charP_of_injective_ringHom Fq12.of_inj q

theorem Fq12.w_sq : Fq12.w ^ 2 = Fq12.of Fq6.v := by
  rw [pow_two]; ext1 <;> simp

theorem Fq12.w_pow_six : Fq12.w ^ 6 = Fq12.ofFq2 xi := by
  rw [show 6 = 2 * 3 from rfl, pow_mul, Fq12.w_sq, ← map_pow, Fq6.v_cube]; rfl

theorem Fq12.eq_add (x : Fq12) : x = Fq12.of x.c0 + Fq12.of x.c1 * Fq12.w := by
  ext1 <;> simp

theorem Fq12.w_pow_q : Fq12.w ^ q = Fq12.ofFq2 gammaN.toF * Fq12.w := by
  have h := q_mod6
  have e : q = 6 * ((q - 1) / 6) + 1 := by have := q_gt3; omega
  conv_lhs => rw [e]
  rw [pow_succ, pow_mul, Fq12.w_pow_six, ← map_pow, gammaN_spec]

theorem frob12_ok : (List.range 12).all (fun i => (FQ12.frobeniusCoeffC1 i).ok &&
    decide ((FQ12.frobeniusCoeffC1 ((i + 1) % 12)).nv = N2.mul (N2.conj (FQ12.frobeniusCoeffC1 i).nv) gammaN)) = true := by
  decide +kernel

theorem frob12_zero : (FQ12.frobeniusCoeffC1 0).nv = N2.one := by decide +kernel

theorem Fq12.w_pow (k : ℕ) : Fq12.w ^ q ^ k = Fq12.ofFq2 (FQ12.frobeniusCoeffC1 (k % 12)).nv.toF * Fq12.w := by
  induction k with
  | zero => rw [pow_zero, pow_one, Nat.zero_mod, frob12_zero, N2.toF_one, map_one, one_mul]
  | succ k ih =>
    have h := List.all_eq_true.mp frob12_ok (k % 12) (List.mem_range.mpr (Nat.mod_lt _ (by norm_num)))
    rw [Bool.and_eq_true, decide_eq_true_eq] at h
    have e : (k + 1) % 12 = (k % 12 + 1) % 12 := by omega
    rw [pow_succ, pow_mul, ih, mul_pow, Fq12.w_pow_q, ← map_pow, Fq2.pow_q, e, h.2, N2.toF_mul, N2.toF_conj,
      map_mul, mul_assoc]

theorem FQ12.Rep.frobeniusMap {f : FQ12} {x : Fq12} (hf : f.Rep x) (k : UInt8) :
    (f.frobeniusMap k).Rep (x ^ q ^ k.toNat) := by
  have h1 := List.all_eq_true.mp frob12_ok (k.toNat % 12) (List.mem_range.mpr (Nat.mod_lt _ (by norm_num)))
  rw [Bool.and_eq_true, decide_eq_true_eq] at h1
  have g := FQ2.rep_ok h1.1
  have key : x ^ q ^ k.toNat = ⟨x.c0 ^ q ^ k.toNat,
      x.c1 ^ q ^ k.toNat * Fq6.of (FQ12.frobeniusCoeffC1 (k.toNat % 12)).nv.toF⟩ := by
    conv_lhs => rw [Fq12.eq_add x]
    rw [add_pow_char_pow, mul_pow, Fq12.w_pow, ← map_pow, ← map_pow]
    generalize x.c0 ^ q ^ k.toNat = A
    generalize x.c1 ^ q ^ k.toNat = B
    generalize N2.toF _ = C
    ext1 <;> simp [Fq12.ofFq2]
  rw [key]
  have h2 := hf.c1.frobeniusMap k
  unfold FQ12.frobeniusMap
  refine ⟨hf.c0.frobeniusMap k, ?_, ?_, ?_⟩
  · convert h2.c0.mul g using 1; simp
  · convert h2.c1.mul g using 1; simp
  · convert h2.c2.mul g using 1; simp

end Bls
