import Verif.Model.FQ6
import Verif.Proof.N2
import Verif.Proof.Shift
/-
FQ6 refines Fq6 = Fq2[v]/(v³-(1+u)).
-/
set_option exponentiation.threshold 1000
namespace Bls

/-- `a` represents `x`. -/
structure FQ6.Rep (a : FQ6) (x : Fq6) : Prop where
  c0 : a.c0.Rep x.c0
  c1 : a.c1.Rep x.c1
  c2 : a.c2.Rep x.c2

namespace FQ6.Rep
variable {a b : FQ6} {x y : Fq6}

theorem inj (ha : a.Rep x) (hb : b.Rep x) : a = b :=
  FQ6.ext (ha.c0.inj hb.c0) (ha.c1.inj hb.c1) (ha.c2.inj hb.c2)

theorem add (ha : a.Rep x) (hb : b.Rep y) : (a.add b).Rep (x + y) := by
  unfold FQ6.add; exact ⟨ha.c0.add hb.c0, ha.c1.add hb.c1, ha.c2.add hb.c2⟩

theorem sub (ha : a.Rep x) (hb : b.Rep y) : (a.sub b).Rep (x - y) := by
  unfold FQ6.sub; exact ⟨ha.c0.sub hb.c0, ha.c1.sub hb.c1, ha.c2.sub hb.c2⟩

theorem neg (ha : a.Rep x) : a.neg.Rep (-x) := by
  unfold FQ6.neg; exact ⟨ha.c0.neg, ha.c1.neg, ha.c2.neg⟩

theorem double (ha : a.Rep x) : a.double.Rep (x + x) := by
  unfold FQ6.double; exact ⟨ha.c0.double, ha.c1.double, ha.c2.double⟩

theorem mulByNonresidue (ha : a.Rep x) : a.mulByNonresidue.Rep (Fq6.v * x) := by
  unfold FQ6.mulByNonresidue
  refine ⟨?_, ?_, ?_⟩
  · convert ha.c2.mulByNonresidue using 1; simp
  · convert ha.c0 using 1; simp
  · convert ha.c1 using 1; simp

theorem mulBy1 (ha : a.Rep x) {c1 : FQ2} {y1 : Fq2} (h1 : c1.Rep y1) :
    (a.mulBy1 c1).Rep (x * ⟨0, y1, 0⟩) := by
  unfold FQ6.mulBy1
  have hb := ha.c1.mul h1
  refine ⟨?_, ?_, ?_⟩
  · convert ((h1.mul (ha.c1.add ha.c2)).sub hb).mulByNonresidue using 1; simp only [Fq6.mul_c0]; ring
  · convert (h1.mul (ha.c0.add ha.c1)).sub hb using 1; simp; ring
  · convert hb using 1; simp

theorem mulBy01 (ha : a.Rep x) {c0 c1 : FQ2} {y0 y1 : Fq2} (h0 : c0.Rep y0) (h1 : c1.Rep y1) :
    (a.mulBy01 c0 c1).Rep (x * ⟨y0, y1, 0⟩) := by
  unfold FQ6.mulBy01
  have haa := ha.c0.mul h0
  have hb := ha.c1.mul h1
  refine ⟨?_, ?_, ?_⟩
  · convert ((h1.mul (ha.c1.add ha.c2)).sub hb).mulByNonresidue.add haa using 1; simp; ring
  · convert (((h0.add h1).mul (ha.c0.add ha.c1)).sub haa).sub hb using 1; simp; ring
  · convert ((h0.mul (ha.c0.add ha.c2)).sub haa).add hb using 1; simp; ring

theorem square (ha : a.Rep x) : a.square.Rep (x * x) := by
  unfold FQ6.square
  have s0 := ha.c0.square
  have s1 := (ha.c0.mul ha.c1).double
  have s2 := ((ha.c0.sub ha.c1).add ha.c2).square
  have s3 := (ha.c1.mul ha.c2).double
  have s4 := ha.c2.square
  refine ⟨?_, ?_, ?_⟩
  · convert s3.mulByNonresidue.add s0 using 1; simp; ring
  · convert s4.mulByNonresidue.add s1 using 1; simp; ring
  · convert (((s1.add s2).add s3).sub s0).sub s4 using 1; simp; ring

theorem mul (ha : a.Rep x) (hb : b.Rep y) : (a.mul b).Rep (x * y) := by
  unfold FQ6.mul
  have haa := ha.c0.mul hb.c0
  have hbb := ha.c1.mul hb.c1
  have hcc := ha.c2.mul hb.c2
  refine ⟨?_, ?_, ?_⟩
  · convert ((((hb.c1.add hb.c2).mul (ha.c1.add ha.c2)).sub hbb).sub hcc).mulByNonresidue.add haa using 1
    simp; ring
  · convert ((((hb.c0.add hb.c1).mul (ha.c0.add ha.c1)).sub haa).sub hbb).add hcc.mulByNonresidue using 1
    simp; ring
  · convert ((((hb.c0.add hb.c2).mul (ha.c0.add ha.c2)).sub haa).add hbb).sub hcc using 1
    simp; ring

theorem equals (ha : a.Rep x) (hb : b.Rep y) : a.equals b = true ↔ x = y := by
  unfold FQ6.equals
  rw [Bool.and_eq_true, Bool.and_eq_true, ha.c0.equals hb.c0, ha.c1.equals hb.c1, ha.c2.equals hb.c2,
    Fq6.ext_iff, and_assoc]

/-- What `f.MulAssign(f)` computes: the wrong `c1` and `c2`. -/
theorem mulSelf (ha : a.Rep x) : a.mulSelf.Rep
    ⟨(x * x).c0, (x * x).c1 + (x.c0 * x.c0 - x.c1 * x.c1), (x * x).c2 + (x.c0 * x.c0 - x.c2 * x.c2)⟩ := by
  unfold FQ6.mulSelf
  have haa := ha.c0.mul ha.c0
  have hbb := ha.c1.mul ha.c1
  have hcc := ha.c2.mul ha.c2
  refine ⟨?_, ?_, ?_⟩
  · convert ((((ha.c1.add ha.c2).mul (ha.c1.add ha.c2)).sub hbb).sub hcc).mulByNonresidue.add haa using 1
    simp; ring
  · convert ((((ha.c0.add ha.c0).mul (ha.c0.add ha.c1)).sub haa).sub hbb).add hcc.mulByNonresidue using 1
    simp; ring
  · convert ((((ha.c0.add ha.c0).mul (ha.c0.add ha.c2)).sub haa).add hbb).sub hcc using 1
    simp; ring

end FQ6.Rep

theorem FQ6.zero_rep : FQ6.zero.Rep 0 := by
  unfold FQ6.zero; exact ⟨FQ2.zero_rep, FQ2.zero_rep, FQ2.zero_rep⟩

theorem FQ6.one_rep : FQ6.one.Rep 1 := by
  unfold FQ6.one; exact ⟨FQ2.one_rep, FQ2.zero_rep, FQ2.zero_rep⟩

namespace FQ6.Rep
variable {a b : FQ6} {x y : Fq6}

theorem isZero (ha : a.Rep x) : a.isZero = true ↔ x = 0 := by
  unfold FQ6.isZero; exact ha.equals FQ6.zero_rep

/-- The intermediate values of `InverseAssign`: the cofactor and the norm. -/
theorem inverse_aux (ha : a.Rep x) :
    ((a.c2.mulByNonresidue.mul a.c1).neg.add a.c0.square).Rep (Fq6.adj x).c0 ∧
    (a.c2.square.mulByNonresidue.sub (a.c0.mul a.c1)).Rep (Fq6.adj x).c1 ∧
    (a.c1.square.sub (a.c0.mul a.c2)).Rep (Fq6.adj x).c2 := by
  refine ⟨?_, ?_, ?_⟩
  · convert (ha.c2.mulByNonresidue.mul ha.c1).neg.add ha.c0.square using 1
    simp [Fq6.adj]; ring
  · convert ha.c2.square.mulByNonresidue.sub (ha.c0.mul ha.c1) using 1
    simp only [Fq6.adj]; ring
  · convert ha.c1.square.sub (ha.c0.mul ha.c2) using 1
    simp [Fq6.adj]; ring

theorem inverse_norm (ha : a.Rep x) : (((a.c2.mul (a.c2.square.mulByNonresidue.sub (a.c0.mul a.c1))).add
    (a.c1.mul (a.c1.square.sub (a.c0.mul a.c2)))).mulByNonresidue.add
    (a.c0.mul ((a.c2.mulByNonresidue.mul a.c1).neg.add a.c0.square))).Rep (Fq6.nrm x) := by
  obtain ⟨h0, h1, h2⟩ := ha.inverse_aux
  convert ((ha.c2.mul h1).add (ha.c1.mul h2)).mulByNonresidue.add (ha.c0.mul h0) using 1
  simp [Fq6.adj, Fq6.nrm]; ring

theorem _root_.Bls.FQ6.inverse_eq (a : FQ6) : a.inverse =
    if !(((a.c2.mul (a.c2.square.mulByNonresidue.sub (a.c0.mul a.c1))).add
      (a.c1.mul (a.c1.square.sub (a.c0.mul a.c2)))).mulByNonresidue.add
      (a.c0.mul ((a.c2.mulByNonresidue.mul a.c1).neg.add a.c0.square))).inverse.2 then (a, false)
    else (⟨(((a.c2.mul (a.c2.square.mulByNonresidue.sub (a.c0.mul a.c1))).add
      (a.c1.mul (a.c1.square.sub (a.c0.mul a.c2)))).mulByNonresidue.add
      (a.c0.mul ((a.c2.mulByNonresidue.mul a.c1).neg.add a.c0.square))).inverse.1.mul
        ((a.c2.mulByNonresidue.mul a.c1).neg.add a.c0.square),
      (((a.c2.mul (a.c2.square.mulByNonresidue.sub (a.c0.mul a.c1))).add
      (a.c1.mul (a.c1.square.sub (a.c0.mul a.c2)))).mulByNonresidue.add
      (a.c0.mul ((a.c2.mulByNonresidue.mul a.c1).neg.add a.c0.square))).inverse.1.mul
        (a.c2.square.mulByNonresidue.sub (a.c0.mul a.c1)),
      (((a.c2.mul (a.c2.square.mulByNonresidue.sub (a.c0.mul a.c1))).add
      (a.c1.mul (a.c1.square.sub (a.c0.mul a.c2)))).mulByNonresidue.add
      (a.c0.mul ((a.c2.mulByNonresidue.mul a.c1).neg.add a.c0.square))).inverse.1.mul
        (a.c1.square.sub (a.c0.mul a.c2))⟩, true) := by
  unfold FQ6.inverse; dsimp only

theorem inverse_ne (ha : a.Rep x) (hx : x ≠ 0) : a.inverse.2 = true ∧ a.inverse.1.Rep x⁻¹ := by
  obtain ⟨h0, h1, h2⟩ := ha.inverse_aux
  have hn := ha.inverse_norm.inverse_ne (fun e => hx (Fq6.nrm_eq_zero.mp e))
  rw [FQ6.inverse_eq, hn.1, Bool.not_true, if_neg Bool.false_ne_true]
  refine ⟨rfl, ?_, ?_, ?_⟩
  · rw [Fq6.inv_c0]; exact hn.2.mul h0
  · rw [Fq6.inv_c1]; exact hn.2.mul h1
  · rw [Fq6.inv_c2]; exact hn.2.mul h2

theorem inverse_zero (ha : a.Rep 0) : a.inverse = (a, false) := by
  have hn := ha.inverse_norm
  rw [Fq6.nrm_eq_zero.mpr rfl] at hn
  have e := hn.inverse_zero
  rw [FQ6.inverse_eq, e]; rfl

theorem inverse (ha : a.Rep x) : a.inverse.1.Rep x⁻¹ := by
  by_cases hx : x = 0
  · subst hx; rw [ha.inverse_zero, inv_zero]; exact ha
  · exact (ha.inverse_ne hx).2

end FQ6.Rep

/-! ### Frobenius -/

theorem Fq6.of_inj : Function.Injective Fq6.of := Fq6.of.injective

instance : CharP Fq6 q := charP_of_injective_ringHom Fq6.of_inj q

theorem qLit_mod6 : qLit % 6 = 1 := by decide +kernel
theorem q_mod6 : q % 6 = 1 := by rw [q_eq]; exact qLit_mod6

/-- `ξ^((q-1)/6)`, on naturals. -/
def gammaN : N2 := N2.pow 384 ⟨1, 1⟩ ((qLit - 1) / 6) N2.one

theorem xi_toF : N2.toF ⟨1, 1⟩ = xi := by
  ext1
  · exact Nat.cast_one
  · exact Nat.cast_one

theorem gammaN_spec : gammaN.toF = xi ^ ((q - 1) / 6) := by
  rw [gammaN, N2.toF_pow _ _ _ _ (by decide +kernel), N2.toF_one, one_mul, xi_toF, q_eq]

theorem Fq6.v_pow_q : Fq6.v ^ q = Fq6.of (xi ^ ((q - 1) / 3)) * Fq6.v := by
  have h := q_mod3
  have : q = 3 * ((q - 1) / 3) + 1 := by have := q_gt3; omega
  conv_lhs => rw [this]
  rw [pow_succ, pow_mul, Fq6.v_cube, ← map_pow]

theorem xi_third : xi ^ ((q - 1) / 3) = (N2.mul gammaN gammaN).toF := by
  rw [N2.toF_mul, gammaN_spec, ← pow_add]
  congr 1
  have := q_mod6; have := q_gt3; omega

theorem frobC1_ok : (List.range 6).all (fun i => (FQ6.frobeniusCoeffC1 i).ok &&
    decide ((FQ6.frobeniusCoeffC1 ((i + 1) % 6)).nv = N2.mul (N2.conj (FQ6.frobeniusCoeffC1 i).nv) (N2.mul gammaN gammaN))) = true := by
  decide +kernel

theorem frobC1_zero : (FQ6.frobeniusCoeffC1 0).nv = N2.one := by decide +kernel

theorem frobC2_ok : (List.range 6).all (fun i => (FQ6.frobeniusCoeffC2 i).ok &&
    decide ((FQ6.frobeniusCoeffC2 i).nv = N2.mul (FQ6.frobeniusCoeffC1 i).nv (FQ6.frobeniusCoeffC1 i).nv)) = true := by
  decide +kernel

theorem Fq6.v_pow (k : ℕ) : Fq6.v ^ q ^ k = Fq6.of (FQ6.frobeniusCoeffC1 (k % 6)).nv.toF * Fq6.v := by
  induction k with
  | zero => rw [pow_zero, pow_one, Nat.zero_mod, frobC1_zero, N2.toF_one, map_one, one_mul]
  | succ k ih =>
    have h := List.all_eq_true.mp frobC1_ok (k % 6) (List.mem_range.mpr (Nat.mod_lt _ (by norm_num)))
    rw [Bool.and_eq_true, decide_eq_true_eq] at h
    have e : (k + 1) % 6 = (k % 6 + 1) % 6 := by omega
    rw [pow_succ, pow_mul, ih, mul_pow, Fq6.v_pow_q, ← map_pow, Fq2.pow_q, xi_third, e, h.2, N2.toF_mul (N2.conj _), N2.toF_conj,
      map_mul, mul_assoc]

theorem FQ6.Rep.frobeniusMap {f : FQ6} {x : Fq6} (hf : f.Rep x) (k : UInt8) :
    (f.frobeniusMap k).Rep (x ^ q ^ k.toNat) := by
  have h1 := List.all_eq_true.mp frobC1_ok (k.toNat % 6) (List.mem_range.mpr (Nat.mod_lt _ (by norm_num)))
  have h2 := List.all_eq_true.mp frobC2_ok (k.toNat % 6) (List.mem_range.mpr (Nat.mod_lt _ (by norm_num)))
  rw [Bool.and_eq_true, decide_eq_true_eq] at h1 h2
  have g1 := FQ2.rep_ok h1.1
  have g2 := FQ2.rep_ok h2.1
  rw [h2.2, N2.toF_mul] at g2
  have key : x ^ q ^ k.toNat = ⟨x.c0 ^ q ^ k.toNat, x.c1 ^ q ^ k.toNat * (FQ6.frobeniusCoeffC1 (k.toNat % 6)).nv.toF,
      x.c2 ^ q ^ k.toNat * ((FQ6.frobeniusCoeffC1 (k.toNat % 6)).nv.toF * (FQ6.frobeniusCoeffC1 (k.toNat % 6)).nv.toF)⟩ := by
    conv_lhs => rw [Fq6.eq_sum x]
    rw [add_pow_char_pow, add_pow_char_pow, mul_pow, mul_pow, ← pow_mul, mul_comm 2, pow_mul, Fq6.v_pow, ← map_pow, ← map_pow, ← map_pow,
      pow_two]
    generalize x.c0 ^ q ^ k.toNat = A
    generalize x.c1 ^ q ^ k.toNat = B
    generalize x.c2 ^ q ^ k.toNat = C
    ext1 <;> simp
  rw [key]
  unfold FQ6.frobeniusMap
  exact ⟨hf.c0.frobeniusMap k, (hf.c1.frobeniusMap k).mul g1, (hf.c2.frobeniusMap k).mul g2⟩

end Bls
