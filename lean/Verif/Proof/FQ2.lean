import Verif.Model.FQ2
import Verif.Spec.Fields
import Verif.Proof.FQInverse
import Verif.Proof.Int
import Mathlib.Algebra.CharP.Lemmas
import Mathlib.Algebra.CharP.Algebra
/-
FQ2 refines Fq2 = Fq[u]/(u²+1).
-/
set_option exponentiation.threshold 1000
namespace Bls

/-! ### The field Fq2 -/

theorem Fq2.of_inj : Function.Injective Fq2.of := Fq2.of.injective

instance : CharP Fq2 q := by
  have : CharP Fq q := ZMod.charP q
  exact charP_of_injective_ringHom Fq2.of_inj q

theorem Fq2.u_sq : Fq2.u ^ 2 = -1 := by
  rw [pow_two]; ext <;> simp [Fq2.u]

theorem Fq2.eq_add (x : Fq2) : x = Fq2.of x.c0 + Fq2.of x.c1 * Fq2.u := by
  ext <;> simp

theorem Fq2.u_pow_q : Fq2.u ^ q = -Fq2.u := by
  have h4 := q_mod4
  have : q = 2 * (2 * (q / 4) + 1) + 1 := by omega
  rw [this, pow_succ, pow_mul, Fq2.u_sq, pow_succ, pow_mul, neg_one_sq, one_pow]; ring

/-- The Frobenius of Fq2 is conjugation. -/
theorem Fq2.pow_q (x : Fq2) : x ^ q = Fq2.conj x := by
  conv_lhs => rw [Fq2.eq_add x]
  rw [add_pow_char, mul_pow, ← map_pow, ← map_pow, Fq.pow_q, Fq.pow_q, Fq2.u_pow_q]
  ext <;> simp

theorem Fq2.pow_q_succ (x : Fq2) : x ^ (q + 1) = Fq2.of (Fq2.nrm x) := by
  rw [pow_succ, Fq2.pow_q, mul_comm, Fq2.mul_conj]

theorem Fq2.nrm_eq (x : Fq2) : Fq2.nrm x = x.c0 * x.c0 + x.c1 * x.c1 := by
  rw [Fq2.nrm]; ring

/-! ### Refinement -/

/-- `a` represents `x`. -/
structure FQ2.Rep (a : FQ2) (x : Fq2) : Prop where
  c0 : a.c0.Rep x.c0
  c1 : a.c1.Rep x.c1

namespace FQ2.Rep
variable {a b : FQ2} {x y : Fq2}

theorem inj (ha : a.Rep x) (hb : b.Rep x) : a = b := FQ2.ext (ha.c0.inj hb.c0) (ha.c1.inj hb.c1)

theorem of_eq (h : a.Rep x) (e : x = y) : a.Rep y := e ▸ h

theorem add (ha : a.Rep x) (hb : b.Rep y) : (a.add b).Rep (x + y) := by
  unfold FQ2.add; exact ⟨ha.c0.add hb.c0, ha.c1.add hb.c1⟩

theorem sub (ha : a.Rep x) (hb : b.Rep y) : (a.sub b).Rep (x - y) := by
  unfold FQ2.sub; exact ⟨ha.c0.sub hb.c0, ha.c1.sub hb.c1⟩

theorem neg (ha : a.Rep x) : a.neg.Rep (-x) := by
  unfold FQ2.neg; exact ⟨ha.c0.neg, ha.c1.neg⟩

theorem double (ha : a.Rep x) : a.double.Rep (x + x) := by
  unfold FQ2.double; exact ⟨ha.c0.double, ha.c1.double⟩

theorem mul (ha : a.Rep x) (hb : b.Rep y) : (a.mul b).Rep (x * y) := by
  unfold FQ2.mul
  constructor
  · convert (ha.c0.mul hb.c0).sub (ha.c1.mul hb.c1) using 1
    simp; ring
  · convert (((ha.c1.add ha.c0).mul (hb.c0.add hb.c1)).sub (ha.c0.mul hb.c0)).sub (ha.c1.mul hb.c1) using 1
    simp; ring

theorem square (ha : a.Rep x) : a.square.Rep (x * x) := by
  unfold FQ2.square
  have hab := ha.c0.mul ha.c1
  constructor
  · convert (((ha.c1.neg.add ha.c0).mul (ha.c0.add ha.c1)).sub hab).add hab using 1
    simp; ring
  · convert hab.add hab using 1
    simp; ring

theorem mulByNonresidue (ha : a.Rep x) : a.mulByNonresidue.Rep (xi * x) := by
  unfold FQ2.mulByNonresidue
  constructor
  · convert ha.c0.sub ha.c1 using 1
    simp; ring
  · convert ha.c1.add ha.c0 using 1
    simp

theorem norm (ha : a.Rep x) : a.norm.Rep (Fq2.nrm x) := by
  unfold FQ2.norm
  rw [Fq2.nrm_eq, add_comm]
  exact ha.c1.square.add ha.c0.square

theorem isZero (ha : a.Rep x) : a.isZero = true ↔ x = 0 := by
  unfold FQ2.isZero
  rw [Bool.and_eq_true, ha.c0.isZero, ha.c1.isZero, Fq2.ext_iff]; rfl

theorem cmp (ha : a.Rep x) (hb : b.Rep y) :
    a.cmp b = if x.c1.val < y.c1.val ∨ (x.c1 = y.c1 ∧ x.c0.val < y.c0.val) then -1
      else if x = y then 0 else 1 := by
  unfold FQ2.cmp
  simp only [ha.c1.cmp hb.c1, ha.c0.cmp hb.c0]
  have hi : x.c1 = y.c1 ↔ x.c1.val = y.c1.val := (ZMod.val_injective q).eq_iff.symm
  have hr : x.c0 = y.c0 ↔ x.c0.val = y.c0.val := (ZMod.val_injective q).eq_iff.symm
  have hxy : x = y ↔ x.c0.val = y.c0.val ∧ x.c1.val = y.c1.val := by
    rw [Fq2.ext_iff, hi, hr]
  simp only [hxy, hi]
  generalize x.c0.val = a0, y.c0.val = b0, x.c1.val = a1, y.c1.val = b1
  split_ifs <;> first | rfl | omega | simp_all

theorem equals (ha : a.Rep x) (hb : b.Rep y) : a.equals b = true ↔ x = y := by
  unfold FQ2.equals
  rw [ha.cmp hb, beq_iff_eq]
  split_ifs with h1 h2
  · refine iff_of_false (by decide) ?_
    rintro rfl
    simp at h1
  · exact iff_of_true rfl h2
  · exact iff_of_false (by decide) h2

end FQ2.Rep

theorem FQ2.zero_rep : FQ2.zero.Rep 0 := by
  unfold FQ2.zero; exact ⟨FQ.zero_rep, FQ.zero_rep⟩

theorem FQ2.one_rep : FQ2.one.Rep 1 := by
  unfold FQ2.one; exact ⟨FQ.one_rep, FQ.zero_rep⟩

namespace FQ2.Rep
variable {a b : FQ2} {x y : Fq2}

theorem inverse_ne (ha : a.Rep x) (hx : x ≠ 0) : a.inverse.2 = true ∧ a.inverse.1.Rep x⁻¹ := by
  have hn : (a.c0.square.add a.c1.square).Rep (Fq2.nrm x) := by
    rw [Fq2.nrm_eq]; exact ha.c0.square.add ha.c1.square
  have h := hn.inverse_ne (fun e => hx (Fq2.nrm_eq_zero.mp e))
  have e : a.inverse = if !(a.c0.square.add a.c1.square).inverse.2 then (a, false) else
      (⟨a.c0.mul (a.c0.square.add a.c1.square).inverse.1,
        (a.c1.mul (a.c0.square.add a.c1.square).inverse.1).neg⟩, true) := by
    unfold FQ2.inverse
    dsimp only
  rw [e, h.1, Bool.not_true, if_neg Bool.false_ne_true]
  refine ⟨rfl, ?_, ?_⟩
  · rw [Fq2.inv_c0]; exact ha.c0.mul h.2
  · rw [Fq2.inv_c1]; exact (ha.c1.mul h.2).neg

theorem inverse_zero (ha : a.Rep 0) : a.inverse = (a, false) := by
  have hn : (a.c0.square.add a.c1.square).Rep 0 := by
    convert ha.c0.square.add ha.c1.square using 1; simp
  have h := hn.inverse_zero
  have e : a.inverse = if !(a.c0.square.add a.c1.square).inverse.2 then (a, false) else
      (⟨a.c0.mul (a.c0.square.add a.c1.square).inverse.1,
        (a.c1.mul (a.c0.square.add a.c1.square).inverse.1).neg⟩, true) := by
    unfold FQ2.inverse
    dsimp only
  rw [e, h.1]; rfl

theorem inverse (ha : a.Rep x) : a.inverse.1.Rep x⁻¹ := by
  by_cases hx : x = 0
  · subst hx; rw [ha.inverse_zero, inv_zero]; exact ha
  · exact (ha.inverse_ne hx).2

theorem div (ha : a.Rep x) (hb : b.Rep y) : (a.div b).Rep (x / y) := by
  unfold FQ2.div
  rw [div_eq_mul_inv]; exact ha.mul hb.inverse

end FQ2.Rep

theorem FQ2.exp?_eq_some (f : FQ2) (n : FQRepr) :
    f.exp? n = some (powLoop square mul f (msbBits n.toNat 384) one false) := by
  rw [FQ2.exp?, FQRepr.drain_words, Option.map_some]

theorem FQ2.Rep.exp {f : FQ2} {x : Fq2} (hf : f.Rep x) (n : FQRepr) : (f.exp n).Rep (x ^ n.toNat) := by
  unfold FQ2.exp
  rw [FQ2.exp?_eq_some, Option.getD_some]
  have h := powLoop_rep (Rep := FQ2.Rep) (sq := FQ2.square) (mul := FQ2.mul)
    (fun h => h.square) (fun h1 h2 => h1.mul h2) hf (msbBits n.toNat 384) FQ2.one false 1 FQ2.one_rep (fun _ => rfl)
  rwa [bitsVal_msbBits, Nat.mod_eq_of_lt n.toNat_lt, one_pow, one_mul] at h

/-! ### Frobenius, Legendre symbol, square root -/

/-- A Montgomery-form constant represents `n` if its limbs are `n·2^384` reduced. -/
theorem FQ.rep_raw {m : FQRepr} {n : ℕ} (h : m.toNat = n * 2 ^ 384 % q) : (FQ.ofReprRaw m).Rep (n : Fq) := by
  refine FQ.Rep.of_nat (m := n * 2 ^ 384) h ?_
  rw [Nat.cast_mul, Rq]

theorem frobeniusCoeffFQ2_rep (i : ℕ) : (FQ2.frobeniusCoeffC1 i).Rep (if i = 0 then 1 else -1) := by
  unfold FQ2.frobeniusCoeffC1
  split_ifs
  · exact FQ.one_rep
  · have h : (-1 : Fq) = ((q - 1 : ℕ) : Fq) := by
      rw [Nat.cast_sub q_pos, ZMod.natCast_self, zero_sub, Nat.cast_one]
    rw [h]
    apply FQ.rep_raw
    rw [q]; decide +kernel

theorem FQ2.Rep.frobeniusMap {f : FQ2} {x : Fq2} (hf : f.Rep x) (k : UInt8) :
    (f.frobeniusMap k).Rep (x ^ q ^ k.toNat) := by
  have hp : ∀ k : ℕ, x ^ q ^ k = if k % 2 = 0 then x else Fq2.conj x := by
    intro k
    induction k with
    | zero => simp
    | succ k ih =>
      rw [pow_succ, pow_mul, ih, Fq2.pow_q]
      rcases Nat.mod_two_eq_zero_or_one k with h | h
      · rw [if_pos h, if_neg (by omega)]
      · rw [if_neg (by omega), if_pos (by omega), Fq2.conj_conj]
  rw [hp]
  unfold FQ2.frobeniusMap
  have h := hf.c1.mul (frobeniusCoeffFQ2_rep (k.toNat % 2))
  split_ifs at h ⊢ with h1
  · exact ⟨hf.c0, by rw [mul_one] at h; exact h⟩
  · refine ⟨?_, ?_⟩
    · convert hf.c0 using 1; simp
    · convert h using 1; simp

/-- Norms and squares: `x` is a square in Fq2 if and only if its norm is a square in Fq. -/
theorem Fq2.euler {x : Fq2} : Fq2.of (Fq2.nrm x ^ (q / 2)) = x ^ (q / 2) * Fq2.conj (x ^ (q / 2)) := by
  rw [map_pow, ← Fq2.pow_q_succ, ← Fq2.pow_q, ← pow_mul, ← pow_mul, ← pow_add]
  congr 1; ring

theorem Fq2.one_add_ne {α : Fq2} (h : α ≠ -1) : 1 + α ≠ 0 := fun e => h (by linear_combination e)

theorem Fq2.alpha_key {α : Fq2} (h1 : α * Fq2.conj α = 1) (h : α ≠ -1) : (1 + α) ^ (q - 1) * α = 1 := by
  have h0 := Fq2.one_add_ne h
  apply mul_left_cancel₀ h0
  rw [← mul_assoc, ← pow_succ', Nat.sub_add_cancel q_pos, Fq2.pow_q, map_add, map_one, add_mul, one_mul, mul_comm (Fq2.conj α), h1]
  ring

theorem Fq2.half_pow_square {x : Fq2} (hs : Fq2.nrm x ^ (q / 2) = 1) :
    let α := x ^ (q / 2)
    (α = -1 → (x ^ ((q - 3) / 4) * x * Fq2.u) * (x ^ ((q - 3) / 4) * x * Fq2.u) = x) ∧
    (α ≠ -1 → ((1 + α) ^ (q / 2) * (x ^ ((q - 3) / 4) * x)) * ((1 + α) ^ (q / 2) * (x ^ ((q - 3) / 4) * x)) = x) := by
  have h4 := q_mod4
  intro α
  have e2 : x ^ ((q - 3) / 4) * x ^ ((q - 3) / 4) * x = α := by
    rw [← pow_add, ← pow_succ]; congr 1; omega
  have hu := Fq2.u_sq
  refine ⟨fun h => ?_, fun h => ?_⟩
  · linear_combination Fq2.u ^ 2 * x * e2 + α * x * hu - x * h
  · have h1 : α * Fq2.conj α = 1 := by rw [← Fq2.euler, hs, map_one]
    have hk := Fq2.alpha_key h1 h
    have : (1 + α) ^ (q / 2) * (1 + α) ^ (q / 2) = (1 + α) ^ (q - 1) := by
      rw [← pow_add]; congr 1; omega
    linear_combination (x ^ ((q - 3) / 4) * x) ^ 2 * this + (1 + α) ^ (q - 1) * x * e2 + x * hk

theorem Fq2.isSquare_iff {x : Fq2} : IsSquare x ↔ IsSquare (Fq2.nrm x) := by
  constructor
  · rintro ⟨t, rfl⟩; exact ⟨Fq2.nrm t, Fq2.nrm_mul _ _⟩
  · intro h
    by_cases hx : x = 0
    · rw [hx]; exact IsSquare.zero
    · have hn : Fq2.nrm x ≠ 0 := fun e => hx (Fq2.nrm_eq_zero.mp e)
      have hs := (ZMod.euler_criterion q hn).mp h
      have := Fq2.half_pow_square hs
      by_cases ha : x ^ (q / 2) = -1
      · exact ⟨_, (this.1 ha).symm⟩
      · exact ⟨_, (this.2 ha).symm⟩

theorem FQ2.Rep.legendre {f : FQ2} {x : Fq2} (hf : f.Rep x) [Decidable (x = 0)] [Decidable (IsSquare x)] :
    f.legendre = if x = 0 then .zero else if IsSquare x then .quadraticResidue
      else .quadraticNonResidue := by
  unfold FQ2.legendre
  rw [hf.norm.legendre]
  simp only [Fq2.nrm_eq_zero, Fq2.isSquare_iff]

theorem FQ2.Rep.sqrt {f : FQ2} {x : Fq2} (hf : f.Rep x) :
    (IsSquare x → f.sqrt.2 = true ∧ ∃ s, f.sqrt.1.Rep s ∧ s * s = x) ∧
    (¬ IsSquare x → f.sqrt.2 = false ∧ f.sqrt.1.Rep 0) := by
  have h4 := q_mod4
  have hz := hf.isZero
  have e : f.sqrt = if f.isZero then (FQ2.zero, true) else
      if ((((f.exp FQ.qMinus3Over4).square.mul f).frobeniusMap 1).mul ((f.exp FQ.qMinus3Over4).square.mul f)).equals
          ⟨FQ.negativeOneFQ, FQ.zero⟩ then (⟨⟨⟨0, 0, 0, 0, 0, 0⟩⟩, ⟨⟨0, 0, 0, 0, 0, 0⟩⟩⟩, false)
      else if ((f.exp FQ.qMinus3Over4).square.mul f).equals ⟨FQ.negativeOneFQ, FQ.zero⟩ then
        (((f.exp FQ.qMinus3Over4).mul f).mul ⟨FQ.zero, FQ.one⟩, true)
      else (((((f.exp FQ.qMinus3Over4).square.mul f).add FQ2.one).exp FQ.qMinus1Over2).mul ((f.exp FQ.qMinus3Over4).mul f), true) := by
    unfold FQ2.sqrt; dsimp only
  rw [e]
  by_cases hx : x = 0
  · rw [if_pos (hz.mpr hx)]
    subst hx
    exact ⟨fun _ => ⟨rfl, 0, FQ2.zero_rep, mul_zero 0⟩, fun h => absurd IsSquare.zero h⟩
  rw [if_neg (fun h => hx (hz.mp h))]
  have h1 := hf.exp FQ.qMinus3Over4
  rw [qMinus3Over4_toNat] at h1
  have h2 := h1.square.mul hf
  have e2 : x ^ ((q - 3) / 4) * x ^ ((q - 3) / 4) * x = x ^ (q / 2) := by
    rw [← pow_add, ← pow_succ]; congr 1; omega
  rw [e2] at h2
  have h3 := (h2.frobeniusMap 1).mul h2
  have e3 : (x ^ (q / 2)) ^ q ^ (1 : UInt8).toNat * x ^ (q / 2) = Fq2.of (Fq2.nrm x ^ (q / 2)) := by
    rw [Fq2.euler, show (1 : UInt8).toNat = 1 from rfl, pow_one, Fq2.pow_q, mul_comm]
  rw [e3] at h3
  have hneg : FQ2.Rep ⟨FQ.negativeOneFQ, FQ.zero⟩ (-1) := by
    refine ⟨?_, ?_⟩
    · exact negativeOneFQ_rep
    · convert FQ.zero_rep using 1; simp
  have hi : FQ2.Rep ⟨FQ.zero, FQ.one⟩ Fq2.u := ⟨FQ.zero_rep, FQ.one_rep⟩
  have h5 := h1.mul hf
  have h6 := (h2.add FQ2.one_rep).exp FQ.qMinus1Over2
  rw [qMinus1Over2_toNat, add_comm] at h6
  have hq3 := h3.equals hneg
  have hq2 := h2.equals hneg
  have hn : Fq2.nrm x ≠ 0 := fun e => hx (Fq2.nrm_eq_zero.mp e)
  have he := ZMod.euler_criterion q hn
  have hm1 : Fq2.of (-1) = -1 := by rw [map_neg, map_one]
  refine ⟨fun h => ?_, fun h => ?_⟩
  · have hs := he.mp (Fq2.isSquare_iff.mp h)
    have hk := Fq2.half_pow_square hs
    rw [if_neg (fun h => Fq.neg_one_ne_one (Fq2.of_inj (by rw [hm1, ← hq3.mp h, hs])))]
    by_cases ha : x ^ (q / 2) = -1
    · rw [if_pos (hq2.mpr ha)]
      exact ⟨rfl, _, h5.mul hi, hk.1 ha⟩
    · rw [if_neg (fun h => ha (hq2.mp h))]
      exact ⟨rfl, _, h6.mul h5, hk.2 ha⟩
  · have hs : Fq2.nrm x ^ (q / 2) = -1 :=
      (Fq.half_pow hn).resolve_left (fun h' => h (Fq2.isSquare_iff.mpr (he.mpr h')))
    rw [if_pos (hq3.mpr (by rw [hs, hm1]))]
    exact ⟨rfl, FQ.zero'_rep, FQ.zero'_rep⟩

end Bls
