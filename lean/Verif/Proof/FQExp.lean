import Verif.Proof.FQSquare
import Verif.Proof.BitIterator
import Verif.Proof.Primes
import Mathlib.NumberTheory.LegendreSymbol.Basic
set_option exponentiation.threshold 1000
namespace Bls

instance : Field Fq := ZMod.instField q

theorem FQRepr.wordsToNat (n : FQRepr) : wordsToNat n.words = n.toNat := by
  simp only [FQRepr.words, Bls.wordsToNat, FQRepr.toNat]
  ring

theorem FQRepr.drain_words (n : FQRepr) :
    (newBitIterator n.words).drain 385 = some (msbBits n.toNat 384) := by
  rw [← FQRepr.wordsToNat]
  exact BitIterator.drain_spec n.words (6 * 64) 385 (le_refl _) (by norm_num)

theorem FQ.exp?_eq_some (f : FQ) (n : FQRepr) :
    f.exp? n = some (powLoop square mul f (msbBits n.toNat 384) one false) := by
  rw [FQ.exp?, FQRepr.drain_words, Option.map_some]

theorem FQ.Rep.exp {f : FQ} {x : Fq} (hf : f.Rep x) (n : FQRepr) :
    (f.exp n).Rep (x ^ n.toNat) := by
  unfold FQ.exp
  rw [FQ.exp?_eq_some, Option.getD_some]
  have := powLoop_rep (Rep := FQ.Rep) (fun h => h.square) (fun h h' => h.mul h') hf (msbBits n.toNat 384) FQ.one false 1 FQ.one_rep (fun _ => rfl)
  rwa [bitsVal_msbBits, Nat.mod_eq_of_lt n.toNat_lt, one_pow, one_mul] at this

theorem qMinus3Over4_toNat : FQ.qMinus3Over4.toNat = (q - 3) / 4 := by
  rw [q]; decide +kernel

theorem qMinus1Over2_toNat : FQ.qMinus1Over2.toNat = q / 2 := by
  rw [q]; decide +kernel

theorem negativeOne_toNat : FQ.negativeOne.toNat = q - 1 := by
  rw [q]; decide +kernel

theorem q_mod4 : q % 4 = 3 := by rw [q]
theorem q_mod3 : q % 3 = 1 := by rw [q]
theorem q_gt3 : 3 < q := lt_trans (by norm_num) q_gt

theorem negativeOneFQ_rep : FQ.negativeOneFQ.Rep (-1) := by
  have := FQ.ofRepr_rep (o := FQ.negativeOne) (by rw [negativeOne_toNat]; have := q_pos; omega)
  rw [negativeOne_toNat, Nat.cast_sub q_pos, ZMod.natCast_self, zero_sub, Nat.cast_one] at this
  exact this

theorem Fq.neg_one_ne_one : (-1 : Fq) ≠ 1 := by
  have : Fact (2 < q) := ⟨lt_trans (by norm_num) q_gt3⟩
  exact ZMod.neg_one_ne_one

theorem Fq.pow_q (x : Fq) : x ^ q = x := ZMod.pow_card x

theorem Fq.half_pow {x : Fq} (hx : x ≠ 0) : x ^ (q / 2) = 1 ∨ x ^ (q / 2) = -1 :=
  ZMod.pow_div_two_eq_neg_one_or_one q hx

theorem FQ.Rep.sqrt {f : FQ} {x : Fq} (hf : f.Rep x) :
    (IsSquare x → f.sqrt.2 = true ∧ ∃ s, f.sqrt.1.Rep s ∧ s * s = x) ∧
    (¬ IsSquare x → f.sqrt.2 = false ∧ f.sqrt.1.Rep 0) := by
  have h4 := q_mod4
  have h1 := hf.exp FQ.qMinus3Over4
  rw [qMinus3Over4_toNat] at h1
  have h2 := h1.square.mul hf
  have e2 : x ^ ((q - 3) / 4) * x ^ ((q - 3) / 4) * x = x ^ (q / 2) := by
    rw [← pow_add, ← pow_succ]; congr 1; omega
  rw [e2] at h2
  have h3 := h2.equals negativeOneFQ_rep
  have h5 := h1.mul hf
  have hs : FQ.sqrt f = if ((f.exp FQ.qMinus3Over4).square.mul f).equals FQ.negativeOneFQ then
      (⟨⟨0, 0, 0, 0, 0, 0⟩⟩, false) else ((f.exp FQ.qMinus3Over4).mul f, true) := by
    unfold FQ.sqrt; rfl
  rw [hs]
  have sq : x ^ ((q - 3) / 4) * x * (x ^ ((q - 3) / 4) * x) = x ^ (q / 2) * x := by
    rw [← e2]; ring
  by_cases hx : x = 0
  · have : x ^ (q / 2) ≠ -1 := by
      rw [hx, zero_pow (by omega)]; exact (neg_ne_zero.mpr one_ne_zero).symm
    rw [if_neg (fun h => this (h3.mp h))]
    refine ⟨fun _ => ⟨rfl, _, h5, ?_⟩, fun h => absurd (hx ▸ IsSquare.zero) h⟩
    rw [sq, hx, mul_zero]
  · have he := ZMod.euler_criterion q hx
    refine ⟨fun h => ?_, fun h => ?_⟩
    · have h6 := he.mp h
      rw [if_neg (fun h => Fq.neg_one_ne_one ((h3.mp h).symm.trans h6))]
      exact ⟨rfl, _, h5, by rw [sq, h6, one_mul]⟩
    · have h6 : x ^ (q / 2) = -1 := (Fq.half_pow hx).resolve_left (fun h' => h (he.mpr h'))
      rw [if_pos (h3.mpr h6)]
      exact ⟨rfl, FQ.zero'_rep⟩

/-- The root returned is `x^((q+1)/4)`. -/
theorem FQ.Rep.sqrt_eq {f : FQ} {x : Fq} (hf : f.Rep x) (hx : IsSquare x) :
    f.sqrt.1.Rep (x ^ ((q + 1) / 4)) := by
  have h4 := q_mod4
  have h1 := hf.exp FQ.qMinus3Over4
  rw [qMinus3Over4_toNat] at h1
  have h5 := h1.mul hf
  have hs : FQ.sqrt f = if ((f.exp FQ.qMinus3Over4).square.mul f).equals FQ.negativeOneFQ then
      (⟨⟨0, 0, 0, 0, 0, 0⟩⟩, false) else ((f.exp FQ.qMinus3Over4).mul f, true) := by
    unfold FQ.sqrt; rfl
  have ht := (hf.sqrt.1 hx).1
  rw [hs] at ht ⊢
  split at ht
  · simp at ht
  · rename_i h
    rw [if_neg h]
    rw [← pow_succ] at h5
    convert h5 using 2
    omega

theorem FQ.Rep.legendre {f : FQ} {x : Fq} (hf : f.Rep x) :
    f.legendre = if x = 0 then .zero else if IsSquare x then .quadraticResidue
      else .quadraticNonResidue := by
  have h4 := q_mod4
  have h1 := hf.exp FQ.qMinus1Over2
  rw [qMinus1Over2_toNat] at h1
  have hz := h1.isZero
  have ho := h1.equals FQ.one_rep
  have e : f.legendre = if (f.exp FQ.qMinus1Over2).isZero then LegendreSymbol.zero
    else if (f.exp FQ.qMinus1Over2).equals FQ.one then .quadraticResidue
    else .quadraticNonResidue := rfl
  rw [e]
  by_cases hx : x = 0
  · rw [if_pos hx, if_pos]
    rw [hz, hx, zero_pow (by omega)]
  · rw [if_neg hx, if_neg (fun h => hx ?_)]
    · by_cases hs : IsSquare x
      · rw [if_pos hs, if_pos (ho.mpr ((ZMod.euler_criterion q hx).mp hs))]
      · rw [if_neg hs, if_neg (fun h => hs ((ZMod.euler_criterion q hx).mpr (ho.mp h)))]
    · exact pow_eq_zero_iff (by omega) |>.mp (hz.mp h)

theorem Fq.two_ne : (2 : Fq) ≠ 0 := by
  intro h
  apply Fq.neg_one_ne_one
  linear_combination -h

end Bls
