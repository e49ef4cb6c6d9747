import Verif.Proof.FRInverse
import Verif.Proof.Encode
import Mathlib.NumberTheory.LegendreSymbol.Basic
set_option exponentiation.threshold 1000
namespace Bls

theorem FR.expLoop_spec : ∀ (k fuel : ℕ) (n : FRRepr) (fi fNew : FR) (x y : Fr), n.toNat < 2 ^ k → k < fuel →
    fi.Rep x → fNew.Rep y → ∃ res, FR.expLoop fuel n fi fNew = some res ∧ res.Rep (y * x ^ n.toNat) := by
  intro k
  induction k with
  | zero =>
    intro fuel n fi fNew x y hn hf hfi hN
    obtain ⟨fuel, rfl⟩ := Nat.exists_eq_add_of_lt hf
    have h0 : n.toNat = 0 := by simpa using hn
    have hc : n.cmp frZero = 0 := by rw [FRRepr.cmp_eq_zero]; apply FRRepr.toNat_inj; rw [h0, frZero_toNat]
    refine ⟨fNew, ?_, by rw [h0, pow_zero, mul_one]; exact hN⟩
    rw [FR.expLoop, if_neg (not_not.mpr hc)]
  | succ k ih =>
    intro fuel n fi fNew x y hn hf hfi hN
    obtain ⟨fuel, rfl⟩ := Nat.exists_eq_add_of_lt (lt_of_le_of_lt (Nat.zero_le _) hf)
    rw [FR.expLoop]
    by_cases hc : n.cmp frZero = 0
    · rw [if_neg (not_not.mpr hc)]
      have h0 : n.toNat = 0 := by rw [FRRepr.cmp_eq_zero] at hc; rw [hc, frZero_toNat]
      exact ⟨fNew, rfl, by rw [h0, pow_zero, mul_one]; exact hN⟩
    · rw [if_pos hc]
      have hs := FRRepr.rsh_spec n 1
      rw [pow_one] at hs
      have hd := Nat.div_add_mod n.toNat 2
      by_cases ho : n.isOdd = true
      · obtain ⟨res, h1, h2⟩ := ih (0 + fuel) (n.rsh 1) fi.square (fNew.mul fi) (x * x) (y * x)
          (by rw [hs]; rw [pow_succ] at hn; omega) (by omega) hfi.square (hN.mul hfi)
        refine ⟨res, ?_, ?_⟩
        · simp only [if_pos ho]; exact h1
        · rw [FRRepr.isOdd_iff] at ho
          rw [hs, ← pow_two, ← pow_mul] at h2
          rw [← hd, ho, pow_succ]
          convert h2 using 1; ring
      · obtain ⟨res, h1, h2⟩ := ih (0 + fuel) (n.rsh 1) fi.square fNew (x * x) y
          (by rw [hs]; rw [pow_succ] at hn; omega) (by omega) hfi.square hN
        refine ⟨res, ?_, ?_⟩
        · simp only [if_neg ho]; exact h1
        · rw [FRRepr.isOdd_iff] at ho
          rw [hs, ← pow_two, ← pow_mul] at h2
          rw [← hd, show n.toNat % 2 = 0 by omega, add_zero]
          exact h2

theorem FR.Rep.expFrom {f o : FR} {x y : Fr} (hf : f.Rep x) (ho : o.Rep y) (n : FRRepr) :
    ∃ res, FR.expFrom o f n = some res ∧ res.Rep (y * x ^ n.toNat) := by
  unfold FR.expFrom
  exact FR.expLoop_spec 256 257 n f o x y n.toNat_lt (by norm_num) hf ho

theorem FR.Rep.exp? {f : FR} {x : Fr} (hf : f.Rep x) (n : FRRepr) :
    ∃ res, f.exp? n = some res ∧ res.Rep (x ^ n.toNat) := by
  have := hf.expFrom FR.one_rep n
  rwa [one_mul] at this

theorem FR.Rep.exp {f : FR} {x : Fr} (hf : f.Rep x) (n : FRRepr) :
    (f.exp n).Rep (x ^ n.toNat) := by
  obtain ⟨res, h1, h2⟩ := hf.exp? n
  unfold FR.exp
  rw [h1]; exact h2

theorem rMinus1Over2_toNat : FR.rMinus1Over2.toNat = r / 2 := by
  rw [r]; decide +kernel

theorem FR.Rep.legendre {f : FR} {x : Fr} (hf : f.Rep x) :
    f.legendre = if x = 0 then .zero else if IsSquare x then .quadraticResidue
      else .quadraticNonResidue := by
  have h4 := r_gt
  have h1 := hf.exp FR.rMinus1Over2
  rw [rMinus1Over2_toNat] at h1
  have hz := h1.isZero
  have ho := h1.equals FR.one_rep
  have e : f.legendre = if (f.exp FR.rMinus1Over2).isZero then LegendreSymbol.zero
    else if (f.exp FR.rMinus1Over2).equals FR.one then .quadraticResidue
    else .quadraticNonResidue := rfl
  rw [e]
  by_cases hx : x = 0
  · rw [if_pos hx, if_pos]
    rw [hz, hx, zero_pow (by omega)]
  · rw [if_neg hx, if_neg (fun h => hx ?_)]
    · by_cases hs : IsSquare x
      · rw [if_pos hs, if_pos (ho.mpr ((ZMod.euler_criterion r hx).mp hs))]
      · rw [if_neg hs, if_neg (fun h => hs ((ZMod.euler_criterion r hx).mpr (ho.mp h)))]
    · exact pow_eq_zero_iff (by omega) |>.mp (hz.mp h)

end Bls
