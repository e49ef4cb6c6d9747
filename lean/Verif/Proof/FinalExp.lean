import Verif.Model.Pairing
import Verif.Proof.Cards
import Verif.Proof.Shift
/-
`FinalExponentiation` raises to the power `3(q¹²-1)/r`.
-/
namespace Bls

/-- The absolute value of the curve parameter. -/
def blsU : ℕ := 0xd201000000010000

theorem blsX_toNat : blsX.toNat = blsU := by decide +kernel

theorem blsX_rsh_toNat : (blsX.rsh 1).toNat = blsU / 2 := by rw [FQRepr.rsh_spec, blsX_toNat, pow_one]

theorem blsX_lsh_toNat : ((blsX.rsh 1).lsh 1).toNat = blsU := by
  rw [FQRepr.lsh_spec, blsX_rsh_toNat]; decide +kernel

/-- The exponent of the second part, as computed by the code. -/
def hardExp : ℤ := (-(blsU : ℤ) - 1) ^ 2 * ((q : ℤ) ^ 3 + -blsU * q ^ 2 + ((-blsU) ^ 2 - 1) * q + -blsU * ((-blsU) ^ 2 - 1)) + 3

set_option exponentiation.threshold 1000 in
theorem hardExp_mul : hardExp * r = 3 * ((q : ℤ) ^ 4 - q ^ 2 + 1) := by
  rw [hardExp, q, r, blsU]; decide +kernel

theorem hardExp_nonneg : 0 ≤ hardExp := by
  rw [hardExp, q, blsU]; decide +kernel

/-- The exponent of the final exponentiation. -/
def fullExp : ℕ := 3 * ((q ^ 12 - 1) / r)

theorem easy_hard : ((q : ℤ) ^ 6 - 1) * (q ^ 2 + 1) * hardExp = fullExp := by
  have h1 : ((q : ℤ) ^ 6 - 1) * (q ^ 2 + 1) * hardExp * r = 3 * (q ^ 12 - 1) := by
    rw [mul_assoc, hardExp_mul]; ring
  have hr : (r : ℤ) ≠ 0 := by exact_mod_cast r_prime.ne_zero
  have hq1 : 1 ≤ q ^ 12 := Nat.one_le_pow _ _ q_prime.pos
  have hd : (r : ℤ) ∣ ((q ^ 12 - 1 : ℕ) : ℤ) := by
    have h3 : IsCoprime (r : ℤ) 3 := by
      rw [Int.isCoprime_iff_gcd_eq_one]; rw [r]; decide +kernel
    refine h3.dvd_of_dvd_mul_left (Dvd.intro_left (((q : ℤ) ^ 6 - 1) * (q ^ 2 + 1) * hardExp) ?_)
    rw [h1]; push_cast [hq1]; ring
  obtain ⟨k, hk⟩ := Int.natCast_dvd_natCast.mp hd
  have hk' : fullExp = 3 * k := by rw [fullExp, hk, Nat.mul_div_cancel_left _ r_prime.pos]
  apply mul_right_cancel₀ hr
  rw [h1, hk']
  have : ((q ^ 12 - 1 : ℕ) : ℤ) = r * k := by exact_mod_cast hk
  push_cast [hq1] at this ⊢
  rw [this]; ring

/-- The result of the first part. -/
noncomputable def Fq12.easy (x : Fq12) : Fq12 := x ^ (((q : ℤ) ^ 6 - 1) * (q ^ 2 + 1))

theorem Fq12.conj_zpow {ρ : Fq12} (h : Fq12.conj ρ = ρ⁻¹) (k : ℤ) : Fq12.conj (ρ ^ k) = ρ ^ (-k) := by
  rw [map_zpow₀, h, inv_zpow, zpow_neg]

theorem Fq12.zpow_card {x : Fq12} (hx : x ≠ 0) (k : ℤ) : x ^ (((q : ℤ) ^ 12 - 1) * k) = 1 := by
  rw [zpow_mul]
  have : x ^ ((q : ℤ) ^ 12 - 1) = 1 := by
    rw [zpow_sub₀ hx, zpow_one, ← Nat.cast_pow, zpow_natCast, Fq12.pow_card, div_self hx]
  rw [this, one_zpow]

theorem Fq12.conj_easy {x : Fq12} (hx : x ≠ 0) : Fq12.conj (Fq12.easy x) = (Fq12.easy x)⁻¹ := by
  refine eq_inv_of_mul_eq_one_left ?_
  rw [Fq12.conj_eq, Fq12.easy, ← zpow_natCast, ← zpow_mul, ← zpow_add₀ hx, ← Fq12.zpow_card hx (q ^ 2 + 1)]
  congr 1; push_cast; ring

theorem FQ12.Rep.expByX {f : FQ12} {ρ : Fq12} {k : ℤ} (h : Fq12.conj ρ = ρ⁻¹) (hf : f.Rep (ρ ^ k)) (n : FQRepr) :
    (expByX f n).Rep (ρ ^ (-(n.toNat : ℤ) * k)) := by
  unfold Bls.expByX
  have h1 := (hf.exp n).conjugate
  rw [← zpow_natCast, ← zpow_mul, Fq12.conj_zpow h] at h1
  rw [if_pos (show blsIsNegative = true from rfl)]
  convert h1 using 2; ring

theorem blsU_even : ((blsU / 2 : ℕ) : ℤ) * 2 = blsU := by decide +kernel

theorem FQ12.Rep.finalExponentiation {f : FQ12} {x : Fq12} (hf : f.Rep x) (hx : x ≠ 0) :
    ∃ g, Bls.finalExponentiation f = some g ∧ g.Rep (x ^ fullExp) := by
  have hi := hf.inverse_ne hx
  have hr1 := hf.conjugate.mul hi.2
  have hr2 := (hr1.frobeniusMap 2).mul hr1
  have e2 : (Fq12.conj x * x⁻¹) ^ q ^ (2 : UInt8).toNat * (Fq12.conj x * x⁻¹) = Fq12.easy x ^ (1 : ℤ) := by
    rw [show (2 : UInt8).toNat = 2 from rfl, Fq12.conj_eq, ← zpow_natCast x, ← zpow_neg_one x, ← zpow_add₀ hx, ← zpow_natCast,
      ← zpow_mul, ← zpow_add₀ hx, zpow_one, Fq12.easy]
    congr 1; push_cast; ring
  rw [e2] at hr2
  have hρ := Fq12.conj_easy hx
  have hne : Fq12.easy x ≠ 0 := zpow_ne_zero _ hx
  have hfin : x ^ fullExp = Fq12.easy x ^ hardExp := by
    rw [Fq12.easy, ← zpow_mul, easy_hard, zpow_natCast]
  rw [hfin]
  generalize Fq12.easy x = ρ at hr2 hρ hne
  have hmul : ∀ {a b : FQ12} {k l : ℤ}, a.Rep (ρ ^ k) → b.Rep (ρ ^ l) → (a.mul b).Rep (ρ ^ (k + l)) :=
    fun ha hb => by rw [zpow_add₀ hne]; exact ha.mul hb
  have hconj : ∀ {a : FQ12} {k : ℤ}, a.Rep (ρ ^ k) → a.conjugate.Rep (ρ ^ (-k)) :=
    fun ha => by have := ha.conjugate; rwa [Fq12.conj_zpow hρ] at this
  have hfrob : ∀ {a : FQ12} {k : ℤ} (n : UInt8), a.Rep (ρ ^ k) → (a.frobeniusMap n).Rep (ρ ^ (k * (q : ℤ) ^ n.toNat)) :=
    fun n ha => by
      have := ha.frobeniusMap n
      rw [zpow_mul]
      rw [← zpow_natCast] at this
      push_cast at this; exact this
  have hsq : ∀ {a : FQ12} {k : ℤ}, a.Rep (ρ ^ k) → a.square.Rep (ρ ^ (k + k)) :=
    fun ha => by rw [zpow_add₀ hne]; exact ha.square
  unfold Bls.finalExponentiation
  simp only [hi.1, Bool.not_true, Bool.false_eq_true, if_false]
  refine ⟨_, rfl, ?_⟩
  generalize ((f.conjugate.mul f.inverse.1).frobeniusMap 2).mul (f.conjugate.mul f.inverse.1) = R at hr2
  have y0 := hsq hr2
  have y1 := y0.expByX hρ blsX
  have y2 := y1.expByX hρ (blsX.rsh 1)
  have y1' := hmul (hconj (hmul y1 (hconj hr2))) y2
  have y2' := y1'.expByX hρ ((blsX.rsh 1).lsh 1)
  have y3 := hmul (y2'.expByX hρ ((blsX.rsh 1).lsh 1)) (hconj y1')
  have y1'' := hmul (hfrob 3 (hconj (hconj y1'))) (hfrob 2 y2')
  have y2'' := hmul (hmul (y3.expByX hρ ((blsX.rsh 1).lsh 1)) y0) hr2
  have y := hmul (hmul y1'' y2'') (hfrob 1 y3)
  rw [blsX_toNat, blsX_rsh_toNat, blsX_lsh_toNat] at y
  convert y using 2
  rw [hardExp, show (3 : UInt8).toNat = 3 from rfl, show (2 : UInt8).toNat = 2 from rfl, show (1 : UInt8).toNat = 1 from rfl]
  have h2 := blsU_even
  generalize ((blsU / 2 : ℕ) : ℤ) = h at h2 ⊢
  rw [← h2]
  ring

theorem FQ12.Rep.finalExponentiation_zero {f : FQ12} (hf : f.Rep 0) : Bls.finalExponentiation f = none := by
  have hi := hf.inverse_zero
  unfold Bls.finalExponentiation
  simp only [hi, Bool.not_false, if_true]

attribute [irreducible] fullExp hardExp blsU

end Bls
