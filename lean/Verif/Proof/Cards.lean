import Verif.Proof.FQ12
import Mathlib.FieldTheory.Finite.Basic
/-
Sizes of the extension fields, and conjugation as a power of Frobenius.
-/
namespace Bls

/-- An Fq2 element is its pair of coordinates. -/
noncomputable def Fq2.equivProd : Fq2 ≃ Fq × Fq := ⟨fun a => (a.c0, a.c1), fun p => ⟨p.1, p.2⟩, fun _ => rfl, fun _ => rfl⟩
/-- An Fq6 element is its triple of coordinates. -/
noncomputable def Fq6.equivProd : Fq6 ≃ Fq2 × Fq2 × Fq2 :=
  ⟨fun a => (a.c0, a.c1, a.c2), fun p => ⟨p.1, p.2.1, p.2.2⟩, fun _ => rfl, fun _ => rfl⟩
/-- An Fq12 element is its pair of coordinates. -/
noncomputable def Fq12.equivProd : Fq12 ≃ Fq6 × Fq6 := ⟨fun a => (a.c0, a.c1), fun p => ⟨p.1, p.2⟩, fun _ => rfl, fun _ => rfl⟩

instance : Finite Fq := inferInstanceAs (Finite (ZMod q))
instance : Finite Fq2 := Finite.of_equiv _ Fq2.equivProd.symm
instance : Finite Fq6 := Finite.of_equiv _ Fq6.equivProd.symm
instance : Finite Fq12 := Finite.of_equiv _ Fq12.equivProd.symm

theorem Fq.card : Nat.card Fq = q := Nat.card_zmod q
theorem Fq2.card : Nat.card Fq2 = q ^ 2 := by
  rw [Nat.card_congr Fq2.equivProd, Nat.card_prod, Fq.card, pow_two]
theorem Fq6.card : Nat.card Fq6 = q ^ 6 := by
  rw [Nat.card_congr Fq6.equivProd, Nat.card_prod, Nat.card_prod, Fq2.card]; ring
theorem Fq12.card : Nat.card Fq12 = q ^ 12 := by
  rw [Nat.card_congr Fq12.equivProd, Nat.card_prod, Fq6.card]; ring

theorem Fq2.pow_card (x : Fq2) : x ^ q ^ 2 = x := by
  have := Fintype.ofFinite Fq2
  rw [← Fq2.card, Nat.card_eq_fintype_card]; exact FiniteField.pow_card x
theorem Fq6.pow_card (x : Fq6) : x ^ q ^ 6 = x := by
  have := Fintype.ofFinite Fq6
  rw [← Fq6.card, Nat.card_eq_fintype_card]; exact FiniteField.pow_card x
theorem Fq12.pow_card (x : Fq12) : x ^ q ^ 12 = x := by
  have := Fintype.ofFinite Fq12
  rw [← Fq12.card, Nat.card_eq_fintype_card]; exact FiniteField.pow_card x

theorem frob12_six : (FQ12.frobeniusCoeffC1 6).nv = N2.neg N2.one := by decide +kernel

theorem Fq12.w_pow_q6 : Fq12.w ^ q ^ 6 = -Fq12.w := by
  rw [Fq12.w_pow, show 6 % 12 = 6 from rfl, frob12_six, N2.toF_neg, N2.toF_one, map_neg, map_one, neg_one_mul]

theorem Fq12.conj_eq (x : Fq12) : Fq12.conj x = x ^ q ^ 6 := by
  conv_rhs => rw [Fq12.eq_add x]
  rw [add_pow_char_pow, mul_pow, Fq12.w_pow_q6, ← map_pow, ← map_pow, Fq6.pow_card, Fq6.pow_card]
  ext1 <;> simp

end Bls
