import Verif.Model.Word
import Mathlib.Tactic.Ring
import Mathlib.Tactic.NormNum
import Mathlib.Tactic.Linarith
/-
Arithmetic meaning of the word primitives.
-/
namespace Bls

theorem W.lt (x : W) : x.toNat < 2 ^ 64 := x.toNat_lt

theorem toNat_ofNat_lt {n : Nat} (h : n < 2 ^ 64) : (UInt64.ofNat n).toNat = n := by
  simp only [UInt64.toNat_ofNat']; exact Nat.mod_eq_of_lt h

theorem add64_spec (x y c : W) (h : c.toNat ≤ 1) :
    (add64 x y c).1.toNat + 2 ^ 64 * (add64 x y c).2.toNat = x.toNat + y.toNat + c.toNat := by
  have := x.lt; have := y.lt
  simp only [add64, UInt64.toNat_add]
  rw [toNat_ofNat_lt (by omega)]
  omega

theorem add64_le (x y : W) : (add64 x y 0).2.toNat ≤ 1 := by
  have := x.lt; have := y.lt
  simp only [add64, UInt64.toNat_zero]
  rw [toNat_ofNat_lt (by omega)]
  omega

theorem addWithCarry_spec (a b c : W) :
    (addWithCarry a b c).1.toNat + 2 ^ 64 * (addWithCarry a b c).2.toNat
      = a.toNat + b.toNat + c.toNat := by
  have h1 := add64_spec a b 0 (by simp)
  have h2 := add64_spec (add64 a b 0).1 c 0 (by simp)
  have h3 := add64_le a b
  have h4 := add64_le (add64 a b 0).1 c
  simp only [addWithCarry, UInt64.toNat_add, UInt64.toNat_zero] at *
  rw [Nat.mod_eq_of_lt (by omega)]
  omega

theorem mul64_spec (x y : W) :
    (mul64 x y).2.toNat + 2 ^ 64 * (mul64 x y).1.toNat = x.toNat * y.toNat := by
  have hx := x.lt; have hy := y.lt
  have : x.toNat * y.toNat / 2 ^ 64 < 2 ^ 64 := by
    rw [Nat.div_lt_iff_lt_mul (by norm_num)]
    nlinarith
  simp only [mul64, UInt64.toNat_mul]
  rw [toNat_ofNat_lt this]
  omega

theorem macWithCarry_spec (a b c d : W) :
    (macWithCarry a b c d).1.toNat + 2 ^ 64 * (macWithCarry a b c d).2.toNat
      = a.toNat + b.toNat * c.toNat + d.toNat := by
  have h0 := mul64_spec b c
  have h1 := add64_spec (mul64 b c).2 a 0 (by simp)
  have h2 := add64_spec (add64 (mul64 b c).2 a 0).1 d 0 (by simp)
  have h3 := add64_le (mul64 b c).2 a
  have h4 := add64_le (add64 (mul64 b c).2 a 0).1 d
  have ha := a.lt; have hd := d.lt
  have hbc : b.toNat * c.toNat ≤ (2 ^ 64 - 1) * (2 ^ 64 - 1) :=
    Nat.mul_le_mul (Nat.le_sub_one_of_lt b.lt) (Nat.le_sub_one_of_lt c.lt)
  simp only [macWithCarry, UInt64.toNat_add, UInt64.toNat_zero] at *
  norm_num at hbc
  rw [Nat.mod_eq_of_lt (a := (mul64 b c).1.toNat + _) (by omega), Nat.mod_eq_of_lt (by omega)]
  omega

theorem subWithBorrow_spec (a b c : W) (hc : c.toNat ≤ 1) :
    (subWithBorrow a b c).1.toNat + b.toNat + c.toNat
      = a.toNat + 2 ^ 64 * (subWithBorrow a b c).2.toNat ∧ (subWithBorrow a b c).2.toNat ≤ 1 := by
  have ha := a.lt; have hb := b.lt
  simp only [subWithBorrow, sub64, UInt64.toNat_sub]
  split <;> simp only [UInt64.toNat_zero, UInt64.toNat_one] <;> omega

/-- Doubling with shifts: `(x << 1) | (y >> 63)`. -/
theorem shl1_or (x y : W) :
    ((x <<< 1) ||| (y >>> 63)).toNat = 2 * x.toNat % 2 ^ 64 + y.toNat / 2 ^ 63 := by
  have hx := x.lt; have hy := y.lt
  have h1 : y.toNat / 2 ^ 63 < 2 ^ 1 := by omega
  have h2 : x.toNat <<< 1 % 2 ^ 64 = (x.toNat % 2 ^ 63) <<< 1 := by
    simp only [Nat.shiftLeft_eq]; omega
  rw [UInt64.toNat_or, UInt64.toNat_shiftLeft, UInt64.toNat_shiftRight]
  simp only [UInt64.toNat_ofNat, Nat.reduceMod, Nat.shiftRight_eq_div_pow, Nat.reducePow] at *
  rw [h2, ← Nat.shiftLeft_add_eq_or_of_lt h1]
  simp only [Nat.shiftLeft_eq]; omega

end Bls
