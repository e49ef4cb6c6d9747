import Mathlib.Data.Nat.Digits.Defs
/-
Binary digits, for stating what number a bit loop multiplies by.
-/
namespace Bls

/-- The lowest `k` binary digits of `n`, the units digit first. -/
def binary (k n : ℕ) : List ℕ := (List.range k).map fun i => n / 2 ^ i % 2

/-- The number obtained by writing the lowest `k` binary digits of `n` in the opposite order. -/
def bitReversed (k n : ℕ) : ℕ := Nat.ofDigits 2 (binary k n).reverse

example : binary 4 6 = [0, 1, 1, 0] := by decide
example : bitReversed 3 6 = 3 ∧ bitReversed 8 1 = 128 := by decide

end Bls
