import Verif.Spec.Params
import Mathlib.Data.Nat.Digits.Defs
/-
The printed forms of field elements.
-/
namespace Bls

/-- The characters of base-16 numbers, by value. -/
def hexAlphabet : List Char :=
  ['0', '1', '2', '3', '4', '5', '6', '7', '8', '9', 'a', 'b', 'c', 'd', 'e', 'f']

/-- `s` is the number `n` in base 16, most significant digit first (leading zeros allowed). -/
def IsHex (s : List Char) (n : ℕ) : Prop :=
  ∃ ds : List ℕ, s.map some = ds.map (hexAlphabet[·]?) ∧ Nat.ofDigits 16 ds.reverse = n

/-- `s` is `Fq(0x…)` with `n` in 96 hexadecimal digits. -/
def FqText (n : ℕ) (s : List Char) : Prop :=
  ∃ d, s = "Fq(0x".toList ++ d ++ ")".toList ∧ d.length = 96 ∧ IsHex d n

/-- `s` is `FR(0x…)` with `n` in 64 hexadecimal digits. -/
def FrText (n : ℕ) (s : List Char) : Prop :=
  ∃ d, s = "FR(0x".toList ++ d ++ ")".toList ∧ d.length = 64 ∧ IsHex d n

/-- `s` is `Fq2(n0 + n1 * u)`. -/
def Fq2Text (n0 n1 : ℕ) (s : List Char) : Prop :=
  ∃ s0 s1, FqText n0 s0 ∧ FqText n1 s1 ∧ s = "Fq2(".toList ++ s0 ++ " + ".toList ++ s1 ++ " * u)".toList

end Bls
