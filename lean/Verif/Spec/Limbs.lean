import Verif.Model.FQRepr
import Verif.Model.FRRepr
import Mathlib.Data.Nat.Notation
/-
The integer a limb array denotes (little-endian 64-bit words).
-/
namespace Bls

set_option exponentiation.threshold 1000

/-- The integer a limb array denotes. -/
def FQRepr.toNat (f : FQRepr) : ℕ :=
  f.l0.toNat + 2 ^ 64 * f.l1.toNat + 2 ^ 128 * f.l2.toNat + 2 ^ 192 * f.l3.toNat
    + 2 ^ 256 * f.l4.toNat + 2 ^ 320 * f.l5.toNat

/-- The integer a limb array denotes. -/
def FRRepr.toNat (f : FRRepr) : ℕ :=
  f.l0.toNat + 2 ^ 64 * f.l1.toNat + 2 ^ 128 * f.l2.toNat + 2 ^ 192 * f.l3.toNat

end Bls
