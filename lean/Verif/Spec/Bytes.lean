import Mathlib.Data.Nat.Notation
/-
The number a byte string denotes.
-/
namespace Bls

/-- The big-endian value of a byte string. -/
def beNat (b : List UInt8) : ℕ := b.foldl (fun acc x => acc * 256 + x.toNat) 0

end Bls
