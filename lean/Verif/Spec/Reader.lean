import Mathlib.Data.Vector.Basic
import Verif.Model.Reader
import Verif.Spec.Bytes
/-
Several keys from one reader.
-/
namespace Bls

/-- `RandKey` called `m` times with the same reader; `none` unless all calls succeed. -/
def G1Pubs.drawKeys : ℕ → List UInt8 → Option (List G1Pubs.SecretKey)
  | 0, _ => some []
  | m + 1, l => match G1Pubs.randKeyFrom l with
    | (some (some sk), rest) => (G1Pubs.drawKeys m rest).map (sk :: ·)
    | _ => none

/-- The same for g2pubs. -/
def G2Pubs.drawKeys : ℕ → List UInt8 → Option (List G2Pubs.SecretKey)
  | 0, _ => some []
  | m + 1, l => match G2Pubs.randKeyFrom l with
    | (some (some sk), rest) => (G2Pubs.drawKeys m rest).map (sk :: ·)
    | _ => none

/-- What a reader gives: `n` blocks of `k` bytes. -/
abbrev Blocks (n k : ℕ) := List.Vector (List.Vector UInt8 k) n

/-- The bytes of the blocks. -/
def Blocks.bytes {n k : ℕ} (b : Blocks n k) : List UInt8 := (b.toList.map List.Vector.toList).flatten

end Bls
