import Verif.Model.Hash
/-
What the functions that hash ask SHA-256 for: the byte strings of all calls, for a given hash function.
-/
namespace Bls

/-- The strings `H(msg) ‖ ctr ‖ i ‖ j` from which a number is made: `j = 1, 2`. -/
def blockQueries (digest : List UInt8) (ctr i : UInt8) : List (List UInt8) := [digest ++ [ctr, i, 1], digest ++ [ctr, i, 2]]

/-- What `HashG1(msg)` asks for. -/
def queriesG1 (sha : List UInt8 → List UInt8) (msg : List UInt8) : List (List UInt8) :=
  [1 :: msg] ++ blockQueries (sha (1 :: msg)) 0 1 ++ blockQueries (sha (1 :: msg)) 1 1

/-- What `HashG2(msg)` asks for. -/
def queriesG2 (sha : List UInt8 → List UInt8) (msg : List UInt8) : List (List UInt8) :=
  [1 :: msg] ++ blockQueries (sha (1 :: msg)) 0 1 ++ blockQueries (sha (1 :: msg)) 0 2 ++
    blockQueries (sha (1 :: msg)) 1 1 ++ blockQueries (sha (1 :: msg)) 1 2

/-- What `HashSecretKey(seed)` asks for. -/
def queriesKey (sha : List UInt8 → List UInt8) (seed : List UInt8) : List (List UInt8) :=
  [seed] ++ blockQueries (sha seed) 0 1

/-- What `HashG2WithDomain(msg, domain)` asks for. -/
def queriesDomain (msg domain : List UInt8) : List (List UInt8) := [msg ++ domain ++ [1], msg ++ domain ++ [2]]

/-- A hash function with digests of 32 bytes, as SHA-256 has. -/
def Digests32 (sha : List UInt8 → List UInt8) : Prop := ∀ b, (sha b).length = 32

end Bls
