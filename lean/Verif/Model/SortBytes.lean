/-
Model of the message sorting and duplicate check shared by g1pubs/bls.go and g2pubs/bls.go. A `[]byte`
is a list of bytes; nil and the empty slice are the same list (`bytes.Equal` does not tell them apart).
-/
namespace Bls

/-- `bytes.Compare` (by contract): lexicographic order of unsigned bytes, a proper prefix is smaller. -/
def bytesCompare : List UInt8 → List UInt8 → Int
  | [], [] => 0
  | [], _ :: _ => -1
  | _ :: _, [] => 1
  | a :: s, b :: t => if a < b then -1 else if b < a then 1 else bytesCompare s t

/-- `Less`, g1pubs/bls.go:228-239 and g2pubs/bls.go:216-227 (the default case of the switch cannot occur). -/
def bytesLess (a b : List UInt8) : Bool := bytesCompare a b == -1

/-- `sortableByteArray.Len`, g1pubs/bls.go:224-226 and g2pubs/bls.go:212-214. -/
def sortableLen (b : List (List UInt8)) : Nat := b.length

/-- `sortableByteArray.Less`, g1pubs/bls.go:228-239 and g2pubs/bls.go:216-227; `none` is the index panic. -/
def sortableLess (b : List (List UInt8)) (i j : Nat) : Option Bool := do
  let x ← b[i]?
  let y ← b[j]?
  return bytesLess x y

/-- `sortableByteArray.Swap`, g1pubs/bls.go:241-243 and g2pubs/bls.go:229-231: both elements are read, then
`b[j]` and `b[i]` are written. -/
def sortableSwap (b : List (List UInt8)) (i j : Nat) : Option (List (List UInt8)) := do
  let x ← b[i]?
  let y ← b[j]?
  return (b.set j x).set i y

/-- `sortByteArrays`, g1pubs/bls.go:245-249 and g2pubs/bls.go:233-237. `sort.Sort` by contract: the list reordered
so that no element is less than an earlier one. Which algorithm is used does not matter, see
`C38_sort_determined`. -/
def sortByteArrays (src : List (List UInt8)) : List (List UInt8) := src.mergeSort fun a b => !bytesLess b a

/-- The duplicate loop of `VerifyAggregate`, g1pubs/bls.go:265-273 and g2pubs/bls.go:253-261: whether it runs
to its end. -/
def noRepeat (lastMsg : List UInt8) : List (List UInt8) → Bool
  | [] => true
  | m :: ms => if m == lastMsg then false else noRepeat m ms

end Bls
