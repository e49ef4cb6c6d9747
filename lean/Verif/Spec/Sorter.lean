import Verif.Model.SortBytes
/-
What a sorting routine of package `sort` can do to the data it is given: it may only call `Len`, `Less` and
`Swap`, each call depending on the answers so far.
-/
namespace Bls

/-- The calls a sorting routine makes after it has asked for `Len`. -/
inductive SortCalls where
  /-- return -/
  | done
  /-- call `Less(i, j)` and go on as the answer says -/
  | less (i j : Nat) (k : Bool → SortCalls)
  /-- call `Swap(i, j)` and go on -/
  | swap (i j : Nat) (k : SortCalls)

/-- The data after the calls, or `none` if one of them panicked. -/
def SortCalls.run : SortCalls → List (List UInt8) → Option (List (List UInt8))
  | .done, b => some b
  | .less i j k, b => (sortableLess b i j).bind fun x => (k x).run b
  | .swap i j k, b => (sortableSwap b i j).bind fun b' => k.run b'

/-- A sorting routine: it learns the length and then makes its calls. -/
abbrev Sorter := Nat → SortCalls

/-- The routine applied to the data. -/
def Sorter.sort (s : Sorter) (b : List (List UInt8)) : Option (List (List UInt8)) := (s (sortableLen b)).run b

/-- `sort.IsSorted`, the documented outcome of `sort.Sort`: `Less(i + 1, i)` is false for all neighbours. -/
def IsSorted (b : List (List UInt8)) : Prop := ∀ i, i + 1 < sortableLen b → sortableLess b (i + 1) i = some false

/-- Every element is not less than the one before it after bubbling the `k`-th element down: the inner loop
of insertion sort, `for j := i; j > 0 && data.Less(j, j-1); j-- { data.Swap(j, j-1) }`. -/
def sinkCalls (k : SortCalls) : Nat → SortCalls
  | 0 => k
  | j + 1 => .less (j + 1) j fun x => if x then .swap (j + 1) j (sinkCalls k j) else k

/-- Insertion sort, as package `sort` does it for short data: `for i := 1; i < n; i++ { sink i }`. -/
def insertionFrom (i : Nat) : Nat → SortCalls
  | 0 => .done
  | n + 1 => sinkCalls (insertionFrom (i + 1) n) i

/-- Insertion sort as a routine. -/
def insertionSort : Sorter := fun n => insertionFrom 1 (n - 1)

end Bls
