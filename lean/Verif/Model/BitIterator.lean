import Verif.Model.Word
/-
bititerator.go
-/
namespace Bls

/-- `BitIterator`, bititerator.go:4-7. -/
structure BitIterator where
  arr : List W
  n : Nat

/-- `NewBitIterator`, bititerator.go:10-12. -/
def newBitIterator (arr : List W) : BitIterator := ⟨arr, arr.length * 64⟩

/-- `BitIterator.Next`, bititerator.go:16-24: the returned pair and the new state; `none` is an
index-out-of-range panic (proved unreachable). -/
def BitIterator.next (bi : BitIterator) : Option ((Bool × Bool) × BitIterator) :=
  if bi.n = 0 then some ((false, true), bi)
  else
    let n := bi.n - 1
    let part := n / 64
    let bit := n - part * 64
    match bi.arr[part]? with
    | none => none
    | some w => some ((decide ((w &&& (1 <<< UInt64.ofNat bit)) > 0), false), { bi with n := n })

/-- All bits an iterator still delivers: the loop `next, done := iter.Next(); for !done {…}`
used by every `Exp` and `Mul` in the library (e.g. fq.go:97-111). The fuel is the remaining
counter, which `next` decreases by one. -/
def BitIterator.drain (bi : BitIterator) : (fuel : Nat) → Option (List Bool)
  | 0 => none
  | fuel + 1 =>
    match bi.next with
    | none => none
    | some ((_, true), _) => some []
    | some ((b, false), bi') => (bi'.drain fuel).map (b :: ·)

/-- The body of the `for !done` loop of the `Exp` methods, over the bits delivered by the iterator:
fq.go:101-111, fq2.go:175-185 (textually the same up to
the element type; `sq` and `mul` are that type's `SquareAssign` and `MulAssign`). The state is
`(res, foundOne)`. -/
def powLoop {A : Type} (sq : A → A) (mul : A → A → A) (f : A) : List Bool → A → Bool → A
  | [], res, _ => res
  | next :: rest, res, foundOne =>
    let (res, foundOne) := if foundOne then (sq res, foundOne) else (res, next)
    let res := if next then mul res f else res
    powLoop sq mul f rest res foundOne

end Bls
