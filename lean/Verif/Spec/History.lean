import Verif.Model.Heap
import Mathlib.Logic.Relation
/-
What a program that uses the scalar API can do to memory: it holds pointers to `FR` and `FRRepr`
objects it got from the library or made itself, and calls the library with them, in any order and any
number of times.
-/
namespace Bls.Heap

/-- The memory and the pointers the caller holds. -/
structure World where
  mem : Mem
  frs : List Nat
  reprs : List Nat

/-- A fresh process: no pointers yet. -/
def World.start : World := ⟨init, [], []⟩

/-- One call, other than `Sqrt`. (`KeyFromFQRepr` is `FRReprToFR`; `GetFRElement` returns a pointer
that is already held; `IsZero` and `Equals` change nothing.) -/
inductive Call (w : World) : World → Prop
  /-- the caller makes an `FRRepr` with any value (`NewFRRepr`, `FRReprFromBytes`, …) -/
  | newRepr (v : FRRepr) : Call w ⟨(w.mem.alloc v).2, w.frs, (w.mem.alloc v).1 :: w.reprs⟩
  /-- the caller writes anything to an `FRRepr` it holds (also by `AddNoCarry`, `Rsh`, …) -/
  | writeRepr (p : Nat) (v : FRRepr) (hp : p ∈ w.reprs) : Call w ⟨w.mem.set p v, w.frs, w.reprs⟩
  | frReprToFR (o : Nat) (ho : o ∈ w.reprs) :
    Call w ⟨(frReprToFR w.mem o).2, (frReprToFR w.mem o).1.toList ++ w.frs, w.reprs⟩
  | copy (f : Nat) (hf : f ∈ w.frs) :
    Call w ⟨(copy w.mem f).2, (copy w.mem f).1 :: w.frs, w.reprs⟩
  | addAssign (f o : Nat) (hf : f ∈ w.frs) (ho : o ∈ w.frs) :
    Call w ⟨addAssign w.mem f o, w.frs, w.reprs⟩
  | subAssign (f o : Nat) (hf : f ∈ w.frs) (ho : o ∈ w.frs) :
    Call w ⟨subAssign w.mem f o, w.frs, w.reprs⟩
  | mulAssign (f o : Nat) (hf : f ∈ w.frs) (ho : o ∈ w.frs) :
    Call w ⟨mulAssign w.mem f o, w.frs, w.reprs⟩
  | negAssign (f : Nat) (hf : f ∈ w.frs) : Call w ⟨negAssign w.mem f, w.frs, w.reprs⟩
  | doubleAssign (f : Nat) (hf : f ∈ w.frs) : Call w ⟨doubleAssign w.mem f, w.frs, w.reprs⟩
  | squareAssign (f : Nat) (hf : f ∈ w.frs) : Call w ⟨squareAssign w.mem f, w.frs, w.reprs⟩
  | exp (f n : Nat) (x : Nat × Mem) (hf : f ∈ w.frs) (hn : n ∈ w.reprs)
    (h : exp w.mem f n = some x) : Call w ⟨x.2, x.1 :: w.frs, w.reprs⟩
  | inverse (f : Nat) (x : Option Nat × Mem) (hf : f ∈ w.frs) (h : inverse w.mem f = some x) :
    Call w ⟨x.2, x.1.toList ++ w.frs, w.reprs⟩
  | mulBits (f b : Nat) (x : Nat × Mem) (hf : f ∈ w.frs) (hb : b ∈ w.reprs)
    (h : mulBits w.mem f b = some x) : Call w ⟨x.2, x.1 :: w.frs, w.reprs⟩
  | mulBytes (f : Nat) (b : List UInt8) (x : Nat × Mem) (hf : f ∈ w.frs)
    (h : mulBytes w.mem f b = some x) : Call w ⟨x.2, x.1 :: w.frs, w.reprs⟩
  | hashFR (digest : List UInt8) (x : Nat × Mem) (h : hashFR w.mem digest = some x) :
    Call w ⟨x.2, x.1 :: w.frs, w.reprs⟩
  | toRepr (f : Nat) (hf : f ∈ w.frs) :
    Call w ⟨(toRepr w.mem f).2, w.frs, (toRepr w.mem f).1 :: w.reprs⟩
  | cmp (f o : Nat) (hf : f ∈ w.frs) (ho : o ∈ w.frs) : Call w ⟨(cmp w.mem f o).2, w.frs, w.reprs⟩
  | parity (f : Nat) (hf : f ∈ w.frs) : Call w ⟨(parity w.mem f).2, w.frs, w.reprs⟩
  | legendre (f : Nat) (x : LegendreSymbol × Mem) (hf : f ∈ w.frs)
    (h : legendre w.mem f = some x) : Call w ⟨x.2, w.frs, w.reprs⟩

/-- A call of `Sqrt`. -/
inductive SqrtCall (w : World) : World → Prop
  | sqrt (f : Nat) (hf : f ∈ w.frs) :
    SqrtCall w ⟨(sqrt w.mem f).2, (sqrt w.mem f).1.toList ++ w.frs, w.reprs⟩

/-- The worlds that can be reached without calling `Sqrt`. -/
def HistoryNoSqrt (w : World) : Prop := Relation.ReflTransGen Call World.start w

/-- The worlds that can be reached. -/
def History (w : World) : Prop :=
  Relation.ReflTransGen (fun a b => Call a b ∨ SqrtCall a b) World.start w

/-- The worlds that can be reached when `Sqrt` is called `k` times, and the caller does not keep the
pointers it returns. -/
inductive HistorySqrts : Nat → World → Prop
  | start : HistorySqrts 0 World.start
  | call {k : Nat} {w w' : World} : HistorySqrts k w → Call w w' → HistorySqrts k w'
  | sqrt {k : Nat} {w : World} (f : Nat) : HistorySqrts k w → f ∈ w.frs →
    HistorySqrts (k + 1) ⟨(Heap.sqrt w.mem f).2, w.frs, w.reprs⟩

/-- One call that changes the `FR` at `g`. -/
inductive Mutates (g : Nat) (m : Mem) : Mem → Prop
  | addAssign (o : Nat) : Mutates g m (addAssign m g o)
  | subAssign (o : Nat) : Mutates g m (subAssign m g o)
  | mulAssign (o : Nat) : Mutates g m (mulAssign m g o)
  | negAssign : Mutates g m (negAssign m g)
  | doubleAssign : Mutates g m (doubleAssign m g)
  | squareAssign : Mutates g m (squareAssign m g)

/-- Nothing that was in use in `m`, the package variables included, is different in `m'`. -/
def Unchanged (m m' : Mem) : Prop :=
  (∀ p < m.nextCell, m'.cell p = m.cell p) ∧ ∀ f < m.nextFr, m'.fr f = m.fr f

end Bls.Heap
