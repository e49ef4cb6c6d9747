import Verif.Model.HeapFQ12
import Verif.Spec.History12
import Verif.Spec.Program
/-
Goroutines that use `FQ12` and the pairing. After a first program (Verif/Spec/History12.lean) has run, several goroutines
start, all holding its variables; each runs a program of its own (Verif/Spec/Program.lean) on these variables and on the
ones it makes. The scheduler picks a goroutine, which makes its next access to the memory: it reads or overwrites one `FQ6` or the pointers
in one `FQ12`, or makes a new object. As in Verif/Spec/Threads.lean the accesses are seen by all goroutines at once and
in one order, and races are defined because Go guarantees this only in their absence.
-/
namespace Bls.HeapFQ12
open Bls.Heap12 (Mem Op own)

/-- What a program has when it is done: the addresses in its variables, and the booleans that its calls returned. -/
abbrev Res := List Nat × List Bool

/-- The pointer in a variable; a variable that the program does not have, or may not change, stops it. -/
def pointer (o : Option Nat) : M Nat := match o with
  | some p => pure p
  | none => .panic

/-- The call, access by access, by a goroutine with the variables `e`. -/
def opCalls (e : List Nat) : Op → M Res
  | .conjugate i => do conjugate (← pointer (own e i)); pure (e, [])
  | .double i => do double (← pointer (own e i)); pure (e, [])
  | .neg i => do neg (← pointer (own e i)); pure (e, [])
  | .square i => do square (← pointer (own e i)); pure (e, [])
  | .frobenius i k => do frobeniusMap (← pointer (own e i)) k; pure (e, [])
  | .inverse i => do pure (e, [← inverse (← pointer (own e i))])
  | .add i j => do
    let f ← pointer (own e i)
    add f (← pointer e[j]?); pure (e, [])
  | .sub i j => do
    let f ← pointer (own e i)
    sub f (← pointer e[j]?); pure (e, [])
  | .mul i j => do
    let f ← pointer (own e i)
    mul f (← pointer e[j]?); pure (e, [])
  | .mulBy014 i c0 c1 c4 => do mulBy014 (← pointer (own e i)) c0 c1 c4; pure (e, [])
  | .equals i j => do
    let f ← pointer e[i]?
    pure (e, [← equals f (← pointer e[j]?)])
  | .isZero i => do pure (e, [← isZero (← pointer e[i]?)])
  | .rand a b => do pure (e ++ [← rand a b], [])
  | .copy i => do pure (e ++ [← copy (← pointer e[i]?)], [])
  | .exp i n => do pure (e ++ [← exp (← pointer e[i]?) n], [])
  | .millerLoop items => do pure (e ++ [← millerLoop items], [])
  | .finalExponentiation i => do
    let r ← finalExponentiation (← pointer e[i]?)
    pure (e ++ r.toList, [r.isSome])
  | .pairing p q => do
    let r ← pairing p q
    pure (e ++ r.toList, [r.isSome])
  | .compareTwoPairings p1 q1 p2 q2 => do pure (e, [← compareTwoPairings p1 q1 p2 q2])

/-- The program, access by access. -/
def calls : Prog Op Bool → List Nat → M Res
  | .stop, e => pure (e, [])
  | .call op next, e => do
    let r ← opCalls e op
    let r' ← calls (next r.2) r.1
    pure (r'.1, r.2 ++ r'.2)

/-- The calls that the program makes when elements are plain values and the values of its variables are `s`, up to one
that panics. -/
def made (s : List FQ12) : Prog Op Bool → List Op
  | .stop => []
  | .call op next => op :: match op.onValues s with
    | none => []
    | some t => made t.1 (next t.2)

/-- The memory and what is left to do for each goroutine. The objects of the first program and of the package have the
numbers below `old` (`FQ6`s) and `old12` (`FQ12`s) and belong to everyone: owner 0. What goroutine `t` makes, it numbers
itself from there on, and it belongs to owner `t + 1`. So an address is an owner and a number, and an `FQ12` holds two
addresses. -/
structure State where
  old : Nat
  old12 : Nat
  six : Nat → Nat → FQ6
  twelve : Nat → Nat → (Nat × Nat) × (Nat × Nat)
  next : Nat → Nat
  next12 : Nat → Nat
  threads : List (M Res)

/-- The owner of what goroutine `t` knows as the `FQ6` number `p`. -/
def State.owner (st : State) (t p : Nat) : Nat := if p < st.old then 0 else t + 1
/-- The owner of what goroutine `t` knows as the `FQ12` number `f`. -/
def State.owner12 (st : State) (t f : Nat) : Nat := if f < st.old12 then 0 else t + 1

/-- Writing an `FQ6`. -/
def State.setSix (st : State) (o p : Nat) (v : FQ6) : State :=
  { st with six := Function.update st.six o (Function.update (st.six o) p v) }
/-- Writing the pointers in an `FQ12`. -/
def State.setTwelve (st : State) (o f : Nat) (v : (Nat × Nat) × (Nat × Nat)) : State :=
  { st with twelve := Function.update st.twelve o (Function.update (st.twelve o) f v) }

/-- The next access of goroutine `t`, which has `x` left to do: what is left then, and the state after it. A goroutine
that has returned or panicked makes no access. (Reading a pointer to an object that another goroutine has made, which
would need a name for it, is a panic here. It takes a race, since only such an object has one that another goroutine has
written.) -/
def State.access (st : State) (t : Nat) : M Res → M Res × State
  | .ret a => (.ret a, st)
  | .panic => (.panic, st)
  | .readSix p k => (k (st.six (st.owner t p) p), st)
  | .writeSix p v k => (k, st.setSix (st.owner t p) p v)
  | .readTwelve f k =>
    let v := st.twelve (st.owner12 t f) f
    (if v.1.1 = st.owner t v.1.2 ∧ v.2.1 = st.owner t v.2.2 then k (v.1.2, v.2.2) else .panic, st)
  | .writeTwelve f p q k => (k, st.setTwelve (st.owner12 t f) f ((st.owner t p, p), (st.owner t q, q)))
  | .newSix v k => (k (st.next t), { st.setSix (t + 1) (st.next t) v with
      next := Function.update st.next t (st.next t + 1) })
  | .newTwelve p q k => (k (st.next12 t), { st.setTwelve (t + 1) (st.next12 t) ((st.owner t p, p), (st.owner t q, q)) with
      next12 := Function.update st.next12 t (st.next12 t + 1) })

/-- Goroutine `t` makes its next access. -/
def State.step (st : State) (t : Nat) : State :=
  match st.threads[t]? with
  | none => st
  | some x => { (st.access t x).2 with threads := st.threads.set t (st.access t x).1 }

/-- The scheduler picks these goroutines, in this order. -/
def State.run (st : State) (schedule : List Nat) : State := schedule.foldl State.step st

/-- The call has returned or panicked. -/
def M.Finished {α : Type} : M α → Prop
  | .ret _ => True
  | .panic => True
  | _ => False

/-- An object: an `FQ6` or an `FQ12`, its owner and its number. -/
inductive Obj
  | six (owner number : Nat)
  | twelve (owner number : Nat)

/-- The object that the next access of goroutine `t`, which has `x` left to do, overwrites. -/
def State.writes (st : State) (t : Nat) (x : M Res) : Option Obj := match x with
  | .writeSix p _ _ => some (.six (st.owner t p) p)
  | .writeTwelve f _ _ _ => some (.twelve (st.owner12 t f) f)
  | _ => none

/-- The object that it reads. -/
def State.reads (st : State) (t : Nat) (x : M Res) : Option Obj := match x with
  | .readSix p _ => some (.six (st.owner t p) p)
  | .readTwelve f _ => some (.twelve (st.owner12 t f) f)
  | _ => none

/-- A data race: two goroutines are about to access the same object, and one is about to overwrite it. -/
def State.Race (st : State) : Prop :=
  ∃ (t t' : Nat) (x x' : M Res) (a : Obj), t ≠ t' ∧ st.threads[t]? = some x ∧ st.threads[t']? = some x' ∧
    st.writes t x = some a ∧ (st.writes t' x' = some a ∨ st.reads t' x' = some a)

/-- The goroutines `progs` start, holding the variables `e`, on the memory `m`. -/
def State.start (m : Mem) (e : List Nat) (progs : List (Prog Op Bool)) : State where
  old := m.next6
  old12 := m.next12
  six _ := m.six
  twelve _ f := ((0, (m.twelve f).1), (0, (m.twelve f).2))
  next _ := m.next6
  next12 _ := m.next12
  threads := progs.map fun prog => calls prog e

/-- The value of the `FQ12` that goroutine `t` knows as number `f`. -/
def State.value (st : State) (t f : Nat) : FQ12 :=
  let v := st.twelve (st.owner12 t f) f
  ⟨st.six v.1.1 v.1.2, st.six v.2.1 v.2.2⟩

/-- The variables that a call uses. -/
def vars : Op → List Nat
  | .conjugate i | .double i | .neg i | .square i | .frobenius i _ | .inverse i | .mulBy014 i _ _ _ | .isZero i | .copy i
  | .exp i _ | .finalExponentiation i => [i]
  | .add i j | .sub i j | .mul i j | .equals i j => [i, j]
  | .rand _ _ | .millerLoop _ | .pairing _ _ | .compareTwoPairings _ _ _ _ => []

/-- The goroutines make these calls. Of the `n` variables that they share, one that is the receiver of an in-place call in
one goroutine is not used by another. -/
def Separate (n : Nat) (made : List (List Op)) : Prop :=
  ∀ (t t' : Nat) (ops ops' : List Op), t ≠ t' → made[t]? = some ops → made[t']? = some ops' →
    ∀ op ∈ ops, ∀ i < n, op.receiver = some i → ∀ op' ∈ ops', i ∉ vars op'

end Bls.HeapFQ12
