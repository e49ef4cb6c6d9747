import Verif.Model.HeapFR
import Verif.Spec.Program
/-
Goroutines that use scalars. After a first program has run, several goroutines start, all holding its variables; each
runs a program of its own (Verif/Spec/Program.lean) on these variables and on the ones it makes. The scheduler picks a goroutine, which makes its
next access to the memory: it reads or overwrites one `FRRepr` or the pointer in one `FR`, or makes a new object. As in
Verif/Spec/Threads.lean the accesses are seen by all goroutines at once and in one order, and races are defined because
Go guarantees this only in their absence.
-/
namespace Bls.HeapFR
open Bls.Heap

/-- One call. Numbers are variables: the scalars (`*FR`, `SecretKey`) and the `FRRepr`s are counted separately, and a
call that returns one makes the next variable. `newRepr`, `writeRepr` and `readRepr` are the caller's own (`NewFRRepr`,
`FRReprFromBytes`; an assignment; looking at the limbs). `KeyFromFQRepr` is `frReprToFR`. `isNil` is
the caller comparing a pointer that it got with nil. -/
inductive Op
  | newRepr (v : FRRepr)
  | writeRepr (i : Nat) (v : FRRepr)
  | readRepr (i : Nat)
  | frReprToFR (i : Nat)
  | copy (i : Nat)
  | addAssign (i j : Nat)
  | subAssign (i j : Nat)
  | mulAssign (i j : Nat)
  | negAssign (i : Nat)
  | doubleAssign (i : Nat)
  | squareAssign (i : Nat)
  | exp (i n : Nat)
  | inverse (i : Nat)
  | mulBits (i b : Nat)
  | mulBytes (i : Nat) (b : List UInt8)
  | hashFR (digest : List UInt8)
  | toRepr (i : Nat)
  | cmp (i j : Nat)
  | isZero (i : Nat)
  | equals (i j : Nat)
  | parity (i : Nat)
  | legendre (i : Nat)
  | serialize (i : Nat)
  | sqrt (i : Nat)
  | isNil (i : Nat)

/-- What a caller gets to see. -/
inductive Out
  | repr (v : FRRepr)
  | int (v : GoInt)
  | bool (v : Bool)
  | symbol (v : LegendreSymbol)
  | bytes (v : List UInt8)

/-- The variables: addresses of `FR` structs (`none` is nil) and of `FRRepr`s. -/
structure Env where
  frs : List (Option Nat)
  reprs : List Nat

/-- The address in scalar variable `i`; a nil pointer gives a panic. -/
def Env.fr (e : Env) (i : Nat) : Option Nat := e.frs[i]?.join

/-- A new scalar variable. -/
def Env.addFr (e : Env) (f : Option Nat) : Env := ⟨e.frs ++ [f], e.reprs⟩

/-- A new `FRRepr` variable. -/
def Env.addRepr (e : Env) (p : Nat) : Env := ⟨e.frs, e.reprs ++ [p]⟩

/-- What a call does when nothing else runs, with the functions of Verif/Model/Heap.lean. -/
def Op.alone (e : Env) (m : Mem) : Op → Option ((Env × List Out) × Mem)
  | .newRepr v => some ((e.addRepr (m.alloc v).1, []), (m.alloc v).2)
  | .writeRepr i v => do
    let p ← e.reprs[i]?
    some ((e, []), m.set p v)
  | .readRepr i => do
    let p ← e.reprs[i]?
    some ((e, [.repr (m.cell p)]), m)
  | .frReprToFR i => do
    let p ← e.reprs[i]?
    some ((e.addFr (Heap.frReprToFR m p).1, []), (Heap.frReprToFR m p).2)
  | .copy i => do
    let f ← e.fr i
    some ((e.addFr (Heap.copy m f).1, []), (Heap.copy m f).2)
  | .addAssign i j => do
    let f ← e.fr i
    let g ← e.fr j
    some ((e, []), Heap.addAssign m f g)
  | .subAssign i j => do
    let f ← e.fr i
    let g ← e.fr j
    some ((e, []), Heap.subAssign m f g)
  | .mulAssign i j => do
    let f ← e.fr i
    let g ← e.fr j
    some ((e, []), Heap.mulAssign m f g)
  | .negAssign i => do
    let f ← e.fr i
    some ((e, []), Heap.negAssign m f)
  | .doubleAssign i => do
    let f ← e.fr i
    some ((e, []), Heap.doubleAssign m f)
  | .squareAssign i => do
    let f ← e.fr i
    some ((e, []), Heap.squareAssign m f)
  | .exp i n => do
    let f ← e.fr i
    let p ← e.reprs[n]?
    let r ← Heap.exp m f p
    some ((e.addFr r.1, []), r.2)
  | .inverse i => do
    let f ← e.fr i
    let r ← Heap.inverse m f
    some ((e.addFr r.1, []), r.2)
  | .mulBits i b => do
    let f ← e.fr i
    let p ← e.reprs[b]?
    let r ← Heap.mulBits m f p
    some ((e.addFr r.1, []), r.2)
  | .mulBytes i b => do
    let f ← e.fr i
    let r ← Heap.mulBytes m f b
    some ((e.addFr r.1, []), r.2)
  | .hashFR d => do
    let r ← Heap.hashFR m d
    some ((e.addFr r.1, []), r.2)
  | .toRepr i => do
    let f ← e.fr i
    some ((e.addRepr (Heap.toRepr m f).1, []), (Heap.toRepr m f).2)
  | .cmp i j => do
    let f ← e.fr i
    let g ← e.fr j
    some ((e, [.int (Heap.cmp m f g).1]), (Heap.cmp m f g).2)
  | .isZero i => do
    let f ← e.fr i
    some ((e, [.bool (Heap.isZero m f)]), m)
  | .equals i j => do
    let f ← e.fr i
    let g ← e.fr j
    some ((e, [.bool (Heap.equals m f g)]), m)
  | .parity i => do
    let f ← e.fr i
    some ((e, [.bool (Heap.parity m f).1]), (Heap.parity m f).2)
  | .legendre i => do
    let f ← e.fr i
    let r ← Heap.legendre m f
    some ((e, [.symbol r.1]), r.2)
  | .serialize i => do
    let f ← e.fr i
    some ((e, [.bytes (SecretKey.serialize m ⟨f⟩).1]), (SecretKey.serialize m ⟨f⟩).2)
  | .sqrt i => do
    let f ← e.fr i
    some ((e.addFr (Heap.sqrt m f).1, []), (Heap.sqrt m f).2)
  | .isNil i => do
    let f ← e.frs[i]?
    some ((e, [.bool f.isNone]), m)

/-- A program that runs with nothing else: its variables, what its calls returned, and the memory (`none`: it panics). -/
def aloneRun : Prog Op Out → Env → Mem → Option ((Env × List Out) × Mem)
  | .stop, e, m => some ((e, []), m)
  | .call op next, e, m => do
    let r ← op.alone e m
    let r' ← aloneRun (next r.1.2) r.1.1 r.2
    some ((r'.1.1, r.1.2 ++ r'.1.2), r'.2)

/-- The calls that the program makes when it runs with nothing else, up to one that panics. -/
def made : Prog Op Out → Env → Mem → List Op
  | .stop, _, _ => []
  | .call op next, e, m => op :: match op.alone e m with
    | none => []
    | some r => made (next r.1.2) r.1.1 r.2

/-- A fresh process: no variables, and the memory with the package variables. -/
def Env.empty : Env := ⟨[], []⟩

/-- The pointer in a variable. -/
def pointer (o : Option Nat) : M Nat := match o with
  | some p => pure p
  | none => .panic

/-- The call, access by access. -/
def opCalls (e : Env) : Op → M (Env × List Out)
  | .newRepr v => do pure (e.addRepr (← newCell v), [])
  | .writeRepr i v => do setCell (← pointer e.reprs[i]?) v; pure (e, [])
  | .readRepr i => do pure (e, [.repr (← cell (← pointer e.reprs[i]?))])
  | .frReprToFR i => do pure (e.addFr (← frReprToFR (← pointer e.reprs[i]?)), [])
  | .copy i => do pure (e.addFr (← copy (← pointer (e.fr i))), [])
  | .addAssign i j => do
    let f ← pointer (e.fr i)
    addAssign f (← pointer (e.fr j)); pure (e, [])
  | .subAssign i j => do
    let f ← pointer (e.fr i)
    subAssign f (← pointer (e.fr j)); pure (e, [])
  | .mulAssign i j => do
    let f ← pointer (e.fr i)
    mulAssign f (← pointer (e.fr j)); pure (e, [])
  | .negAssign i => do negAssign (← pointer (e.fr i)); pure (e, [])
  | .doubleAssign i => do doubleAssign (← pointer (e.fr i)); pure (e, [])
  | .squareAssign i => do squareAssign (← pointer (e.fr i)); pure (e, [])
  | .exp i n => do
    let f ← pointer (e.fr i)
    pure (e.addFr (← exp f (← pointer e.reprs[n]?)), [])
  | .inverse i => do pure (e.addFr (← inverse (← pointer (e.fr i))), [])
  | .mulBits i b => do
    let f ← pointer (e.fr i)
    pure (e.addFr (← mulBits f (← pointer e.reprs[b]?)), [])
  | .mulBytes i b => do pure (e.addFr (← mulBytes (← pointer (e.fr i)) b), [])
  | .hashFR d => do pure (e.addFr (← hashFR d), [])
  | .toRepr i => do pure (e.addRepr (← toRepr (← pointer (e.fr i))), [])
  | .cmp i j => do
    let f ← pointer (e.fr i)
    pure (e, [.int (← cmp f (← pointer (e.fr j)))])
  | .isZero i => do pure (e, [.bool (← isZero (← pointer (e.fr i)))])
  | .equals i j => do
    let f ← pointer (e.fr i)
    pure (e, [.bool (← equals f (← pointer (e.fr j)))])
  | .parity i => do pure (e, [.bool (← parity (← pointer (e.fr i)))])
  | .legendre i => do pure (e, [.symbol (← legendre (← pointer (e.fr i)))])
  | .serialize i => do pure (e, [.bytes (← serialize (← pointer (e.fr i)))])
  | .sqrt i => do pure (e.addFr (← sqrt (← pointer (e.fr i))), [])
  | .isNil i => match e.frs[i]? with
    | some f => pure (e, [.bool f.isNone])
    | none => .panic

/-- The program, access by access. -/
def calls : Prog Op Out → Env → M (Env × List Out)
  | .stop, e => pure (e, [])
  | .call op next, e => do
    let r ← opCalls e op
    let r' ← calls (next r.2) r.1
    pure (r'.1, r.2 ++ r'.2)

/-- The memory and what is left to do for each goroutine. The objects of the first program have the numbers below `old`
(`FRRepr`s) and `oldFr` (`FR`s) and belong to everyone: owner 0. What goroutine `t` makes, it numbers itself from there
on, and it belongs to owner `t + 1`. So an address is an owner and a number, and a pointer in an `FR` is an address. -/
structure State where
  old : Nat
  oldFr : Nat
  cell : Nat → Nat → FRRepr
  fr : Nat → Nat → Nat × Nat
  next : Nat → Nat
  nextFr : Nat → Nat
  threads : List (M (Env × List Out))

/-- The owner of what goroutine `t` knows as the `FRRepr` number `p`. -/
def State.owner (st : State) (t p : Nat) : Nat := if p < st.old then 0 else t + 1
/-- The owner of what goroutine `t` knows as the `FR` number `f`. -/
def State.ownerFr (st : State) (t f : Nat) : Nat := if f < st.oldFr then 0 else t + 1

/-- Writing an `FRRepr`. -/
def State.setCell (st : State) (o p : Nat) (v : FRRepr) : State :=
  { st with cell := Function.update st.cell o (Function.update (st.cell o) p v) }
/-- Writing the pointer in an `FR`. -/
def State.setFr (st : State) (o f : Nat) (v : Nat × Nat) : State :=
  { st with fr := Function.update st.fr o (Function.update (st.fr o) f v) }

/-- The next access of goroutine `t`, which has `x` left to do: what is left then, and the state after it. A goroutine
that has returned or panicked makes no access. (Reading a pointer to an object that another goroutine has made, which
would need a name for it, is a panic here. It takes a race, since only such an object has one that another goroutine has
written.) -/
def State.access (st : State) (t : Nat) : M (Env × List Out) → M (Env × List Out) × State
  | .ret a => (.ret a, st)
  | .panic => (.panic, st)
  | .readCell p k => (k (st.cell (st.owner t p) p), st)
  | .writeCell p v k => (k, st.setCell (st.owner t p) p v)
  | .readFr f k =>
    let q := st.fr (st.ownerFr t f) f
    (if q.1 = st.owner t q.2 then k q.2 else .panic, st)
  | .writeFr f p k => (k, st.setFr (st.ownerFr t f) f (st.owner t p, p))
  | .newCell v k => (k (st.next t), { st.setCell (t + 1) (st.next t) v with
      next := Function.update st.next t (st.next t + 1) })
  | .newFr p k => (k (st.nextFr t), { st.setFr (t + 1) (st.nextFr t) (st.owner t p, p) with
      nextFr := Function.update st.nextFr t (st.nextFr t + 1) })

/-- Goroutine `t` makes its next access. -/
def State.step (st : State) (t : Nat) : State :=
  match st.threads[t]? with
  | none => st
  | some x => { (st.access t x).2 with threads := st.threads.set t (st.access t x).1 }

/-- The scheduler picks these goroutines, in this order. -/
def State.run (st : State) (schedule : List Nat) : State := schedule.foldl State.step st

/-- The call has returned or panicked. -/
def M.Finished {α : Type} : M α → Prop
  | .ret _ => True
  | .panic => True
  | _ => False

/-- An object: an `FRRepr` or an `FR`, its owner and its number. -/
inductive Obj
  | cell (owner number : Nat)
  | fr (owner number : Nat)

/-- The object that the next access of goroutine `t`, which has `x` left to do, overwrites. -/
def State.writes (st : State) (t : Nat) (x : M (Env × List Out)) : Option Obj := match x with
  | .writeCell p _ _ => some (.cell (st.owner t p) p)
  | .writeFr f _ _ => some (.fr (st.ownerFr t f) f)
  | _ => none

/-- The object that it reads. -/
def State.reads (st : State) (t : Nat) (x : M (Env × List Out)) : Option Obj := match x with
  | .readCell p _ => some (.cell (st.owner t p) p)
  | .readFr f _ => some (.fr (st.ownerFr t f) f)
  | _ => none

/-- A data race: two goroutines are about to access the same object, and one is about to overwrite it. -/
def State.Race (st : State) : Prop :=
  ∃ (t t' : Nat) (x x' : M (Env × List Out)) (a : Obj), t ≠ t' ∧ st.threads[t]? = some x ∧ st.threads[t']? = some x' ∧
    st.writes t x = some a ∧ (st.writes t' x' = some a ∨ st.reads t' x' = some a)

/-- The goroutines `progs` start, holding the variables `e`, on the memory `m`. -/
def State.start (m : Mem) (e : Env) (progs : List (Prog Op Out)) : State where
  old := m.nextCell
  oldFr := m.nextFr
  cell _ := m.cell
  fr _ f := (0, m.fr f)
  next _ := m.nextCell
  nextFr _ := m.nextFr
  threads := progs.map fun prog => calls prog e

/-- The value that goroutine `t` finds in its scalar variable `i`. -/
def State.scalar (st : State) (t : Nat) (e : Env) (i : Nat) : Option FRRepr :=
  (e.fr i).map fun f => let q := st.fr (st.ownerFr t f) f; st.cell q.1 q.2
/-- The value that goroutine `t` finds in its `FRRepr` variable `i`. -/
def State.repr (st : State) (t : Nat) (e : Env) (i : Nat) : Option FRRepr :=
  e.reprs[i]?.map fun p => st.cell (st.owner t p) p

/-- A variable of either kind. -/
inductive Var
  | fr (i : Nat)
  | repr (i : Nat)

/-- The `FRRepr` that a variable points to, the one through which a scalar variable has its limbs. -/
def Var.cell (e : Env) (m : Mem) : Var → Option Nat
  | .fr i => (e.fr i).map m.fr
  | .repr i => e.reprs[i]?

/-- The variables whose objects a call uses. -/
def Op.vars : Op → List Var
  | .newRepr _ | .hashFR _ | .isNil _ => []
  | .writeRepr i _ | .readRepr i | .frReprToFR i => [.repr i]
  | .copy i | .negAssign i | .doubleAssign i | .squareAssign i | .inverse i | .mulBytes i _ | .toRepr i | .isZero i
  | .parity i | .legendre i | .serialize i | .sqrt i => [.fr i]
  | .addAssign i j | .subAssign i j | .mulAssign i j | .cmp i j | .equals i j => [.fr i, .fr j]
  | .exp i n | .mulBits i n => [.fr i, .repr n]

/-- The variables that a call changes. `FRReprToFR` is one that changes its argument (C45). -/
def Op.changed : Op → List Var
  | .writeRepr i _ | .frReprToFR i => [.repr i]
  | .addAssign i _ | .subAssign i _ | .mulAssign i _ | .negAssign i | .doubleAssign i | .squareAssign i => [.fr i]
  | _ => []

/-- Goroutine `t`, when it runs alone, changes the shared `FRRepr` at `p`. -/
def Changes (m : Mem) (e : Env) (progs : List (Prog Op Out)) (t p : Nat) : Prop :=
  ∃ prog, progs[t]? = some prog ∧ ∃ op ∈ made prog e m, ∃ v ∈ op.changed, v.cell e m = some p

/-- Goroutine `t`, when it runs alone, uses the shared `FRRepr` at `p`. -/
def Uses (m : Mem) (e : Env) (progs : List (Prog Op Out)) (t p : Nat) : Prop :=
  ∃ prog, progs[t]? = some prog ∧ ∃ op ∈ made prog e m, ∃ v ∈ op.vars, v.cell e m = some p

/-- What a goroutine changes through a variable that it shares, no other goroutine uses through one. -/
def Separate (m : Mem) (e : Env) (progs : List (Prog Op Out)) : Prop :=
  ∀ t t' p : Nat, t ≠ t' → Changes m e progs t p → ¬ Uses m e progs t' p

/-- No call of `Sqrt` is among these. -/
def NoSqrt (ops : List Op) : Prop := ∀ op ∈ ops, ∀ i, op ≠ .sqrt i

end Bls.HeapFR
