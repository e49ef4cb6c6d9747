import Verif.Spec.HistoryPoints
import Verif.Spec.Program
/-
Goroutines. After a first program (Verif/Spec/HistoryPoints.lean) has run, several goroutines start, all holding
its variables; each runs a program of its own (Verif/Spec/Program.lean) on these variables and on the ones it makes.
The scheduler picks a goroutine, which makes its next access to the memory: it reads one object,
overwrites one object or makes a new one. The accesses are seen by all goroutines at once and in one
order; that Go guarantees this only for programs without data races is why `State.Race` is defined.
-/
namespace Bls.HeapPoints

/-- The next access of a call: what is left of the call, and the memory after it. A call that has
returned or panicked makes no access. -/
def M.next {α : Type} : M α → Mem → M α × Mem
  | .ret a, m => (.ret a, m)
  | .panic, m => (.panic, m)
  | .read p k, m => match m[p]? with | some o => (k o, m) | none => (.panic, m)
  | .write p o k, m => (k, m.set p o)
  | .alloc o k, m => (k m.length, m ++ [o])

/-- The call has returned or panicked. -/
def M.Finished {α : Type} : M α → Prop
  | .ret _ => True
  | .panic => True
  | _ => False

/-- The next access overwrites `p`. -/
def M.Writes {α : Type} (p : Nat) : M α → Prop
  | .write q _ _ => q = p
  | _ => False

/-- The next access reads `p`. -/
def M.Reads {α : Type} (p : Nat) : M α → Prop
  | .read q _ => q = p
  | _ => False

/-- The memory, the variables that the goroutines share, and what is left to do for each goroutine; one
that has finished holds its variables and what its calls returned. -/
structure State where
  mem : Mem
  shared : List Nat
  threads : List (M (List Nat × List Out))

/-- Goroutine `t` makes its next access. -/
def State.step (st : State) (t : Nat) : State :=
  match st.threads[t]? with
  | none => st
  | some x => ⟨(x.next st.mem).2, st.shared, st.threads.set t (x.next st.mem).1⟩

/-- The scheduler picks these goroutines, in this order. -/
def State.run (st : State) (schedule : List Nat) : State := schedule.foldl State.step st

/-- A data race: two goroutines are about to access the same object, and one is about to overwrite it. -/
def State.Race (st : State) : Prop :=
  ∃ (t t' : Nat) (x x' : M (List Nat × List Out)) (p : Nat), t ≠ t' ∧ st.threads[t]? = some x ∧ st.threads[t']? = some x' ∧
    x.Writes p ∧ (x'.Writes p ∨ x'.Reads p)

/-- The program in memory. -/
def calls (sha : List UInt8 → List UInt8) : Prog Op Out → List Nat → M (List Nat × List Out)
  | .stop, e => pure (e, [])
  | .call op next, e => do
    let f ← op.onMemory sha e
    let u ← calls sha (next f.outs) (f.apply e)
    pure (u.1, f.outs ++ u.2)

/-- The calls that the program makes when it runs on plain values and its variables have the values `s`, up to one that
panics. -/
def made (sha : List UInt8 → List UInt8) (s : List Val) : Prog Op Out → List Op
  | .stop => []
  | .call op next => op :: match op.effect sha s with
    | none => []
    | some f => made sha (f.apply s) (next f.outs)

/-- The goroutines `progs` start after the program `pre` has run in a fresh process (`none`: it panics). -/
def start (sha : List UInt8 → List UInt8) (pre : List Op) (progs : List (Prog Op Out)) : Option State :=
  (memoryRun sha pre [0, 1, 2, 3, 4, 5, 6, 7] init).map fun t =>
    ⟨t.2, t.1.1, progs.map fun prog => calls sha prog t.1.1⟩

/-- The variables that a call uses. -/
def Op.vars : Op → List Nat
  | .newG1Affine _ _ | .newG1Projective _ _ _ | .newG2Affine _ _ | .newG2Projective _ _ _ | .newMsgs _ => []
  | .neg i | .setRawBytes i _ => [i]
  | .aggregate i j => [i, j]
  | .copy i | .toProjective i | .toAffine i | .double i => [i]
  | .add i j | .addAffine i j => [i, j]
  | .mul i _ | .mulFR i _ | .mulBig i _ | .scaleByCofactor i => [i]
  | .getG1PointFromX _ _ | .getG2PointFromX _ _ | .decompressG1 _ | .decompressG1Unchecked _
  | .decompressG2 _ | .decompressG2Unchecked _ | .swEncodeG2 _ | .hashG1 _ | .hashG2 _ | .hashG2WithDomain _ _ => []
  | .newSignature _ i | .newPublicKey _ i => [i]
  | .deserializeSignature _ _ | .deserializePublicKey _ _ => []
  | .getPoint i => [i]
  | .sign _ _ _ | .signWithDomain _ _ _ | .privToPub _ _ | .newAggregateSignature _ | .newAggregatePubkey _ => []
  | .aggregateSignatures _ is | .aggregatePublicKeys _ is => is
  | .isZero i | .isOnCurve i | .isInCorrectSubgroup i => [i]
  | .equals i j => [i, j]
  | .serialize i | .compress i => [i]
  | .compareTwoPairings i j k l => [i, j, k, l]
  | .verify _ _ p g => [p, g]
  | .verifyWithDomain _ p g _ => [p, g]
  | .verifyAggregate _ g is ms => g :: ms :: is
  | .verifyAggregateCommon _ g is _ => g :: is
  | .verifyAggregateCommonWithDomain g is _ _ => g :: is
  | .verifyAggregateWithDomain g is ms _ => g :: ms :: is

/-- The goroutines make the calls `made`; goroutine `t` changes variable `i` in place at some point. -/
def Changes (made : List (List Op)) (t i : Nat) : Prop :=
  ∃ ops, made[t]? = some ops ∧ ∃ op ∈ ops, op.receiver = some i

/-- Goroutine `t` uses variable `i` at some point. -/
def Uses (made : List (List Op)) (t i : Nat) : Prop :=
  ∃ ops, made[t]? = some ops ∧ ∃ op ∈ ops, i ∈ op.vars

/-- Of the `n` variables that the goroutines share, one that a goroutine changes in place is used by no
other goroutine. -/
def Separate (n : Nat) (made : List (List Op)) : Prop :=
  ∀ t t' i : Nat, t ≠ t' → i < n → Changes made t i → ¬ Uses made t' i

end Bls.HeapPoints
