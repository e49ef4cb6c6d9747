import Verif.Model.Heap12
/-
Programs that use `FQ12`. A program is a list of calls; the `i`-th element it holds is variable `i`,
with variables 0 and 1 the package variables `FQ12Zero` and `FQ12One`. `onValues` says what the calls
mean when an element is a plain value; `onMemory` runs the same calls in the memory of
Verif/Model/Heap12.lean, where a variable is a pointer. Neither lets a program change the two package
variables in place: such a call is no program here (`none`).
-/
namespace Bls.Heap12

/-- A call. `i` is the receiver (or the only argument), `j` the argument. -/
inductive Op
  | conjugate (i : Nat) | double (i : Nat) | neg (i : Nat) | square (i : Nat) | frobenius (i : Nat) (power : UInt8)
  | inverse (i : Nat) | add (i j : Nat) | sub (i j : Nat) | mul (i j : Nat) | mulBy014 (i : Nat) (c0 c1 c4 : FQ2)
  | equals (i j : Nat) | isZero (i : Nat)
  | rand (a b : FQ6) | copy (i : Nat) | exp (i : Nat) (n : FQRepr)
  | millerLoop (items : List (G1Affine × G2Prepared)) | finalExponentiation (i : Nat)
  | pairing (p : G1Projective) (q : G2Projective)
  | compareTwoPairings (p1 : G1Projective) (q1 : G2Projective) (p2 : G1Projective) (q2 : G2Projective)

/-- The variable that the call is documented to change, if any. -/
def Op.receiver : Op → Option Nat
  | .conjugate i | .double i | .neg i | .square i | .frobenius i _ | .inverse i | .add i _ | .sub i _ | .mul i _
  | .mulBy014 i _ _ _ => some i
  | _ => none

/-- The variable, if a program may change it in place. -/
def own {α : Type} (s : List α) (i : Nat) : Option α := if 2 ≤ i then s[i]? else none

/-- Values: an in-place call replaces the value of its receiver, the others add a variable. The booleans are what
the calls return; for a pointer, whether it is not nil. -/
def Op.onValues (s : List FQ12) : Op → Option (List FQ12 × List Bool)
  | .conjugate i => (own s i).map fun x => (s.set i x.conjugate, [])
  | .double i => (own s i).map fun x => (s.set i x.double, [])
  | .neg i => (own s i).map fun x => (s.set i x.neg, [])
  | .square i => (own s i).map fun x => (s.set i x.square, [])
  | .frobenius i k => (own s i).map fun x => (s.set i (x.frobeniusMap k), [])
  | .inverse i => (own s i).map fun x => (s.set i x.inverse.1, [x.inverse.2])
  | .add i j => (own s i).bind fun x => s[j]?.map fun y => (s.set i (x.add y), [])
  | .sub i j => (own s i).bind fun x => s[j]?.map fun y => (s.set i (x.sub y), [])
  | .mul i j => (own s i).bind fun x => s[j]?.map fun y => (s.set i (x.mul y), [])
  | .mulBy014 i c0 c1 c4 => (own s i).map fun x => (s.set i (x.mulBy014 c0 c1 c4), [])
  | .equals i j => s[i]?.bind fun x => s[j]?.map fun y => (s, [x.equals y])
  | .isZero i => s[i]?.map fun x => (s, [x.isZero])
  | .rand a b => some (s ++ [⟨a, b⟩], [])
  | .copy i => s[i]?.map fun x => (s ++ [x], [])
  | .exp i n => s[i]?.map fun x => (s ++ [x.exp n], [])
  | .millerLoop items => (Bls.millerLoop items).map fun x => (s ++ [x], [])
  | .finalExponentiation i => s[i]?.map fun x =>
    (s ++ (Bls.finalExponentiation x).toList, [(Bls.finalExponentiation x).isSome])
  | .pairing p q => (Bls.pairing p q).map fun x => (s ++ x.toList, [x.isSome])
  | .compareTwoPairings p1 q1 p2 q2 => (Bls.compareTwoPairings p1 q1 p2 q2).map fun b => (s, [b])

/-- Memory: the variables are pointers. -/
def Op.onMemory (m : Mem) (e : List Nat) : Op → Option ((Mem × List Nat) × List Bool)
  | .conjugate i => (own e i).map fun f => ((Heap12.conjugate m f, e), [])
  | .double i => (own e i).map fun f => ((Heap12.double m f, e), [])
  | .neg i => (own e i).map fun f => ((Heap12.neg m f, e), [])
  | .square i => (own e i).map fun f => ((Heap12.square m f, e), [])
  | .frobenius i k => (own e i).map fun f => ((frobeniusMap m f k, e), [])
  | .inverse i => (own e i).map fun f => (((Heap12.inverse m f).2, e), [(Heap12.inverse m f).1])
  | .add i j => (own e i).bind fun f => e[j]?.map fun g => ((Heap12.add m f g, e), [])
  | .sub i j => (own e i).bind fun f => e[j]?.map fun g => ((Heap12.sub m f g, e), [])
  | .mul i j => (own e i).bind fun f => e[j]?.map fun g => ((Heap12.mul m f g, e), [])
  | .mulBy014 i c0 c1 c4 => (own e i).map fun f => ((Heap12.mulBy014 m f c0 c1 c4, e), [])
  | .equals i j => e[i]?.bind fun f => e[j]?.map fun g => ((m, e), [Heap12.equals m f g])
  | .isZero i => e[i]?.map fun f => ((m, e), [Heap12.isZero m f])
  | .rand a b => some (((Heap12.rand m a b).2, e ++ [(Heap12.rand m a b).1]), [])
  | .copy i => e[i]?.map fun f => (((Heap12.copy m f).2, e ++ [(Heap12.copy m f).1]), [])
  | .exp i n => e[i]?.bind fun f => (Heap12.exp m f n).map fun t => ((t.2, e ++ [t.1]), [])
  | .millerLoop items => (Heap12.millerLoop m items).map fun t => ((t.2, e ++ [t.1]), [])
  | .finalExponentiation i => e[i]?.bind fun f => (Heap12.finalExponentiation f m).map fun t =>
    ((t.2, e ++ t.1.toList), [t.1.isSome])
  | .pairing p q => (Heap12.pairing p q m).map fun t => ((t.2, e ++ t.1.toList), [t.1.isSome])
  | .compareTwoPairings p1 q1 p2 q2 => (Heap12.compareTwoPairings p1 q1 p2 q2 m).map fun t => ((t.2, e), [t.1])

/-- The calls of a program one after the other; the returned booleans in order. -/
def valuesRun : List Op → List FQ12 → Option (List FQ12 × List Bool)
  | [], s => some (s, [])
  | op :: ops, s => (op.onValues s).bind fun t => (valuesRun ops t.1).map fun u => (u.1, t.2 ++ u.2)

/-- The calls of a program one after the other; the returned booleans in order. -/
def memoryRun : List Op → Mem → List Nat → Option ((Mem × List Nat) × List Bool)
  | [], m, e => some ((m, e), [])
  | op :: ops, m, e => (op.onMemory m e).bind fun t => (memoryRun ops t.1.1 t.1.2).map fun u => (u.1, t.2 ++ u.2)

/-- What a pointer points at: the two coordinates. -/
def Mem.read (m : Mem) (f : Nat) : FQ12 := ⟨m.six (m.c0 f), m.six (m.c1 f)⟩

/-- A program run in a fresh process: the final value of each variable and the returned booleans (`none`: it panics,
or uses a variable it does not have, or changes a package variable). -/
def execute (ops : List Op) : Option (List FQ12 × List Bool) :=
  (memoryRun ops init [aFQ12Zero, aFQ12One]).map fun t => (t.1.2.map t.1.1.read, t.2)

end Bls.Heap12
