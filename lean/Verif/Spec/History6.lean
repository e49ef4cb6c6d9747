import Verif.Model.Heap6
import Verif.Spec.Field12
/-
Programs that use `FQ6` and `FQ12` together. A program holds `FQ6` variables (0 and 1 are the package variables
`FQ6Zero` and `FQ6One`) and `FQ12` variables (0 and 1 are `FQ12Zero` and `FQ12One`). `NewFQ12` takes two `FQ6`
variables and keeps their pointers, so a program hands them over: after the call it does not use them again. A call
that uses such a variable, or changes a package variable in place, is no program here (`none`).
-/
namespace Bls.Heap12

/-- A call of fq6.go. `i` is the receiver (or the only argument), `j` the argument. -/
inductive Op6
  | new (c0 c1 c2 : FQ2) | rand (c0 c1 c2 : FQ2) | copy (i : Nat) | exp (i : Nat) (n : FQRepr)
  | double (i : Nat) | neg (i : Nat) | square (i : Nat) | nonresidue (i : Nat) | frobenius (i : Nat) (power : UInt8)
  | inverse (i : Nat) | add (i j : Nat) | sub (i j : Nat) | mul (i j : Nat) | mulBy1 (i : Nat) (c1 : FQ2)
  | mulBy01 (i : Nat) (c0 c1 : FQ2) | equals (i j : Nat) | isZero (i : Nat)

/-- A call on `FQ6` variables, on `FQ12` variables, or `NewFQ12` on two `FQ6` variables. -/
inductive Call
  | six (op : Op6) | twelve (op : Op) | newFQ12 (i j : Nat)

/-- The `FQ6` variables (`none`: handed over) and the `FQ12` variables. -/
structure Vars (α β : Type) where
  six : List (Option α)
  twelve : List β

/-- The variable, if the program still has it. -/
def live {α : Type} (s : List (Option α)) (i : Nat) : Option α := s[i]?.join
/-- The variable, if a program may change it or hand it over. -/
def mine {α : Type} (s : List (Option α)) (i : Nat) : Option α := if 2 ≤ i then live s i else none

/-- Values. `MulAssign` and `Exp` are those of the code: `x.MulAssign(x)` does not square (C19). -/
def Op6.onValues (s : List (Option FQ6)) : Op6 → Option (List (Option FQ6) × List Bool)
  | .new c0 c1 c2 => some (s ++ [some ⟨c0, c1, c2⟩], [])
  | .rand c0 c1 c2 => some (s ++ [some ⟨c0, c1, c2⟩], [])
  | .copy i => (live s i).map fun x => (s ++ [some x], [])
  | .exp i n => (live s i).bind fun x => (x.exp? n).map fun y => (s ++ [some y], [])
  | .double i => (mine s i).map fun x => (s.set i (some x.double), [])
  | .neg i => (mine s i).map fun x => (s.set i (some x.neg), [])
  | .square i => (mine s i).map fun x => (s.set i (some x.square), [])
  | .nonresidue i => (mine s i).map fun x => (s.set i (some x.mulByNonresidue), [])
  | .frobenius i k => (mine s i).map fun x => (s.set i (some (x.frobeniusMap k)), [])
  | .inverse i => (mine s i).map fun x => (s.set i (some x.inverse.1), [x.inverse.2])
  | .add i j => (mine s i).bind fun x => (live s j).map fun y => (s.set i (some (x.add y)), [])
  | .sub i j => (mine s i).bind fun x => (live s j).map fun y => (s.set i (some (x.sub y)), [])
  | .mul i j => (mine s i).bind fun x => (live s j).map fun y =>
    (s.set i (some (if i = j then x.mulSelf else x.mul y)), [])
  | .mulBy1 i c1 => (mine s i).map fun x => (s.set i (some (x.mulBy1 c1)), [])
  | .mulBy01 i c0 c1 => (mine s i).map fun x => (s.set i (some (x.mulBy01 c0 c1)), [])
  | .equals i j => (live s i).bind fun x => (live s j).map fun y => (s, [x.equals y])
  | .isZero i => (live s i).map fun x => (s, [x.isZero])

/-- Values: `NewFQ12` is the pair of the two values, which the program gives up. -/
def Call.onValues (s : Vars FQ6 FQ12) : Call → Option (Vars FQ6 FQ12 × List Bool)
  | .six op => (op.onValues s.six).map fun t => (⟨t.1, s.twelve⟩, t.2)
  | .twelve op => (op.onValues s.twelve).map fun t => (⟨s.six, t.1⟩, t.2)
  | .newFQ12 i j => if i = j then none else
    (mine s.six i).bind fun x => (mine s.six j).map fun y =>
      (⟨(s.six.set i none).set j none, s.twelve ++ [⟨x, y⟩]⟩, [])

/-- Memory: the variables are pointers. -/
def Op6.onMemory (m : Mem) (e : List (Option Nat)) : Op6 → Option ((Mem × List (Option Nat)) × List Bool)
  | .new c0 c1 c2 => some (((m.new6 ⟨c0, c1, c2⟩).2, e ++ [some (m.new6 ⟨c0, c1, c2⟩).1]), [])
  | .rand c0 c1 c2 => some (((rand6 m c0 c1 c2).2, e ++ [some (rand6 m c0 c1 c2).1]), [])
  | .copy i => (live e i).map fun p => (((copy6 m p).2, e ++ [some (copy6 m p).1]), [])
  | .exp i n => (live e i).bind fun p => (exp6 m p n).map fun t => ((t.2, e ++ [some t.1]), [])
  | .double i => (mine e i).map fun p => ((double6 m p, e), [])
  | .neg i => (mine e i).map fun p => ((neg6 m p, e), [])
  | .square i => (mine e i).map fun p => ((square6 m p, e), [])
  | .nonresidue i => (mine e i).map fun p => ((mulByNonresidue6 m p, e), [])
  | .frobenius i k => (mine e i).map fun p => ((frobenius6 m p k, e), [])
  | .inverse i => (mine e i).map fun p => (((inverse6 m p).2, e), [(inverse6 m p).1])
  | .add i j => (mine e i).bind fun p => (live e j).map fun o => ((add6 m p o, e), [])
  | .sub i j => (mine e i).bind fun p => (live e j).map fun o => ((sub6 m p o, e), [])
  | .mul i j => (mine e i).bind fun p => (live e j).map fun o => ((mul6 m p o, e), [])
  | .mulBy1 i c1 => (mine e i).map fun p => ((mulBy1_6 m p c1, e), [])
  | .mulBy01 i c0 c1 => (mine e i).map fun p => ((mulBy01_6 m p c0 c1, e), [])
  | .equals i j => (live e i).bind fun p => (live e j).map fun o => ((m, e), [equals6 m p o])
  | .isZero i => (live e i).map fun p => ((m, e), [isZero6 m p])

/-- Memory. -/
def Call.onMemory (m : Mem) (e : Vars Nat Nat) : Call → Option ((Mem × Vars Nat Nat) × List Bool)
  | .six op => (op.onMemory m e.six).map fun t => ((t.1.1, ⟨t.1.2, e.twelve⟩), t.2)
  | .twelve op => (op.onMemory m e.twelve).map fun t => ((t.1.1, ⟨e.six, t.1.2⟩), t.2)
  | .newFQ12 i j => if i = j then none else
    (mine e.six i).bind fun p => (mine e.six j).map fun t =>
      (((m.new12 p t).2, ⟨(e.six.set i none).set j none, e.twelve ++ [(m.new12 p t).1]⟩), [])

open Classical in
/-- The calls as operations of the field with `q⁶` elements; `x.MulAssign(x)` and `Exp` have no such description. -/
noncomputable def Op6.onField (s : List (Option Fq6)) : Op6 → Option (List (Option Fq6) × List Bool)
  | .new c0 c1 c2 => some (s ++ [some ⟨c0.fld, c1.fld, c2.fld⟩], [])
  | .rand c0 c1 c2 => some (s ++ [some ⟨c0.fld, c1.fld, c2.fld⟩], [])
  | .copy i => (live s i).map fun x => (s ++ [some x], [])
  | .exp _ _ => none
  | .double i => (mine s i).map fun x => (s.set i (some (2 * x)), [])
  | .neg i => (mine s i).map fun x => (s.set i (some (-x)), [])
  | .square i => (mine s i).map fun x => (s.set i (some (x ^ 2)), [])
  | .nonresidue i => (mine s i).map fun x => (s.set i (some (x * Fq6.v)), [])
  | .frobenius i k => (mine s i).map fun x => (s.set i (some (x ^ q ^ k.toNat)), [])
  | .inverse i => (mine s i).map fun x => (s.set i (some x⁻¹), [decide (x ≠ 0)])
  | .add i j => (mine s i).bind fun x => (live s j).map fun y => (s.set i (some (x + y)), [])
  | .sub i j => (mine s i).bind fun x => (live s j).map fun y => (s.set i (some (x - y)), [])
  | .mul i j => if i = j then none else
    (mine s i).bind fun x => (live s j).map fun y => (s.set i (some (x * y)), [])
  | .mulBy1 i c1 => (mine s i).map fun x => (s.set i (some (x * ⟨0, c1.fld, 0⟩)), [])
  | .mulBy01 i c0 c1 => (mine s i).map fun x => (s.set i (some (x * ⟨c0.fld, c1.fld, 0⟩)), [])
  | .equals i j => (live s i).bind fun x => (live s j).map fun y => (s, [decide (x = y)])
  | .isZero i => (live s i).map fun x => (s, [decide (x = 0)])

/-- The field: `NewFQ12` is `x + y·w`. -/
noncomputable def Call.onField (s : Vars Fq6 Fq12) : Call → Option (Vars Fq6 Fq12 × List Bool)
  | .six op => (op.onField s.six).map fun t => (⟨t.1, s.twelve⟩, t.2)
  | .twelve op => (op.onField s.twelve).map fun t => (⟨s.six, t.1⟩, t.2)
  | .newFQ12 i j => if i = j then none else
    (mine s.six i).bind fun x => (mine s.six j).map fun y =>
      (⟨(s.six.set i none).set j none, s.twelve ++ [Fq12.of x + Fq12.of y * Fq12.w]⟩, [])

/-- The coordinates given to the call are canonical, and the call is one that `onField` describes. -/
def Call.Canonical : Call → Prop
  | .six (.new c0 c1 c2) | .six (.rand c0 c1 c2) => c0.isValid ∧ c1.isValid ∧ c2.isValid
  | .six (.mulBy1 _ c1) => c1.isValid
  | .six (.mulBy01 _ c0 c1) => c0.isValid ∧ c1.isValid
  | .six (.mul i j) => i ≠ j
  | .six (.exp _ _) => False
  | .twelve op => op.Canonical
  | _ => True

/-- A program on values. -/
def callsOnValues : List Call → Vars FQ6 FQ12 → Option (Vars FQ6 FQ12 × List Bool)
  | [], s => some (s, [])
  | c :: cs, s => (c.onValues s).bind fun t => (callsOnValues cs t.1).map fun u => (u.1, t.2 ++ u.2)

/-- A program in memory. -/
def callsOnMemory : List Call → Mem → Vars Nat Nat → Option ((Mem × Vars Nat Nat) × List Bool)
  | [], m, e => some ((m, e), [])
  | c :: cs, m, e => (c.onMemory m e).bind fun t => (callsOnMemory cs t.1.1 t.1.2).map fun u => (u.1, t.2 ++ u.2)

/-- A program in the fields. -/
noncomputable def callsOnField : List Call → Vars Fq6 Fq12 → Option (Vars Fq6 Fq12 × List Bool)
  | [], s => some (s, [])
  | c :: cs, s => (c.onField s).bind fun t => (callsOnField cs t.1).map fun u => (u.1, t.2 ++ u.2)

/-- A program run in a fresh process: the final value of each variable and the returned booleans. -/
def executeCalls (cs : List Call) : Option (Vars FQ6 FQ12 × List Bool) :=
  (callsOnMemory cs init ⟨[some aFQ6Zero, some aFQ6One], [aFQ12Zero, aFQ12One]⟩).map fun t =>
    (⟨t.1.2.six.map (Option.map t.1.1.six), t.1.2.twelve.map t.1.1.read⟩, t.2)

end Bls.Heap12
