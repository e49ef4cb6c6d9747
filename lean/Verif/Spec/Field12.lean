import Verif.Spec.History12
import Verif.Spec.Denote
/-
What a program that uses `FQ12` means in the field Fq12 (programs: Verif/Spec/History12.lean).
-/
namespace Bls.Heap12
open Classical in
/-- The calls as operations of the field with `q¹²` elements. `MillerLoop`, `Pairing` and `CompareTwoPairings` have no
description by field operations alone and are left out (`none`). -/
noncomputable def Op.onField (s : List Fq12) : Op → Option (List Fq12 × List Bool)
  | .conjugate i => (own s i).map fun x => (s.set i (x ^ q ^ 6), [])
  | .double i => (own s i).map fun x => (s.set i (2 * x), [])
  | .neg i => (own s i).map fun x => (s.set i (-x), [])
  | .square i => (own s i).map fun x => (s.set i (x ^ 2), [])
  | .frobenius i k => (own s i).map fun x => (s.set i (x ^ q ^ k.toNat), [])
  | .inverse i => (own s i).map fun x => (s.set i x⁻¹, [decide (x ≠ 0)])
  | .add i j => (own s i).bind fun x => s[j]?.map fun y => (s.set i (x + y), [])
  | .sub i j => (own s i).bind fun x => s[j]?.map fun y => (s.set i (x - y), [])
  | .mul i j => (own s i).bind fun x => s[j]?.map fun y => (s.set i (x * y), [])
  | .mulBy014 i c0 c1 c4 => (own s i).map fun x => (s.set i (x * ⟨⟨c0.fld, c1.fld, 0⟩, ⟨0, c4.fld, 0⟩⟩), [])
  | .equals i j => s[i]?.bind fun x => s[j]?.map fun y => (s, [decide (x = y)])
  | .isZero i => s[i]?.map fun x => (s, [decide (x = 0)])
  | .rand a b => some (s ++ [⟨a.fld, b.fld⟩], [])
  | .copy i => s[i]?.map fun x => (s ++ [x], [])
  | .exp i n => s[i]?.map fun x => (s ++ [x ^ n.toNat], [])
  | .finalExponentiation i => s[i]?.map fun x =>
    if x = 0 then (s, [false]) else (s ++ [x ^ (3 * ((q ^ 12 - 1) / r))], [true])
  | .millerLoop _ => none
  | .pairing _ _ => none
  | .compareTwoPairings _ _ _ _ => none

/-- The calls of a program one after the other; the returned booleans in order. -/
noncomputable def fieldRun : List Op → List Fq12 → Option (List Fq12 × List Bool)
  | [], s => some (s, [])
  | op :: ops, s => (op.onField s).bind fun t => (fieldRun ops t.1).map fun u => (u.1, t.2 ++ u.2)

/-- The coordinates given to the call are canonical, and the call is one that `onField` describes. -/
def Op.Canonical : Op → Prop
  | .rand a b => a.isValid ∧ b.isValid
  | .mulBy014 _ c0 c1 c4 => c0.isValid ∧ c1.isValid ∧ c4.isValid
  | .millerLoop _ | .pairing _ _ | .compareTwoPairings _ _ _ _ => False
  | _ => True

end Bls.Heap12
