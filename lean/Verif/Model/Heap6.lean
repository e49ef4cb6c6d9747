import Verif.Model.Heap12
/-
The functions of fq6.go that return a new `*FQ6`, in the memory of Verif/Model/Heap12.lean.
-/
namespace Bls.Heap12

/-- The end of `RandFQ6`, fq6.go:354-368, with `RandFQ2` having drawn the three coordinates. -/
def rand6 (m : Mem) (c0 c1 c2 : FQ2) : Nat × Mem := m.new6 ⟨c0, c1, c2⟩

/-- The loop of `Exp`, fq6.go:343-349; `none` is a loop that has not ended within the fuel. `nCopy` is a copy of the
argument and no other pointer is in use. -/
def expLoop6 (fi res : Nat) : (fuel : Nat) → (nCopy : FQRepr) → Mem → Option Mem
  | 0, _, _ => none
  | fuel + 1, nCopy, m =>
    if nCopy.cmp bigZero ≠ 0 then
      let m := if !nCopy.isEven then mul6 m res fi else m
      let m := mul6 m fi fi
      expLoop6 fi res fuel (nCopy.rsh 1) m
    else some m

/-- `Exp`, fq6.go:339-351. -/
def exp6 (m : Mem) (p : Nat) (n : FQRepr) : Option (Nat × Mem) :=
  let (res, m) := copy6 m aFQ6One
  let (fi, m) := copy6 m p
  (expLoop6 fi res 385 n m).map fun m => (res, m)

end Bls.Heap12
