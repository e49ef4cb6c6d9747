import Verif.Model.Asm
/-
How Go's assembler passes arguments and results (Go's ABI0): one after the other, 8 bytes per word,
starting at offset 0 of the argument area `FP`.
-/
namespace Bls.Asm

/-- From offset `i` on, the argument area of `s` holds the words `l`. -/
def State.Holds (s : State) (i : Nat) (l : List W) : Prop :=
  ∀ (k : Nat) (h : k < l.length), s.fp (i + 8 * k) = l[k]

/-- `p`, called with the words `args`, returns the words `results`: whatever else is in the
registers, the frame, the result area and the carry flag before the call. -/
def Returns (p : List Instr) (args results : List W) : Prop :=
  ∀ s : State, s.Holds 0 args → (run p s).Holds (8 * args.length) results

/-- After a call only the words of the results and of the function's own frame differ. -/
def Fn.KeepsMemory (f : Fn) : Prop :=
  ∀ s : State,
    (∀ i, ¬ (∃ k, f.args ≤ k ∧ k < f.args + f.results ∧ i = 8 * k) → (f.call s).fp i = s.fp i) ∧
    (∀ i, ¬ (∃ k, k < f.frame ∧ i = 8 * k) → (f.call s).sp i = s.sp i)

/-- All words of the results depend on the words of the arguments only, not on what else is in memory, the registers and
the carry flag before the call. -/
def Fn.ResultsOfArgs (f : Fn) : Prop :=
  ∀ s s' : State, (∀ k < f.args, s.fp (8 * k) = s'.fp (8 * k)) →
    ∀ k, f.args ≤ k → k < f.args + f.results → (f.call s).fp (8 * k) = (f.call s').fp (8 * k)

/-- After a call the register `BP`, Go's frame pointer, is as before: the one register that Go's convention for
assembly asks a function to keep. -/
def Fn.KeepsBP (f : Fn) : Prop := ∀ s : State, (f.call s).reg .BP = s.reg .BP

end Bls.Asm
