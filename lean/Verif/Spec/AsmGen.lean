import Verif.Model.AsmGen
/-
What it means that a text is a program on virtual registers with processor registers assigned: instruction by
instruction they are the same, and wherever the program reads a virtual register, the text reads a processor register
that was last written when that virtual register was, and has not been overwritten since. An assignment need not be
one map for the whole function.
-/
namespace Bls.AsmGen
open Bls.Asm (Reg Opd Instr)

/-- What is known at a point of the text: which processor register holds which register of the program, which words
of the frame have been written, and whether the carry flag has been. -/
structure Known where
  regs : List (Reg × VReg)
  frame : List Nat
  flag : Bool

/-- At the start nothing is known. -/
def Known.start : Known := ⟨[], [], false⟩

/-- The operand of the text holds what the operand of the program holds. -/
def Known.Same (k : Known) : Opd → VOpd → Bool
  | .reg r, .reg v => k.regs.contains (r, v)
  | .imm a, .imm b => a == b
  | .sp i, .sp j => i == j && k.frame.contains i
  | .fp i, .fp j => i == j
  | _, _ => false

/-- After both have written the same value: what the register `r` and the other holders of `v` held is forgotten. -/
def Known.write (k : Known) : Opd → VOpd → Option Known
  | .reg r, .reg v => some { k with regs := (r, v) :: k.regs.filter fun x => x.1 != r && x.2 != v }
  | .sp i, .sp j => if i = j then some { k with frame := if k.frame.contains i then k.frame else i :: k.frame } else none
  | .fp i, .fp j => if i = j then some k else none
  | _, _ => none

/-- The flag has been set. -/
def Known.flagged (k : Known) : Known := { k with flag := true }

/-- One instruction of the text does what one instruction of the program does; what is known afterwards. -/
def Known.step (k : Known) : Instr → VInstr → Option Known
  | .MOVQ a d, .MOVQ b e => if k.Same a b then k.write d e else none
  | .ADDQ a d, .ADDQ b e => if k.Same a b && k.Same d e then (k.write d e).map flagged else none
  | .ADCQ a d, .ADCQ b e => if k.Same a b && k.Same d e && k.flag then (k.write d e).map flagged else none
  | .SUBQ a d, .SUBQ b e => if k.Same a b && k.Same d e then (k.write d e).map flagged else none
  | .SBBQ a d, .SBBQ b e => if k.Same a b && k.Same d e && k.flag then (k.write d e).map flagged else none
  | .MULQ a, .MULQ b =>
    if k.Same a b && k.Same (.reg .AX) (.reg (.phys .AX)) then
      ((k.write (.reg .AX) (.reg (.phys .AX))).bind fun k => k.write (.reg .DX) (.reg (.phys .DX))).map flagged
    else none
  | .XORQ a d, .XORQ b e =>
    if (a == d && b == e) || (k.Same a b && k.Same d e) then (k.write d e).map flagged else none
  | .ORQ a d, .ORQ b e => if k.Same a b && k.Same d e then (k.write d e).map flagged else none
  | .SETCS r, .SETCS v => if k.Same (.reg r) (.reg v) && k.flag then k.write (.reg r) (.reg v) else none
  | _, _ => none

/-- From what is known, the whole rest of the text does what the rest of the program does. -/
def Known.follows (k : Known) : List Instr → List VInstr → Bool
  | [], [] => true
  | i :: t, j :: p => match k.step i j with
    | some k => k.follows t p
    | none => false
  | _, _ => false

/-- The text is the program with processor registers assigned to the virtual ones. -/
def Assigns (text : List Instr) (prog : List VInstr) : Prop := Known.start.follows text prog = true

instance (text : List Instr) (prog : List VInstr) : Decidable (Assigns text prog) :=
  inferInstanceAs (Decidable (_ = _))

end Bls.AsmGen
