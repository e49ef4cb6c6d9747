/-
The amd64 assembly (primitivefuncs_amd64.s) and the instructions it uses. The instruction lists at
the end are a line by line transcription of the file; comments are dropped.
-/
import Verif.Model.Word
namespace Bls.Asm

/-- The 64-bit registers that occur in primitivefuncs_amd64.s. -/
inductive Reg
  | AX | BX | CX | DX | SI | DI | BP | R8 | R9 | R10 | R11 | R12 | R13 | R14 | R15
  deriving DecidableEq, Repr

/-- An operand of primitivefuncs_amd64.s: a register, a constant `$i`, a word `i(SP)` of the
function's own frame, or a word `x+i(FP)` of its arguments and results. All offsets in the file are
multiples of 8, so that different offsets are different, non-overlapping words. -/
inductive Opd
  | reg (r : Reg) | imm (i : W) | sp (i : Nat) | fp (i : Nat)
  deriving DecidableEq, Repr

/-- The instructions that occur in primitivefuncs_amd64.s, in the operand order of Go's assembler
(destination last). `SETCS` has the low byte of a register as its operand (`DL`, line 40; `BL`,
line 48). -/
inductive Instr
  | MOVQ (src dst : Opd) | ADDQ (src dst : Opd) | ADCQ (src dst : Opd)
  | SUBQ (src dst : Opd) | SBBQ (src dst : Opd) | MULQ (src : Opd)
  | XORQ (src dst : Opd) | ORQ (src dst : Opd) | SETCS (dst : Reg)
  deriving DecidableEq, Repr

/-- Registers, words of the frame, words of the arguments and results, and the carry flag. The
other flags are not read by primitivefuncs_amd64.s:1-1522 and left out. -/
structure State where
  reg : Reg → W
  sp : Nat → W
  fp : Nat → W
  cf : Bool

/-- The value of an operand (as a source operand anywhere in primitivefuncs_amd64.s:1-1522). -/
def State.get (s : State) : Opd → W
  | .reg r => s.reg r
  | .imm i => i
  | .sp i => s.sp i
  | .fp i => s.fp i

/-- Writing to an operand (as a destination anywhere in primitivefuncs_amd64.s:1-1522; a constant
is no destination). -/
def State.put (s : State) : Opd → W → State
  | .reg r, v => { s with reg := fun x => if x = r then v else s.reg x }
  | .imm _, _ => s
  | .sp i, v => { s with sp := fun j => if j = i then v else s.sp j }
  | .fp i, v => { s with fp := fun j => if j = i then v else s.fp j }

/-- Setting the carry flag. -/
def State.flag (s : State) (b : Bool) : State := { s with cf := b }

/-- A flag as a number. -/
def bit (b : Bool) : W := if b then 1 else 0

/-- The instructions of primitivefuncs_amd64.s:1-1522, by the processor manual: `MOVQ` leaves the
carry flag as it is, `ADDQ`/`ADCQ` set it to the carry and `SUBQ`/`SBBQ` to the borrow, `MULQ`
multiplies `AX` with the operand into `DX:AX` and sets it if the high word is not zero,
`XORQ`/`ORQ` clear it, `SETCS` copies it to a byte, leaving the other bytes. -/
def step (s : State) : Instr → State
  | .MOVQ a d => s.put d (s.get a)
  | .ADDQ a d => (s.put d (s.get d + s.get a)).flag
      (decide (2 ^ 64 ≤ (s.get d).toNat + (s.get a).toNat))
  | .ADCQ a d => (s.put d (s.get d + s.get a + bit s.cf)).flag
      (decide (2 ^ 64 ≤ (s.get d).toNat + (s.get a).toNat + (bit s.cf).toNat))
  | .SUBQ a d => (s.put d (s.get d - s.get a)).flag (decide ((s.get d).toNat < (s.get a).toNat))
  | .SBBQ a d => (s.put d (s.get d - s.get a - bit s.cf)).flag
      (decide ((s.get d).toNat < (s.get a).toNat + (bit s.cf).toNat))
  | .MULQ a =>
    ((s.put (.reg .AX) (s.reg .AX * s.get a)).put (.reg .DX)
      (UInt64.ofNat ((s.reg .AX).toNat * (s.get a).toNat / 2 ^ 64))).flag
      (decide (2 ^ 64 ≤ (s.reg .AX).toNat * (s.get a).toNat))
  | .XORQ a d => (s.put d (s.get d ^^^ s.get a)).flag false
  | .ORQ a d => (s.put d (s.get d ||| s.get a)).flag false
  | .SETCS r => s.put (.reg r) ((s.reg r &&& 0xffffffffffffff00) ||| bit s.cf)

/-- A function body of primitivefuncs_amd64.s up to its `RET` (there are no jumps). -/
def run (p : List Instr) (s : State) : State := p.foldl step s

open Instr Opd Reg

/-- `MACWithCarry`, primitivefuncs_amd64.s:4-26. -/
def macWithCarryText : List Instr := [
  MOVQ (fp 8) (reg CX), MOVQ (fp 16) (reg AX), MULQ (reg CX), MOVQ (fp 0) (reg CX),
  ADDQ (reg CX) (reg AX), ADCQ (imm 0x0) (reg DX), MOVQ (fp 24) (reg CX), ADDQ (reg CX) (reg AX),
  ADCQ (imm 0x0) (reg DX), MOVQ (reg AX) (fp 32), MOVQ (reg DX) (fp 40)]

/-- `SubWithBorrow`, primitivefuncs_amd64.s:29-52. -/
def subWithBorrowText : List Instr := [
  MOVQ (fp 0) (reg AX), MOVQ (fp 8) (reg CX), XORQ (reg DX) (reg DX), SUBQ (reg CX) (reg AX),
  SETCS DX, MOVQ (fp 16) (reg CX), XORQ (reg BX) (reg BX), SUBQ (reg CX) (reg AX), SETCS BX,
  ORQ (reg DX) (reg BX), MOVQ (reg AX) (fp 24), MOVQ (reg BX) (fp 32)]

/-- `AddWithCarry`, primitivefuncs_amd64.s:55-76. -/
def addWithCarryText : List Instr := [
  MOVQ (fp 0) (reg AX), MOVQ (fp 8) (reg CX), MOVQ (fp 16) (reg DX), XORQ (reg BX) (reg BX),
  ADDQ (reg CX) (reg AX), ADCQ (imm 0x0) (reg BX), ADDQ (reg DX) (reg AX), ADCQ (imm 0x0) (reg BX),
  MOVQ (reg AX) (fp 24), MOVQ (reg BX) (fp 32)]

/-- `MultiplyFQRepr`, primitivefuncs_amd64.s:79-637. -/
def multiplyFQReprText : List Instr := [
  XORQ (reg R10) (reg R10), MOVQ (fp 0) (reg AX), MOVQ (fp 48) (reg BX), XORQ (reg CX) (reg CX),
  MOVQ (reg AX) (reg AX), MULQ (reg BX), ADDQ (reg CX) (reg AX), ADCQ (imm 0x0) (reg DX),
  ADDQ (reg R10) (reg AX), ADCQ (imm 0x0) (reg DX), MOVQ (reg DX) (reg R10),
  MOVQ (reg AX) (reg CX), MOVQ (fp 0) (reg AX), MOVQ (fp 56) (reg BX), XORQ (reg BP) (reg BP),
  MOVQ (reg AX) (reg AX), MULQ (reg BX), ADDQ (reg BP) (reg AX), ADCQ (imm 0x0) (reg DX),
  ADDQ (reg R10) (reg AX), ADCQ (imm 0x0) (reg DX), MOVQ (reg DX) (reg R10),
  MOVQ (reg AX) (reg BP), MOVQ (fp 0) (reg AX), MOVQ (fp 64) (reg BX), XORQ (reg SI) (reg SI),
  MOVQ (reg AX) (reg AX), MULQ (reg BX), ADDQ (reg SI) (reg AX), ADCQ (imm 0x0) (reg DX),
  ADDQ (reg R10) (reg AX), ADCQ (imm 0x0) (reg DX), MOVQ (reg DX) (reg R10),
  MOVQ (reg AX) (reg SI), MOVQ (fp 0) (reg AX), MOVQ (fp 72) (reg BX), XORQ (reg DI) (reg DI),
  MOVQ (reg AX) (reg AX), MULQ (reg BX), ADDQ (reg DI) (reg AX), ADCQ (imm 0x0) (reg DX),
  ADDQ (reg R10) (reg AX), ADCQ (imm 0x0) (reg DX), MOVQ (reg DX) (reg R10),
  MOVQ (reg AX) (reg DI), MOVQ (fp 0) (reg AX), MOVQ (fp 80) (reg BX), XORQ (reg R8) (reg R8),
  MOVQ (reg AX) (reg AX), MULQ (reg BX), ADDQ (reg R8) (reg AX), ADCQ (imm 0x0) (reg DX),
  ADDQ (reg R10) (reg AX), ADCQ (imm 0x0) (reg DX), MOVQ (reg DX) (reg R10),
  MOVQ (reg AX) (reg R8), MOVQ (fp 0) (reg AX), MOVQ (fp 88) (reg BX), XORQ (reg R9) (reg R9),
  MOVQ (reg AX) (reg AX), MULQ (reg BX), ADDQ (reg R9) (reg AX), ADCQ (imm 0x0) (reg DX),
  ADDQ (reg R10) (reg AX), ADCQ (imm 0x0) (reg DX), MOVQ (reg DX) (reg R10),
  MOVQ (reg AX) (reg R9), MOVQ (reg R10) (reg R10), XORQ (reg R11) (reg R11), MOVQ (fp 8) (reg AX),
  MOVQ (fp 48) (reg BX), MOVQ (reg AX) (reg AX), MULQ (reg BX), ADDQ (reg BP) (reg AX),
  ADCQ (imm 0x0) (reg DX), ADDQ (reg R11) (reg AX), ADCQ (imm 0x0) (reg DX),
  MOVQ (reg DX) (reg R11), MOVQ (reg AX) (reg BP), MOVQ (fp 8) (reg AX), MOVQ (fp 56) (reg BX),
  MOVQ (reg AX) (reg AX), MULQ (reg BX), ADDQ (reg SI) (reg AX), ADCQ (imm 0x0) (reg DX),
  ADDQ (reg R11) (reg AX), ADCQ (imm 0x0) (reg DX), MOVQ (reg DX) (reg R11),
  MOVQ (reg AX) (reg SI), MOVQ (fp 8) (reg AX), MOVQ (fp 64) (reg BX), MOVQ (reg AX) (reg AX),
  MULQ (reg BX), ADDQ (reg DI) (reg AX), ADCQ (imm 0x0) (reg DX), ADDQ (reg R11) (reg AX),
  ADCQ (imm 0x0) (reg DX), MOVQ (reg DX) (reg R11), MOVQ (reg AX) (reg DI), MOVQ (fp 8) (reg AX),
  MOVQ (fp 72) (reg BX), MOVQ (reg AX) (reg AX), MULQ (reg BX), ADDQ (reg R8) (reg AX),
  ADCQ (imm 0x0) (reg DX), ADDQ (reg R11) (reg AX), ADCQ (imm 0x0) (reg DX),
  MOVQ (reg DX) (reg R11), MOVQ (reg AX) (reg R8), MOVQ (fp 8) (reg AX), MOVQ (fp 80) (reg BX),
  MOVQ (reg AX) (reg AX), MULQ (reg BX), ADDQ (reg R9) (reg AX), ADCQ (imm 0x0) (reg DX),
  ADDQ (reg R11) (reg AX), ADCQ (imm 0x0) (reg DX), MOVQ (reg DX) (reg R11),
  MOVQ (reg AX) (reg R9), MOVQ (fp 8) (reg AX), MOVQ (fp 88) (reg BX), MOVQ (reg AX) (reg AX),
  MULQ (reg BX), ADDQ (reg R10) (reg AX), ADCQ (imm 0x0) (reg DX), ADDQ (reg R11) (reg AX),
  ADCQ (imm 0x0) (reg DX), MOVQ (reg DX) (reg R11), MOVQ (reg AX) (reg R10),
  MOVQ (reg R11) (reg R11), XORQ (reg R12) (reg R12), MOVQ (fp 16) (reg AX), MOVQ (fp 48) (reg BX),
  MOVQ (reg AX) (reg AX), MULQ (reg BX), ADDQ (reg SI) (reg AX), ADCQ (imm 0x0) (reg DX),
  ADDQ (reg R12) (reg AX), ADCQ (imm 0x0) (reg DX), MOVQ (reg DX) (reg R12),
  MOVQ (reg AX) (reg SI), MOVQ (fp 16) (reg AX), MOVQ (fp 56) (reg BX), MOVQ (reg AX) (reg AX),
  MULQ (reg BX), ADDQ (reg DI) (reg AX), ADCQ (imm 0x0) (reg DX), ADDQ (reg R12) (reg AX),
  ADCQ (imm 0x0) (reg DX), MOVQ (reg DX) (reg R12), MOVQ (reg AX) (reg DI), MOVQ (fp 16) (reg AX),
  MOVQ (fp 64) (reg BX), MOVQ (reg AX) (reg AX), MULQ (reg BX), ADDQ (reg R8) (reg AX),
  ADCQ (imm 0x0) (reg DX), ADDQ (reg R12) (reg AX), ADCQ (imm 0x0) (reg DX),
  MOVQ (reg DX) (reg R12), MOVQ (reg AX) (reg R8), MOVQ (fp 16) (reg AX), MOVQ (fp 72) (reg BX),
  MOVQ (reg AX) (reg AX), MULQ (reg BX), ADDQ (reg R9) (reg AX), ADCQ (imm 0x0) (reg DX),
  ADDQ (reg R12) (reg AX), ADCQ (imm 0x0) (reg DX), MOVQ (reg DX) (reg R12),
  MOVQ (reg AX) (reg R9), MOVQ (fp 16) (reg AX), MOVQ (fp 80) (reg BX), MOVQ (reg AX) (reg AX),
  MULQ (reg BX), ADDQ (reg R10) (reg AX), ADCQ (imm 0x0) (reg DX), ADDQ (reg R12) (reg AX),
  ADCQ (imm 0x0) (reg DX), MOVQ (reg DX) (reg R12), MOVQ (reg AX) (reg R10), MOVQ (fp 16) (reg AX),
  MOVQ (fp 88) (reg BX), MOVQ (reg AX) (reg AX), MULQ (reg BX), ADDQ (reg R11) (reg AX),
  ADCQ (imm 0x0) (reg DX), ADDQ (reg R12) (reg AX), ADCQ (imm 0x0) (reg DX),
  MOVQ (reg DX) (reg R12), MOVQ (reg AX) (reg R11), MOVQ (reg R12) (reg R12),
  XORQ (reg R13) (reg R13), MOVQ (fp 24) (reg AX), MOVQ (fp 48) (reg BX), MOVQ (reg AX) (reg AX),
  MULQ (reg BX), ADDQ (reg DI) (reg AX), ADCQ (imm 0x0) (reg DX), ADDQ (reg R13) (reg AX),
  ADCQ (imm 0x0) (reg DX), MOVQ (reg DX) (reg R13), MOVQ (reg AX) (reg DI), MOVQ (fp 24) (reg AX),
  MOVQ (fp 56) (reg BX), MOVQ (reg AX) (reg AX), MULQ (reg BX), ADDQ (reg R8) (reg AX),
  ADCQ (imm 0x0) (reg DX), ADDQ (reg R13) (reg AX), ADCQ (imm 0x0) (reg DX),
  MOVQ (reg DX) (reg R13), MOVQ (reg AX) (reg R8), MOVQ (fp 24) (reg AX), MOVQ (fp 64) (reg BX),
  MOVQ (reg AX) (reg AX), MULQ (reg BX), ADDQ (reg R9) (reg AX), ADCQ (imm 0x0) (reg DX),
  ADDQ (reg R13) (reg AX), ADCQ (imm 0x0) (reg DX), MOVQ (reg DX) (reg R13),
  MOVQ (reg AX) (reg R9), MOVQ (fp 24) (reg AX), MOVQ (fp 72) (reg BX), MOVQ (reg AX) (reg AX),
  MULQ (reg BX), ADDQ (reg R10) (reg AX), ADCQ (imm 0x0) (reg DX), ADDQ (reg R13) (reg AX),
  ADCQ (imm 0x0) (reg DX), MOVQ (reg DX) (reg R13), MOVQ (reg AX) (reg R10), MOVQ (fp 24) (reg AX),
  MOVQ (fp 80) (reg BX), MOVQ (reg AX) (reg AX), MULQ (reg BX), ADDQ (reg R11) (reg AX),
  ADCQ (imm 0x0) (reg DX), ADDQ (reg R13) (reg AX), ADCQ (imm 0x0) (reg DX),
  MOVQ (reg DX) (reg R13), MOVQ (reg AX) (reg R11), MOVQ (fp 24) (reg AX), MOVQ (fp 88) (reg BX),
  MOVQ (reg AX) (reg AX), MULQ (reg BX), ADDQ (reg R12) (reg AX), ADCQ (imm 0x0) (reg DX),
  ADDQ (reg R13) (reg AX), ADCQ (imm 0x0) (reg DX), MOVQ (reg DX) (reg R13),
  MOVQ (reg AX) (reg R12), MOVQ (reg R13) (reg R13), XORQ (reg R14) (reg R14),
  MOVQ (fp 32) (reg AX), MOVQ (fp 48) (reg BX), MOVQ (reg AX) (reg AX), MULQ (reg BX),
  ADDQ (reg R8) (reg AX), ADCQ (imm 0x0) (reg DX), ADDQ (reg R14) (reg AX),
  ADCQ (imm 0x0) (reg DX), MOVQ (reg DX) (reg R14), MOVQ (reg AX) (reg R8), MOVQ (fp 32) (reg AX),
  MOVQ (fp 56) (reg BX), MOVQ (reg AX) (reg AX), MULQ (reg BX), ADDQ (reg R9) (reg AX),
  ADCQ (imm 0x0) (reg DX), ADDQ (reg R14) (reg AX), ADCQ (imm 0x0) (reg DX),
  MOVQ (reg DX) (reg R14), MOVQ (reg AX) (reg R9), MOVQ (fp 32) (reg AX), MOVQ (fp 64) (reg BX),
  MOVQ (reg AX) (reg AX), MULQ (reg BX), ADDQ (reg R10) (reg AX), ADCQ (imm 0x0) (reg DX),
  ADDQ (reg R14) (reg AX), ADCQ (imm 0x0) (reg DX), MOVQ (reg DX) (reg R14),
  MOVQ (reg AX) (reg R10), MOVQ (fp 32) (reg AX), MOVQ (fp 72) (reg BX), MOVQ (reg AX) (reg AX),
  MULQ (reg BX), ADDQ (reg R11) (reg AX), ADCQ (imm 0x0) (reg DX), ADDQ (reg R14) (reg AX),
  ADCQ (imm 0x0) (reg DX), MOVQ (reg DX) (reg R14), MOVQ (reg AX) (reg R11), MOVQ (fp 32) (reg AX),
  MOVQ (fp 80) (reg BX), MOVQ (reg AX) (reg AX), MULQ (reg BX), ADDQ (reg R12) (reg AX),
  ADCQ (imm 0x0) (reg DX), ADDQ (reg R14) (reg AX), ADCQ (imm 0x0) (reg DX),
  MOVQ (reg DX) (reg R14), MOVQ (reg AX) (reg R12), MOVQ (fp 32) (reg AX), MOVQ (fp 88) (reg BX),
  MOVQ (reg AX) (reg AX), MULQ (reg BX), ADDQ (reg R13) (reg AX), ADCQ (imm 0x0) (reg DX),
  ADDQ (reg R14) (reg AX), ADCQ (imm 0x0) (reg DX), MOVQ (reg DX) (reg R14),
  MOVQ (reg AX) (reg R13), MOVQ (reg R14) (reg R14), XORQ (reg R15) (reg R15),
  MOVQ (fp 40) (reg AX), MOVQ (fp 48) (reg BX), MOVQ (reg AX) (reg AX), MULQ (reg BX),
  ADDQ (reg R9) (reg AX), ADCQ (imm 0x0) (reg DX), ADDQ (reg R15) (reg AX),
  ADCQ (imm 0x0) (reg DX), MOVQ (reg DX) (reg R15), MOVQ (reg AX) (reg R9), MOVQ (fp 40) (reg AX),
  MOVQ (fp 56) (reg BX), MOVQ (reg AX) (reg AX), MULQ (reg BX), ADDQ (reg R10) (reg AX),
  ADCQ (imm 0x0) (reg DX), ADDQ (reg R15) (reg AX), ADCQ (imm 0x0) (reg DX),
  MOVQ (reg DX) (reg R15), MOVQ (reg AX) (reg R10), MOVQ (fp 40) (reg AX), MOVQ (fp 64) (reg BX),
  MOVQ (reg AX) (reg AX), MULQ (reg BX), ADDQ (reg R11) (reg AX), ADCQ (imm 0x0) (reg DX),
  ADDQ (reg R15) (reg AX), ADCQ (imm 0x0) (reg DX), MOVQ (reg DX) (reg R15),
  MOVQ (reg AX) (reg R11), MOVQ (fp 40) (reg AX), MOVQ (fp 72) (reg BX), MOVQ (reg AX) (reg AX),
  MULQ (reg BX), ADDQ (reg R12) (reg AX), ADCQ (imm 0x0) (reg DX), ADDQ (reg R15) (reg AX),
  ADCQ (imm 0x0) (reg DX), MOVQ (reg DX) (reg R15), MOVQ (reg AX) (reg R12), MOVQ (fp 40) (reg AX),
  MOVQ (fp 80) (reg BX), MOVQ (reg AX) (reg AX), MULQ (reg BX), ADDQ (reg R13) (reg AX),
  ADCQ (imm 0x0) (reg DX), ADDQ (reg R15) (reg AX), ADCQ (imm 0x0) (reg DX),
  MOVQ (reg DX) (reg R15), MOVQ (reg AX) (reg R13), MOVQ (fp 40) (reg AX), MOVQ (fp 88) (reg BX),
  MOVQ (reg AX) (reg AX), MULQ (reg BX), ADDQ (reg R14) (reg AX), ADCQ (imm 0x0) (reg DX),
  ADDQ (reg R15) (reg AX), ADCQ (imm 0x0) (reg DX), MOVQ (reg DX) (reg R15),
  MOVQ (reg AX) (reg R14), MOVQ (reg R15) (reg AX), MOVQ (reg CX) (fp 144), MOVQ (reg BP) (fp 152),
  MOVQ (reg SI) (fp 160), MOVQ (reg DI) (fp 168), MOVQ (reg R8) (fp 176), MOVQ (reg R9) (fp 184),
  MOVQ (reg R10) (fp 96), MOVQ (reg R11) (fp 104), MOVQ (reg R12) (fp 112),
  MOVQ (reg R13) (fp 120), MOVQ (reg R14) (fp 128), MOVQ (reg AX) (fp 136)]

/-- `MontReduce`, primitivefuncs_amd64.s:640-1466. -/
def montReduceText : List Instr := [
  MOVQ (fp 48) (reg AX), MOVQ (reg AX) (sp 0), MOVQ (fp 56) (reg AX), MOVQ (reg AX) (sp 8),
  MOVQ (fp 64) (reg AX), MOVQ (reg AX) (sp 16), MOVQ (fp 72) (reg AX), MOVQ (reg AX) (sp 24),
  MOVQ (fp 80) (reg AX), MOVQ (reg AX) (sp 32), MOVQ (fp 88) (reg AX), MOVQ (reg AX) (sp 40),
  MOVQ (fp 0) (reg AX), MOVQ (reg AX) (sp 48), MOVQ (fp 8) (reg AX), MOVQ (reg AX) (sp 56),
  MOVQ (fp 16) (reg AX), MOVQ (reg AX) (sp 64), MOVQ (fp 24) (reg AX), MOVQ (reg AX) (sp 72),
  MOVQ (fp 32) (reg AX), MOVQ (reg AX) (sp 80), MOVQ (fp 40) (reg AX), MOVQ (reg AX) (sp 88),
  XORQ (reg CX) (reg CX), MOVQ (imm 0x89f3fffcfffcfffd) (reg AX), MOVQ (sp 0) (reg BP),
  MULQ (reg BP), MOVQ (reg AX) (reg BP), XORQ (reg SI) (reg SI), MOVQ (sp 0) (reg DI),
  MOVQ (imm 0xb9feffffffffaaab) (reg AX), MULQ (reg BP), ADDQ (reg DI) (reg AX),
  ADCQ (imm 0x0) (reg DX), ADDQ (reg SI) (reg AX), ADCQ (imm 0x0) (reg DX), MOVQ (reg DX) (reg SI),
  MOVQ (reg AX) (reg DI), MOVQ (sp 8) (reg DI), MOVQ (imm 0x1eabfffeb153ffff) (reg AX),
  MULQ (reg BP), ADDQ (reg DI) (reg AX), ADCQ (imm 0x0) (reg DX), ADDQ (reg SI) (reg AX),
  ADCQ (imm 0x0) (reg DX), MOVQ (reg DX) (reg SI), MOVQ (reg AX) (reg DI), MOVQ (reg DI) (sp 8),
  MOVQ (sp 16) (reg DI), MOVQ (imm 0x6730d2a0f6b0f624) (reg AX), MULQ (reg BP),
  ADDQ (reg DI) (reg AX), ADCQ (imm 0x0) (reg DX), ADDQ (reg SI) (reg AX), ADCQ (imm 0x0) (reg DX),
  MOVQ (reg DX) (reg SI), MOVQ (reg AX) (reg DI), MOVQ (reg DI) (sp 16), MOVQ (sp 24) (reg DI),
  MOVQ (imm 0x64774b84f38512bf) (reg AX), MULQ (reg BP), ADDQ (reg DI) (reg AX),
  ADCQ (imm 0x0) (reg DX), ADDQ (reg SI) (reg AX), ADCQ (imm 0x0) (reg DX), MOVQ (reg DX) (reg SI),
  MOVQ (reg AX) (reg DI), MOVQ (reg DI) (sp 24), MOVQ (sp 32) (reg DI),
  MOVQ (imm 0x4b1ba7b6434bacd7) (reg AX), MULQ (reg BP), ADDQ (reg DI) (reg AX),
  ADCQ (imm 0x0) (reg DX), ADDQ (reg SI) (reg AX), ADCQ (imm 0x0) (reg DX), MOVQ (reg DX) (reg SI),
  MOVQ (reg AX) (reg DI), MOVQ (reg DI) (sp 32), MOVQ (sp 40) (reg DI),
  MOVQ (imm 0x1a0111ea397fe69a) (reg AX), MULQ (reg BP), ADDQ (reg DI) (reg AX),
  ADCQ (imm 0x0) (reg DX), ADDQ (reg SI) (reg AX), ADCQ (imm 0x0) (reg DX), MOVQ (reg DX) (reg SI),
  MOVQ (reg AX) (reg DI), MOVQ (reg DI) (sp 40), XORQ (reg BX) (reg BX), MOVQ (sp 48) (reg AX),
  ADDQ (reg SI) (reg AX), ADCQ (imm 0x0) (reg BX), ADDQ (reg CX) (reg AX), ADCQ (imm 0x0) (reg BX),
  MOVQ (reg BX) (reg CX), MOVQ (reg AX) (sp 48), MOVQ (imm 0x89f3fffcfffcfffd) (reg AX),
  MOVQ (sp 8) (reg BP), MULQ (reg BP), MOVQ (reg AX) (reg BP), XORQ (reg SI) (reg SI),
  MOVQ (sp 8) (reg DI), MOVQ (imm 0xb9feffffffffaaab) (reg AX), MULQ (reg BP),
  ADDQ (reg DI) (reg AX), ADCQ (imm 0x0) (reg DX), ADDQ (reg SI) (reg AX), ADCQ (imm 0x0) (reg DX),
  MOVQ (reg DX) (reg SI), MOVQ (reg AX) (reg DI), MOVQ (sp 16) (reg DI),
  MOVQ (imm 0x1eabfffeb153ffff) (reg AX), MULQ (reg BP), ADDQ (reg DI) (reg AX),
  ADCQ (imm 0x0) (reg DX), ADDQ (reg SI) (reg AX), ADCQ (imm 0x0) (reg DX), MOVQ (reg DX) (reg SI),
  MOVQ (reg AX) (reg DI), MOVQ (reg DI) (sp 16), MOVQ (sp 24) (reg DI),
  MOVQ (imm 0x6730d2a0f6b0f624) (reg AX), MULQ (reg BP), ADDQ (reg DI) (reg AX),
  ADCQ (imm 0x0) (reg DX), ADDQ (reg SI) (reg AX), ADCQ (imm 0x0) (reg DX), MOVQ (reg DX) (reg SI),
  MOVQ (reg AX) (reg DI), MOVQ (reg DI) (sp 24), MOVQ (sp 32) (reg DI),
  MOVQ (imm 0x64774b84f38512bf) (reg AX), MULQ (reg BP), ADDQ (reg DI) (reg AX),
  ADCQ (imm 0x0) (reg DX), ADDQ (reg SI) (reg AX), ADCQ (imm 0x0) (reg DX), MOVQ (reg DX) (reg SI),
  MOVQ (reg AX) (reg DI), MOVQ (reg DI) (sp 32), MOVQ (sp 40) (reg DI),
  MOVQ (imm 0x4b1ba7b6434bacd7) (reg AX), MULQ (reg BP), ADDQ (reg DI) (reg AX),
  ADCQ (imm 0x0) (reg DX), ADDQ (reg SI) (reg AX), ADCQ (imm 0x0) (reg DX), MOVQ (reg DX) (reg SI),
  MOVQ (reg AX) (reg DI), MOVQ (reg DI) (sp 40), MOVQ (sp 48) (reg DI),
  MOVQ (imm 0x1a0111ea397fe69a) (reg AX), MULQ (reg BP), ADDQ (reg DI) (reg AX),
  ADCQ (imm 0x0) (reg DX), ADDQ (reg SI) (reg AX), ADCQ (imm 0x0) (reg DX), MOVQ (reg DX) (reg SI),
  MOVQ (reg AX) (reg DI), MOVQ (reg DI) (sp 48), XORQ (reg BX) (reg BX), MOVQ (sp 56) (reg AX),
  ADDQ (reg SI) (reg AX), ADCQ (imm 0x0) (reg BX), ADDQ (reg CX) (reg AX), ADCQ (imm 0x0) (reg BX),
  MOVQ (reg BX) (reg CX), MOVQ (reg AX) (sp 56), MOVQ (imm 0x89f3fffcfffcfffd) (reg AX),
  MOVQ (sp 16) (reg BP), MULQ (reg BP), MOVQ (reg AX) (reg BP), XORQ (reg SI) (reg SI),
  MOVQ (sp 16) (reg DI), MOVQ (imm 0xb9feffffffffaaab) (reg AX), MULQ (reg BP),
  ADDQ (reg DI) (reg AX), ADCQ (imm 0x0) (reg DX), ADDQ (reg SI) (reg AX), ADCQ (imm 0x0) (reg DX),
  MOVQ (reg DX) (reg SI), MOVQ (reg AX) (reg DI), MOVQ (sp 24) (reg DI),
  MOVQ (imm 0x1eabfffeb153ffff) (reg AX), MULQ (reg BP), ADDQ (reg DI) (reg AX),
  ADCQ (imm 0x0) (reg DX), ADDQ (reg SI) (reg AX), ADCQ (imm 0x0) (reg DX), MOVQ (reg DX) (reg SI),
  MOVQ (reg AX) (reg DI), MOVQ (reg DI) (sp 24), MOVQ (sp 32) (reg DI),
  MOVQ (imm 0x6730d2a0f6b0f624) (reg AX), MULQ (reg BP), ADDQ (reg DI) (reg AX),
  ADCQ (imm 0x0) (reg DX), ADDQ (reg SI) (reg AX), ADCQ (imm 0x0) (reg DX), MOVQ (reg DX) (reg SI),
  MOVQ (reg AX) (reg DI), MOVQ (reg DI) (sp 32), MOVQ (sp 40) (reg DI),
  MOVQ (imm 0x64774b84f38512bf) (reg AX), MULQ (reg BP), ADDQ (reg DI) (reg AX),
  ADCQ (imm 0x0) (reg DX), ADDQ (reg SI) (reg AX), ADCQ (imm 0x0) (reg DX), MOVQ (reg DX) (reg SI),
  MOVQ (reg AX) (reg DI), MOVQ (reg DI) (sp 40), MOVQ (sp 48) (reg DI),
  MOVQ (imm 0x4b1ba7b6434bacd7) (reg AX), MULQ (reg BP), ADDQ (reg DI) (reg AX),
  ADCQ (imm 0x0) (reg DX), ADDQ (reg SI) (reg AX), ADCQ (imm 0x0) (reg DX), MOVQ (reg DX) (reg SI),
  MOVQ (reg AX) (reg DI), MOVQ (reg DI) (sp 48), MOVQ (sp 56) (reg DI),
  MOVQ (imm 0x1a0111ea397fe69a) (reg AX), MULQ (reg BP), ADDQ (reg DI) (reg AX),
  ADCQ (imm 0x0) (reg DX), ADDQ (reg SI) (reg AX), ADCQ (imm 0x0) (reg DX), MOVQ (reg DX) (reg SI),
  MOVQ (reg AX) (reg DI), MOVQ (reg DI) (sp 56), XORQ (reg BX) (reg BX), MOVQ (sp 64) (reg AX),
  ADDQ (reg SI) (reg AX), ADCQ (imm 0x0) (reg BX), ADDQ (reg CX) (reg AX), ADCQ (imm 0x0) (reg BX),
  MOVQ (reg BX) (reg CX), MOVQ (reg AX) (sp 64), MOVQ (imm 0x89f3fffcfffcfffd) (reg AX),
  MOVQ (sp 24) (reg BP), MULQ (reg BP), MOVQ (reg AX) (reg BP), XORQ (reg SI) (reg SI),
  MOVQ (sp 24) (reg DI), MOVQ (imm 0xb9feffffffffaaab) (reg AX), MULQ (reg BP),
  ADDQ (reg DI) (reg AX), ADCQ (imm 0x0) (reg DX), ADDQ (reg SI) (reg AX), ADCQ (imm 0x0) (reg DX),
  MOVQ (reg DX) (reg SI), MOVQ (reg AX) (reg DI), MOVQ (sp 32) (reg DI),
  MOVQ (imm 0x1eabfffeb153ffff) (reg AX), MULQ (reg BP), ADDQ (reg DI) (reg AX),
  ADCQ (imm 0x0) (reg DX), ADDQ (reg SI) (reg AX), ADCQ (imm 0x0) (reg DX), MOVQ (reg DX) (reg SI),
  MOVQ (reg AX) (reg DI), MOVQ (reg DI) (sp 32), MOVQ (sp 40) (reg DI),
  MOVQ (imm 0x6730d2a0f6b0f624) (reg AX), MULQ (reg BP), ADDQ (reg DI) (reg AX),
  ADCQ (imm 0x0) (reg DX), ADDQ (reg SI) (reg AX), ADCQ (imm 0x0) (reg DX), MOVQ (reg DX) (reg SI),
  MOVQ (reg AX) (reg DI), MOVQ (reg DI) (sp 40), MOVQ (sp 48) (reg DI),
  MOVQ (imm 0x64774b84f38512bf) (reg AX), MULQ (reg BP), ADDQ (reg DI) (reg AX),
  ADCQ (imm 0x0) (reg DX), ADDQ (reg SI) (reg AX), ADCQ (imm 0x0) (reg DX), MOVQ (reg DX) (reg SI),
  MOVQ (reg AX) (reg DI), MOVQ (reg DI) (sp 48), MOVQ (sp 56) (reg DI),
  MOVQ (imm 0x4b1ba7b6434bacd7) (reg AX), MULQ (reg BP), ADDQ (reg DI) (reg AX),
  ADCQ (imm 0x0) (reg DX), ADDQ (reg SI) (reg AX), ADCQ (imm 0x0) (reg DX), MOVQ (reg DX) (reg SI),
  MOVQ (reg AX) (reg DI), MOVQ (reg DI) (sp 56), MOVQ (sp 64) (reg DI),
  MOVQ (imm 0x1a0111ea397fe69a) (reg AX), MULQ (reg BP), ADDQ (reg DI) (reg AX),
  ADCQ (imm 0x0) (reg DX), ADDQ (reg SI) (reg AX), ADCQ (imm 0x0) (reg DX), MOVQ (reg DX) (reg SI),
  MOVQ (reg AX) (reg DI), MOVQ (reg DI) (sp 64), XORQ (reg BX) (reg BX), MOVQ (sp 72) (reg AX),
  ADDQ (reg SI) (reg AX), ADCQ (imm 0x0) (reg BX), ADDQ (reg CX) (reg AX), ADCQ (imm 0x0) (reg BX),
  MOVQ (reg BX) (reg CX), MOVQ (reg AX) (sp 72), MOVQ (imm 0x89f3fffcfffcfffd) (reg AX),
  MOVQ (sp 32) (reg BP), MULQ (reg BP), MOVQ (reg AX) (reg BP), XORQ (reg SI) (reg SI),
  MOVQ (sp 32) (reg DI), MOVQ (imm 0xb9feffffffffaaab) (reg AX), MULQ (reg BP),
  ADDQ (reg DI) (reg AX), ADCQ (imm 0x0) (reg DX), ADDQ (reg SI) (reg AX), ADCQ (imm 0x0) (reg DX),
  MOVQ (reg DX) (reg SI), MOVQ (reg AX) (reg DI), MOVQ (sp 40) (reg DI),
  MOVQ (imm 0x1eabfffeb153ffff) (reg AX), MULQ (reg BP), ADDQ (reg DI) (reg AX),
  ADCQ (imm 0x0) (reg DX), ADDQ (reg SI) (reg AX), ADCQ (imm 0x0) (reg DX), MOVQ (reg DX) (reg SI),
  MOVQ (reg AX) (reg DI), MOVQ (reg DI) (sp 40), MOVQ (sp 48) (reg DI),
  MOVQ (imm 0x6730d2a0f6b0f624) (reg AX), MULQ (reg BP), ADDQ (reg DI) (reg AX),
  ADCQ (imm 0x0) (reg DX), ADDQ (reg SI) (reg AX), ADCQ (imm 0x0) (reg DX), MOVQ (reg DX) (reg SI),
  MOVQ (reg AX) (reg DI), MOVQ (reg DI) (sp 48), MOVQ (sp 56) (reg DI),
  MOVQ (imm 0x64774b84f38512bf) (reg AX), MULQ (reg BP), ADDQ (reg DI) (reg AX),
  ADCQ (imm 0x0) (reg DX), ADDQ (reg SI) (reg AX), ADCQ (imm 0x0) (reg DX), MOVQ (reg DX) (reg SI),
  MOVQ (reg AX) (reg DI), MOVQ (reg DI) (sp 56), MOVQ (sp 64) (reg DI),
  MOVQ (imm 0x4b1ba7b6434bacd7) (reg AX), MULQ (reg BP), ADDQ (reg DI) (reg AX),
  ADCQ (imm 0x0) (reg DX), ADDQ (reg SI) (reg AX), ADCQ (imm 0x0) (reg DX), MOVQ (reg DX) (reg SI),
  MOVQ (reg AX) (reg DI), MOVQ (reg DI) (sp 64), MOVQ (sp 72) (reg DI),
  MOVQ (imm 0x1a0111ea397fe69a) (reg AX), MULQ (reg BP), ADDQ (reg DI) (reg AX),
  ADCQ (imm 0x0) (reg DX), ADDQ (reg SI) (reg AX), ADCQ (imm 0x0) (reg DX), MOVQ (reg DX) (reg SI),
  MOVQ (reg AX) (reg DI), MOVQ (reg DI) (sp 72), XORQ (reg BX) (reg BX), MOVQ (sp 80) (reg AX),
  ADDQ (reg SI) (reg AX), ADCQ (imm 0x0) (reg BX), ADDQ (reg CX) (reg AX), ADCQ (imm 0x0) (reg BX),
  MOVQ (reg BX) (reg CX), MOVQ (reg AX) (sp 80), MOVQ (imm 0x89f3fffcfffcfffd) (reg AX),
  MOVQ (sp 40) (reg BP), MULQ (reg BP), MOVQ (reg AX) (reg BP), XORQ (reg SI) (reg SI),
  MOVQ (sp 40) (reg DI), MOVQ (imm 0xb9feffffffffaaab) (reg AX), MULQ (reg BP),
  ADDQ (reg DI) (reg AX), ADCQ (imm 0x0) (reg DX), ADDQ (reg SI) (reg AX), ADCQ (imm 0x0) (reg DX),
  MOVQ (reg DX) (reg SI), MOVQ (reg AX) (reg DI), MOVQ (sp 48) (reg DI),
  MOVQ (imm 0x1eabfffeb153ffff) (reg AX), MULQ (reg BP), ADDQ (reg DI) (reg AX),
  ADCQ (imm 0x0) (reg DX), ADDQ (reg SI) (reg AX), ADCQ (imm 0x0) (reg DX), MOVQ (reg DX) (reg SI),
  MOVQ (reg AX) (reg DI), MOVQ (reg DI) (sp 48), MOVQ (sp 56) (reg DI),
  MOVQ (imm 0x6730d2a0f6b0f624) (reg AX), MULQ (reg BP), ADDQ (reg DI) (reg AX),
  ADCQ (imm 0x0) (reg DX), ADDQ (reg SI) (reg AX), ADCQ (imm 0x0) (reg DX), MOVQ (reg DX) (reg SI),
  MOVQ (reg AX) (reg DI), MOVQ (reg DI) (sp 56), MOVQ (sp 64) (reg DI),
  MOVQ (imm 0x64774b84f38512bf) (reg AX), MULQ (reg BP), ADDQ (reg DI) (reg AX),
  ADCQ (imm 0x0) (reg DX), ADDQ (reg SI) (reg AX), ADCQ (imm 0x0) (reg DX), MOVQ (reg DX) (reg SI),
  MOVQ (reg AX) (reg DI), MOVQ (reg DI) (sp 64), MOVQ (sp 72) (reg DI),
  MOVQ (imm 0x4b1ba7b6434bacd7) (reg AX), MULQ (reg BP), ADDQ (reg DI) (reg AX),
  ADCQ (imm 0x0) (reg DX), ADDQ (reg SI) (reg AX), ADCQ (imm 0x0) (reg DX), MOVQ (reg DX) (reg SI),
  MOVQ (reg AX) (reg DI), MOVQ (reg DI) (sp 72), MOVQ (sp 80) (reg DI),
  MOVQ (imm 0x1a0111ea397fe69a) (reg AX), MULQ (reg BP), ADDQ (reg DI) (reg AX),
  ADCQ (imm 0x0) (reg DX), ADDQ (reg SI) (reg AX), ADCQ (imm 0x0) (reg DX), MOVQ (reg DX) (reg SI),
  MOVQ (reg AX) (reg DI), MOVQ (reg DI) (sp 80), XORQ (reg BX) (reg BX), MOVQ (sp 88) (reg AX),
  ADDQ (reg SI) (reg AX), ADCQ (imm 0x0) (reg BX), ADDQ (reg CX) (reg AX), ADCQ (imm 0x0) (reg BX),
  MOVQ (reg BX) (reg CX), MOVQ (reg AX) (sp 88), MOVQ (sp 48) (reg AX), MOVQ (reg AX) (fp 96),
  MOVQ (sp 56) (reg AX), MOVQ (reg AX) (fp 104), MOVQ (sp 64) (reg AX), MOVQ (reg AX) (fp 112),
  MOVQ (sp 72) (reg AX), MOVQ (reg AX) (fp 120), MOVQ (sp 80) (reg AX), MOVQ (reg AX) (fp 128),
  MOVQ (sp 88) (reg AX), MOVQ (reg AX) (fp 136)]

/-- `AddNoCarry`, primitivefuncs_amd64.s:1469-1494. -/
def addNoCarryText : List Instr := [
  MOVQ (fp 0) (reg AX), MOVQ (fp 48) (reg CX), MOVQ (fp 8) (reg DX), MOVQ (fp 56) (reg BX),
  MOVQ (fp 16) (reg BP), MOVQ (fp 64) (reg SI), MOVQ (fp 24) (reg DI), MOVQ (fp 72) (reg R8),
  MOVQ (fp 32) (reg R9), MOVQ (fp 80) (reg R10), MOVQ (fp 40) (reg R11), MOVQ (fp 88) (reg R12),
  ADDQ (reg AX) (reg CX), ADCQ (reg DX) (reg BX), ADCQ (reg BP) (reg SI), ADCQ (reg DI) (reg R8),
  ADCQ (reg R9) (reg R10), ADCQ (reg R11) (reg R12), MOVQ (reg CX) (fp 96), MOVQ (reg BX) (fp 104),
  MOVQ (reg SI) (fp 112), MOVQ (reg R8) (fp 120), MOVQ (reg R10) (fp 128), MOVQ (reg R12) (fp 136)]

/-- `SubNoBorrow`, primitivefuncs_amd64.s:1497-1522. -/
def subNoBorrowText : List Instr := [
  MOVQ (fp 0) (reg AX), MOVQ (fp 48) (reg CX), MOVQ (fp 8) (reg DX), MOVQ (fp 56) (reg BX),
  MOVQ (fp 16) (reg BP), MOVQ (fp 64) (reg SI), MOVQ (fp 24) (reg DI), MOVQ (fp 72) (reg R8),
  MOVQ (fp 32) (reg R9), MOVQ (fp 80) (reg R10), MOVQ (fp 40) (reg R11), MOVQ (fp 88) (reg R12),
  SUBQ (reg CX) (reg AX), SBBQ (reg BX) (reg DX), SBBQ (reg SI) (reg BP), SBBQ (reg R8) (reg DI),
  SBBQ (reg R10) (reg R9), SBBQ (reg R12) (reg R11), MOVQ (reg AX) (fp 96), MOVQ (reg DX) (fp 104),
  MOVQ (reg BP) (fp 112), MOVQ (reg DI) (fp 120), MOVQ (reg R9) (fp 128), MOVQ (reg R11) (fp 136)]

/-- A function of primitivefuncs_amd64.s with the sizes in its `TEXT` line, in words of 8 bytes: of its frame and of its
arguments with its results. How many of the latter are results is in its declaration, stub.go:10-33. -/
structure Fn where
  text : List Instr
  frame : Nat
  args : Nat
  results : Nat

/-- `MACWithCarry`, primitivefuncs_amd64.s:4, stub.go:33. -/
def macWithCarryFn : Fn := ⟨macWithCarryText, 0, 4, 2⟩
/-- `SubWithBorrow`, primitivefuncs_amd64.s:29, stub.go:29. -/
def subWithBorrowFn : Fn := ⟨subWithBorrowText, 0, 3, 2⟩
/-- `AddWithCarry`, primitivefuncs_amd64.s:55, stub.go:25. -/
def addWithCarryFn : Fn := ⟨addWithCarryText, 0, 3, 2⟩
/-- `MultiplyFQRepr`, primitivefuncs_amd64.s:79, stub.go:10. -/
def multiplyFQReprFn : Fn := ⟨multiplyFQReprText, 0, 12, 12⟩
/-- `MontReduce`, primitivefuncs_amd64.s:640, stub.go:13. -/
def montReduceFn : Fn := ⟨montReduceText, 12, 12, 6⟩
/-- `AddNoCarry`, primitivefuncs_amd64.s:1469, stub.go:17. -/
def addNoCarryFn : Fn := ⟨addNoCarryText, 0, 12, 6⟩
/-- `SubNoBorrow`, primitivefuncs_amd64.s:1497, stub.go:21. -/
def subNoBorrowFn : Fn := ⟨subNoBorrowText, 0, 12, 6⟩

/-- The functions of primitivefuncs_amd64.s:1-1522. -/
def functions : List Fn := [macWithCarryFn, subWithBorrowFn, addWithCarryFn, multiplyFQReprFn, montReduceFn,
  addNoCarryFn, subNoBorrowFn]

/-- A call of a function of primitivefuncs_amd64.s:1-1522 as its caller sees it. To a function with a frame Go's assembler
adds instructions that save `BP` before the body and restore it after (cmd/internal/obj/x86, not in
/repo); to one without a frame it adds none. -/
def Fn.call (f : Fn) (s : State) : State :=
  let t := run f.text s
  if f.frame = 0 then t else { t with reg := fun r => if r = .BP then s.reg .BP else t.reg r }

end Bls.Asm
