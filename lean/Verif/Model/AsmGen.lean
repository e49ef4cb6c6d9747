import Verif.Model.Asm
/-
The generator of the amd64 assembly, asm/asm.go. It is a Go program that builds, with the library avo,
one list of instructions per function. The instructions name virtual registers (`GP64()`) beside a few
processor registers; avo then assigns processor registers to the virtual ones and prints the file
primitivefuncs_amd64.s. The program is modelled up to the assignment: its loops run here as they do there and
leave the lists of instructions on virtual registers. avo itself is not modelled; that the printed file is one of
its lists with registers assigned correctly is checked (Verif/Props/AsmGen.lean). Comments (`Comment`, `Commentf`,
`Doc`), `Package` and `Generate` are left out.
-/
namespace Bls.AsmGen
open Bls.Asm (Reg State)

/-- A register of asm/asm.go:1-295: a processor register (`RAX`, `RBX`, `RDX`) or a virtual one made by `GP64()`. -/
inductive VReg
  | phys (r : Reg) | virt (n : Nat)
  deriving DecidableEq, Repr

/-- An operand of asm/asm.go:1-295, see `Bls.Asm.Opd`. -/
inductive VOpd
  | reg (r : VReg) | imm (i : W) | sp (i : Nat) | fp (i : Nat)
  deriving DecidableEq, Repr

/-- The instructions that asm/asm.go:1-295 uses, see `Bls.Asm.Instr`. -/
inductive VInstr
  | MOVQ (src dst : VOpd) | ADDQ (src dst : VOpd) | ADCQ (src dst : VOpd)
  | SUBQ (src dst : VOpd) | SBBQ (src dst : VOpd) | MULQ (src : VOpd)
  | XORQ (src dst : VOpd) | ORQ (src dst : VOpd) | SETCS (dst : VReg)
  deriving DecidableEq, Repr

/-- The processor of `Bls.Asm.State` with as many registers as asm/asm.go:1-295 asks for. -/
structure VState where
  reg : VReg → W
  sp : Nat → W
  fp : Nat → W
  cf : Bool

/-- The value of an operand of asm/asm.go:1-295. -/
def VState.get (s : VState) : VOpd → W
  | .reg r => s.reg r
  | .imm i => i
  | .sp i => s.sp i
  | .fp i => s.fp i

/-- Writing to an operand of asm/asm.go:1-295. -/
def VState.put (s : VState) : VOpd → W → VState
  | .reg r, v => { s with reg := fun x => if x = r then v else s.reg x }
  | .imm _, _ => s
  | .sp i, v => { s with sp := fun j => if j = i then v else s.sp j }
  | .fp i, v => { s with fp := fun j => if j = i then v else s.fp j }

/-- Setting the carry flag (asm/asm.go:1-295). -/
def VState.flag (s : VState) (b : Bool) : VState := { s with cf := b }

open Bls.Asm (bit)

/-- The instructions of asm/asm.go:1-295, as in `Bls.Asm.step`. -/
def vstep (s : VState) : VInstr → VState
  | .MOVQ a d => s.put d (s.get a)
  | .ADDQ a d => (s.put d (s.get d + s.get a)).flag
      (decide (2 ^ 64 ≤ (s.get d).toNat + (s.get a).toNat))
  | .ADCQ a d => (s.put d (s.get d + s.get a + bit s.cf)).flag
      (decide (2 ^ 64 ≤ (s.get d).toNat + (s.get a).toNat + (bit s.cf).toNat))
  | .SUBQ a d => (s.put d (s.get d - s.get a)).flag (decide ((s.get d).toNat < (s.get a).toNat))
  | .SBBQ a d => (s.put d (s.get d - s.get a - bit s.cf)).flag
      (decide ((s.get d).toNat < (s.get a).toNat + (bit s.cf).toNat))
  | .MULQ a =>
    ((s.put (.reg (.phys .AX)) (s.reg (.phys .AX) * s.get a)).put (.reg (.phys .DX))
      (UInt64.ofNat ((s.reg (.phys .AX)).toNat * (s.get a).toNat / 2 ^ 64))).flag
      (decide (2 ^ 64 ≤ (s.reg (.phys .AX)).toNat * (s.get a).toNat))
  | .XORQ a d => (s.put d (s.get d ^^^ s.get a)).flag false
  | .ORQ a d => (s.put d (s.get d ||| s.get a)).flag false
  | .SETCS r => s.put (.reg r) ((s.reg r &&& 0xffffffffffffff00) ||| bit s.cf)

/-- A function that asm/asm.go:1-295 builds, from `Implement` to `RET`. -/
def vrun (p : List VInstr) (s : VState) : VState := p.foldl vstep s

/-! The generator. -/

/-- The state of asm/asm.go:52-295 while it builds one function: the number of virtual registers made so far and
the instructions so far, last first. -/
abbrev Gen := StateM (Nat × List VInstr)

/-- `GP64()`, as in asm/asm.go:56: a new virtual register. -/
def gp64 : Gen VReg := modifyGet fun s => (.virt s.1, (s.1 + 1, s.2))

/-- One instruction, e.g. `MULQ(b)`, asm/asm.go:59. -/
def emit (i : VInstr) : Gen Unit := modify fun s => (s.1, i :: s.2)

/-- `Load(Param(..), reg)`, as in asm/asm.go:56: a `MOVQ` from the argument area; returns the register. The
offset of the argument follows from its place in the declaration in stub.go:1-33. -/
def load (i : Nat) (r : VReg) : Gen VReg := do
  emit (.MOVQ (.fp i) (.reg r))
  pure r

/-- `Store(reg, Return(..))`, as in asm/asm.go:70: a `MOVQ` to the result area. -/
def store (r : VReg) (i : Nat) : Gen Unit := emit (.MOVQ (.reg r) (.fp i))

/-- `RAX`. -/
def rax : VReg := .phys .AX
/-- `RBX`. -/
def rbx : VReg := .phys .BX
/-- `RDX`. -/
def rdx : VReg := .phys .DX

/-- The instructions of one function, `Implement(..)` to `RET()` in asm/asm.go:54-293. -/
def build (g : Gen Unit) : List VInstr := (g.run (0, [])).2.2.reverse

/-- `muladdc`, asm/asm.go:13-24, and `muladdcConst`, asm/asm.go:27-38, which differ in the type of `a` only. -/
def muladdc (loRef : VReg) (a : VOpd) (b carry : VReg) : Gen Unit := do
  emit (.MOVQ a (.reg rax))
  emit (.MULQ (.reg b))
  emit (.ADDQ (.reg loRef) (.reg rax))
  emit (.ADCQ (.imm 0) (.reg rdx))
  emit (.ADDQ (.reg carry) (.reg rax))
  emit (.ADCQ (.imm 0) (.reg rdx))
  emit (.MOVQ (.reg rdx) (.reg carry))
  emit (.MOVQ (.reg rax) (.reg loRef))

/-- `QFieldModulus`, asm/asm.go:40. -/
def qFieldModulus : List W := [0xb9feffffffffaaab, 0x1eabfffeb153ffff, 0x6730d2a0f6b0f624, 0x64774b84f38512bf,
  0x4b1ba7b6434bacd7, 0x1a0111ea397fe69a]

/-- `montInvFQ`, asm/asm.go:42. -/
def montInvFQ : W := 0x89f3fffcfffcfffd

/-- `r`, asm/asm.go:44-50: word `i` of the 768-bit number in the arguments `hi`, `lo` of `MontReduce`; `hi` is at
offset 0 and `lo` at 48 (stub.go:13). -/
def r (i : Nat) : Nat := if i ≥ 6 then 8 * (i % 6) else 48 + 8 * i

/-- `MACWithCarry`, asm/asm.go:54-72; `a`, `b`, `c`, `carry` and the results at 0, 8, .., 40 (stub.go:33). -/
def macWithCarry : List VInstr := build do
  let b ← load 8 (← gp64)
  let c ← load 16 rax
  emit (.MULQ (.reg b))
  let a ← load 0 (← gp64)
  emit (.ADDQ (.reg a) (.reg c))
  emit (.ADCQ (.imm 0) (.reg rdx))
  let carry ← load 24 (← gp64)
  emit (.ADDQ (.reg carry) (.reg c))
  emit (.ADCQ (.imm 0) (.reg rdx))
  store c 32
  store rdx 40

/-- `SubWithBorrow`, asm/asm.go:74-95; `a`, `b`, `borrow` and the results at 0, 8, .., 32 (stub.go:29). -/
def subWithBorrow : List VInstr := build do
  let a ← load 0 (← gp64)
  let b ← load 8 (← gp64)
  let newBorrow1 ← gp64
  emit (.XORQ (.reg newBorrow1) (.reg newBorrow1))
  emit (.SUBQ (.reg b) (.reg a))
  emit (.SETCS newBorrow1)
  let borrow ← load 16 (← gp64)
  let newBorrow2 ← gp64
  emit (.XORQ (.reg newBorrow2) (.reg newBorrow2))
  emit (.SUBQ (.reg borrow) (.reg a))
  emit (.SETCS newBorrow2)
  emit (.ORQ (.reg newBorrow1) (.reg newBorrow2))
  store a 24
  store newBorrow2 32

/-- `AddWithCarry`, asm/asm.go:97-115; `a`, `b`, `carry` and the results at 0, 8, .., 32 (stub.go:25). -/
def addWithCarry : List VInstr := build do
  let a ← load 0 (← gp64)
  let b ← load 8 (← gp64)
  let carry ← load 16 (← gp64)
  let newCarry ← gp64
  emit (.XORQ (.reg newCarry) (.reg newCarry))
  emit (.ADDQ (.reg b) (.reg a))
  emit (.ADCQ (.imm 0) (.reg newCarry))
  emit (.ADDQ (.reg carry) (.reg a))
  emit (.ADCQ (.imm 0) (.reg newCarry))
  store a 24
  store newCarry 32

/-- The body of the loop over `j` of `MultiplyFQRepr`, asm/asm.go:158-170; `used` is `registersUsed`. -/
def multiplyInner (registers : List VReg) (carry : VReg) (i : Nat) (used : List Bool) (j : Nat) :
    Gen (List Bool) := do
  let ai ← load (0 + 8 * i) rax
  let bj ← load (48 + 8 * j) rbx
  let reg := registers.getD (i + j) rax
  let used ← if !used.getD (i + j) false then do
      emit (.XORQ (.reg reg) (.reg reg))
      pure (used.set (i + j) true)
    else pure used
  muladdc reg (.reg ai) bj carry
  pure used

/-- The body of the loop over `i` of `MultiplyFQRepr`, asm/asm.go:153-174. -/
def multiplyOuter (registers : List VReg) (used : List Bool) (i : Nat) : Gen (List Bool) := do
  let carry ← gp64
  emit (.XORQ (.reg carry) (.reg carry))
  let used ← (List.range 6).foldlM (multiplyInner registers carry i) used
  emit (.MOVQ (.reg carry) (.reg (registers.getD (i + 6) rax)))
  pure (used.set (i + 6) true)

/-- `MultiplyFQRepr`, asm/asm.go:145-184; `a`, `b`, `hi`, `lo` at 0, 48, 96, 144 (stub.go:10). -/
def multiplyFQRepr : List VInstr := build do
  let registers ← (List.range 12).mapM fun _ => gp64
  let _ ← (List.range 6).foldlM (multiplyOuter registers) (List.replicate 12 false)
  (List.range 6).forM fun i => store (registers.getD i rax) (144 + 8 * i)
  (List.range 6).forM fun i => store (registers.getD (i + 6) rax) (96 + 8 * i)

/-- The body of the loop over `j` of `MontReduce`, asm/asm.go:218-229. -/
def montReduceInner (k carry : VReg) (i j : Nat) : Gen Unit := do
  let regValue ← gp64
  emit (.MOVQ (.sp (8 * (i + j))) (.reg regValue))
  muladdc regValue (.imm (qFieldModulus.getD j 0)) k carry
  if j ≠ 0 then emit (.MOVQ (.reg regValue) (.sp (8 * (i + j))))

/-- The body of the loop over `i` of `MontReduce`, asm/asm.go:206-246. -/
def montReduceOuter (carryOver newCarry lastReg k carry : VReg) (i : Nat) : Gen Unit := do
  emit (.MOVQ (.imm montInvFQ) (.reg rax))
  emit (.MOVQ (.sp (8 * i)) (.reg k))
  emit (.MULQ (.reg k))
  emit (.MOVQ (.reg rax) (.reg k))
  emit (.XORQ (.reg carry) (.reg carry))
  (List.range 6).forM (montReduceInner k carry i)
  emit (.XORQ (.reg newCarry) (.reg newCarry))
  emit (.MOVQ (.sp (8 * (i + 6))) (.reg lastReg))
  emit (.ADDQ (.reg carry) (.reg lastReg))
  emit (.ADCQ (.imm 0) (.reg newCarry))
  emit (.ADDQ (.reg carryOver) (.reg lastReg))
  emit (.ADCQ (.imm 0) (.reg newCarry))
  emit (.MOVQ (.reg newCarry) (.reg carryOver))
  emit (.MOVQ (.reg lastReg) (.sp (8 * (i + 6))))

/-- `MontReduce`, asm/asm.go:186-253; `AllocLocal(8 * 12)` is the frame from offset 0 on; `hi`, `lo`, `out` at 0,
48, 96 (stub.go:13). -/
def montReduce : List VInstr := build do
  let tempReg ← gp64
  (List.range 12).forM fun i => do
    let _ ← load (r i) tempReg
    emit (.MOVQ (.reg tempReg) (.sp (8 * i)))
  let carryOver ← gp64
  emit (.XORQ (.reg carryOver) (.reg carryOver))
  let newCarry ← gp64
  let lastReg ← gp64
  let k ← gp64
  let carry ← gp64
  (List.range 6).forM (montReduceOuter carryOver newCarry lastReg k carry)
  let tempReg ← gp64
  (List.range 6).forM fun i => do
    emit (.MOVQ (.sp (8 * (i + 6))) (.reg tempReg))
    store tempReg (96 + 8 * i)

/-- The loads of `AddNoCarry` and `SubNoBorrow`, asm/asm.go:259-262, 279-282. -/
def loadPairs : Gen (List (VReg × VReg)) := (List.range 6).mapM fun i => do
  let a ← load (0 + 8 * i) (← gp64)
  let b ← load (48 + 8 * i) (← gp64)
  pure (a, b)

/-- `AddNoCarry`, asm/asm.go:255-273; `a`, `b` and the result at 0, 48, 96 (stub.go:17). -/
def addNoCarry : List VInstr := build do
  let regs ← loadPairs
  let x := regs.getD 0 (rax, rax)
  emit (.ADDQ (.reg x.1) (.reg x.2))
  (List.range' 1 5).forM fun i =>
    let x := regs.getD i (rax, rax)
    emit (.ADCQ (.reg x.1) (.reg x.2))
  (List.range 6).forM fun i => store (regs.getD i (rax, rax)).2 (96 + 8 * i)

/-- `SubNoBorrow`, asm/asm.go:275-293; `a`, `b` and the result at 0, 48, 96 (stub.go:21). -/
def subNoBorrow : List VInstr := build do
  let regs ← loadPairs
  let x := regs.getD 0 (rax, rax)
  emit (.SUBQ (.reg x.2) (.reg x.1))
  (List.range' 1 5).forM fun i =>
    let x := regs.getD i (rax, rax)
    emit (.SBBQ (.reg x.2) (.reg x.1))
  (List.range 6).forM fun i => store (regs.getD i (rax, rax)).1 (96 + 8 * i)

end Bls.AsmGen
