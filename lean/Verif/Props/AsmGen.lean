import Verif.Props.Asm
import Verif.Proof.AsmGen
/-
C59: the assembly functions keep what belongs to their caller. `Fn.KeepsMemory` and `Fn.KeepsBP` are in
Verif/Spec/Asm.lean.
C60: the assembly file is what its generator describes. The programs of the generator are those of
Verif/Model/AsmGen.lean, `vrun` runs one; `Assigns` is in Verif/Spec/AsmGen.lean.
-/
namespace Bls.Props
open Bls.Asm

/-- What an instruction writes, beside the flag. -/
def dests : Instr → List Opd
  | .MOVQ _ d | .ADDQ _ d | .ADCQ _ d | .SUBQ _ d | .SBBQ _ d | .XORQ _ d | .ORQ _ d => [d]
  | .MULQ _ => [.reg .AX, .reg .DX]
  | .SETCS r => [.reg r]

theorem get_put_ne {s : State} {d x : Opd} {v : W} (h : x ≠ d) : (s.put d v).get x = s.get x := by
  cases d <;> cases x <;> first
    | rfl
    | exact if_neg fun e => h (congrArg _ e)

theorem get_step {s : State} {i : Instr} {x : Opd} (h : x ∉ dests i) : (step s i).get x = s.get x := by
  have hf : ∀ (s : State) (b : Bool), (s.flag b).get x = s.get x := fun s b => by cases x <;> rfl
  cases i <;> simp only [dests, List.mem_cons, List.not_mem_nil, or_false, not_or] at h <;>
    simp only [step, hf]
  case MULQ => rw [get_put_ne h.2, get_put_ne h.1]
  all_goals exact get_put_ne h

theorem get_run {p : List Instr} {s : State} {x : Opd} (h : ∀ i ∈ p, x ∉ dests i) : (run p s).get x = s.get x := by
  induction p generalizing s with
  | nil => rfl
  | cons i p ih =>
    exact (ih fun j hj => h j (List.mem_cons_of_mem _ hj)).trans (get_step (h i List.mem_cons_self))

/-- Only registers, words of the results and words of the frame are written. -/
def okDest (f : Fn) : Opd → Bool
  | .fp i => i % 8 == 0 && decide (f.args ≤ i / 8) && decide (i / 8 < f.args + f.results)
  | .sp i => i % 8 == 0 && decide (i / 8 < f.frame)
  | _ => true

theorem keepsMemory {f : Fn} (h : (f.text.all fun i => (dests i).all (okDest f)) = true) : f.KeepsMemory := by
  have hd : ∀ i ∈ f.text, ∀ d ∈ dests i, okDest f d = true := fun i hi d hd =>
    List.all_eq_true.mp (List.all_eq_true.mp h i hi) d hd
  intro s
  refine ⟨fun i hi => ?_, fun i hi => ?_⟩
  · have e : (f.call s).fp i = (run f.text s).get (.fp i) := by
      unfold Fn.call
      dsimp only
      split <;> rfl
    rw [e]
    refine get_run fun j hj hm => hi ?_
    have := hd j hj _ hm
    simp only [okDest, Bool.and_eq_true, beq_iff_eq, decide_eq_true_eq] at this
    exact ⟨i / 8, this.1.2, this.2, by omega⟩
  · have e : (f.call s).sp i = (run f.text s).get (.sp i) := by
      unfold Fn.call
      dsimp only
      split <;> rfl
    rw [e]
    refine get_run fun j hj hm => hi ?_
    have := hd j hj _ hm
    simp only [okDest, Bool.and_eq_true, beq_iff_eq, decide_eq_true_eq] at this
    exact ⟨i / 8, this.2, by omega⟩

/-- No assembly function changes memory of its caller other than its results. -/
theorem C59_memory : ∀ f ∈ functions, f.KeepsMemory := by
  intro f hf
  refine keepsMemory ?_
  revert f
  decide +kernel

/-- What is known to depend on the arguments only: operands, and the carry flag. -/
structure Known where
  opds : List Opd
  cf : Bool

/-- The value of the operand is known. -/
def Known.has (k : Known) : Opd → Bool
  | .imm _ => true
  | x => k.opds.contains x

/-- The operand is written, with something known or not. -/
def Known.put (k : Known) (d : Opd) (b : Bool) : Known :=
  { k with opds := if b then d :: k.opds else k.opds.filter (· ≠ d) }

/-- What is known after an instruction. -/
def Known.step (k : Known) : Instr → Known
  | .MOVQ a d => k.put d (k.has a)
  | .ADDQ a d | .SUBQ a d => { k.put d (k.has d && k.has a) with cf := k.has d && k.has a }
  | .ADCQ a d | .SBBQ a d => { k.put d (k.has d && k.has a && k.cf) with cf := k.has d && k.has a && k.cf }
  | .MULQ a => { (k.put (.reg .AX) (k.has (.reg .AX) && k.has a)).put (.reg .DX) (k.has (.reg .AX) && k.has a) with
      cf := k.has (.reg .AX) && k.has a }
  | .XORQ a d => { k.put d (a = d || (k.has d && k.has a)) with cf := true }
  | .ORQ a d => { k.put d (k.has d && k.has a) with cf := true }
  | .SETCS r => k.put (.reg r) (k.has (.reg r) && k.cf)

/-- The two states agree on what is known. -/
structure Known.Agree (k : Known) (s s' : State) : Prop where
  opds : ∀ x, k.has x = true → s.get x = s'.get x
  cf : k.cf = true → s.cf = s'.cf

theorem get_put_self {s : State} {d : Opd} {v : W} (h : ∀ i, d ≠ .imm i) : (s.put d v).get d = v := by
  cases d <;> first | exact if_pos rfl | exact absurd rfl (h _)

theorem Known.Agree.put {k : Known} {s s' : State} (h : k.Agree s s') (d : Opd) (b : Bool) {v v' : W}
    (hv : b = true → v = v') : (k.put d b).Agree (s.put d v) (s'.put d v') := by
  refine ⟨fun x hx => ?_, fun hc => ?_⟩
  · by_cases hxd : x = d
    · subst hxd
      by_cases hi : ∃ i, x = .imm i
      · obtain ⟨i, rfl⟩ := hi; rfl
      · have hi' : ∀ i, x ≠ .imm i := fun i e => hi ⟨i, e⟩
        rw [get_put_self hi', get_put_self hi']
        apply hv
        by_contra hb
        cases x <;> first
          | exact absurd rfl (hi' _)
          | simp [Known.put, Known.has, hb] at hx
    · rw [get_put_ne hxd, get_put_ne hxd]
      apply h.opds
      cases x with
      | imm i => rfl
      | _ =>
        simp only [Known.has, Known.put, List.contains_iff_mem] at hx ⊢
        split at hx
        · rcases List.mem_cons.mp hx with e | e
          · exact absurd e hxd
          · exact e
        · exact (List.mem_filter.mp hx).1
  · have : ∀ (s : State) (v : W), (s.put d v).cf = s.cf := fun s v => by cases d <;> rfl
    rw [this, this]; exact h.cf hc

theorem Known.Agree.flag {k : Known} {s s' : State} (h : k.Agree s s') {c b b' : Bool} (hc : c = true → b = b') :
    ({ k with cf := c } : Known).Agree (s.flag b) (s'.flag b') := by
  refine ⟨fun x hx => ?_, hc⟩
  have hf : ∀ (s : State) (b : Bool), (s.flag b).get x = s.get x := fun s b => by cases x <;> rfl
  rw [hf, hf]
  exact h.opds x (by cases x <;> exact hx)

theorem Known.Agree.step {k : Known} {s s' : State} (h : k.Agree s s') (i : Instr) :
    (k.step i).Agree (Asm.step s i) (Asm.step s' i) := by
  have two : ∀ {a d : Opd}, (k.has d && k.has a) = true → s.get d = s'.get d ∧ s.get a = s'.get a := fun hb =>
    ⟨h.opds _ (Bool.and_eq_true _ _ ▸ hb).1, h.opds _ (Bool.and_eq_true _ _ ▸ hb).2⟩
  have three : ∀ {a d : Opd}, (k.has d && k.has a && k.cf) = true → (s.get d = s'.get d ∧ s.get a = s'.get a) ∧
      s.cf = s'.cf := fun hb =>
    ⟨two (Bool.and_eq_true _ _ ▸ hb).1, h.cf (Bool.and_eq_true _ _ ▸ hb).2⟩
  cases i with
  | MOVQ a d => exact h.put d _ (h.opds a)
  | ADDQ a d =>
    exact (h.put d _ fun hb => by rw [(two hb).1, (two hb).2]).flag fun hb => by rw [(two hb).1, (two hb).2]
  | SUBQ a d =>
    exact (h.put d _ fun hb => by rw [(two hb).1, (two hb).2]).flag fun hb => by rw [(two hb).1, (two hb).2]
  | ADCQ a d =>
    exact (h.put d _ fun hb => by rw [(three hb).1.1, (three hb).1.2, (three hb).2]).flag fun hb => by
      rw [(three hb).1.1, (three hb).1.2, (three hb).2]
  | SBBQ a d =>
    exact (h.put d _ fun hb => by rw [(three hb).1.1, (three hb).1.2, (three hb).2]).flag fun hb => by
      rw [(three hb).1.1, (three hb).1.2, (three hb).2]
  | MULQ a =>
    have two' : (k.has (.reg .AX) && k.has a) = true → s.reg .AX = s'.reg .AX ∧ s.get a = s'.get a := two
    exact ((h.put (.reg .AX) _ fun hb => by rw [(two' hb).1, (two' hb).2]).put (.reg .DX) _ fun hb => by
      rw [(two' hb).1, (two' hb).2]).flag fun hb => by rw [(two' hb).1, (two' hb).2]
  | XORQ a d =>
    refine (h.put d _ fun hb => ?_).flag fun _ => rfl
    simp only [Bool.or_eq_true, decide_eq_true_eq] at hb
    rcases hb with rfl | hb
    · rw [UInt64.xor_self, UInt64.xor_self]
    · rw [(two hb).1, (two hb).2]
  | ORQ a d => exact (h.put d _ fun hb => by rw [(two hb).1, (two hb).2]).flag fun _ => rfl
  | SETCS r =>
    refine h.put (.reg r) _ fun hb => ?_
    have h1 : s.reg r = s'.reg r := h.opds (.reg r) (Bool.and_eq_true _ _ ▸ hb).1
    rw [h1, h.cf (Bool.and_eq_true _ _ ▸ hb).2]

theorem Known.Agree.run : ∀ (p : List Instr) {k : Known} {s s' : State}, k.Agree s s' →
    (p.foldl Known.step k).Agree (Asm.run p s) (Asm.run p s')
  | [], _, _, _, h => h
  | i :: p, _, _, _, h => Known.Agree.run p (h.step i)

/-- The words from number `n` on, `l` of them. -/
def fpWords (n l : Nat) : List Opd := (List.range l).map fun k => .fp (8 * (n + k))

theorem resultsOfArgs {f : Fn} (h : ((fpWords f.args f.results).all
    (f.text.foldl Known.step ⟨fpWords 0 f.args, false⟩).has) = true) : f.ResultsOfArgs := by
  intro s s' ha k hk hk'
  have e : ∀ s : State, (f.call s).fp (8 * k) = (Asm.run f.text s).get (.fp (8 * k)) := fun s => by
    unfold Fn.call
    dsimp only
    split <;> rfl
  rw [e, e]
  have h0 : (⟨fpWords 0 f.args, false⟩ : Known).Agree s s' := by
    refine ⟨fun x hx => ?_, fun hc => by cases hc⟩
    cases x with
    | imm i => rfl
    | _ =>
      simp only [Known.has, List.contains_iff_mem, fpWords, List.mem_map, List.mem_range] at hx
      obtain ⟨j, hj, hx⟩ := hx
      cases hx
      try exact (by rw [Nat.zero_add]; exact ha j hj)
  refine (Known.Agree.run f.text h0).opds _ (List.all_eq_true.mp h _ ?_)
  exact List.mem_map.mpr ⟨k - f.args, List.mem_range.mpr (by omega), by congr 2; omega⟩

/-- Every word that the declaration of an assembly function gives as a result is computed from the words that it gives as
arguments: none is left as it was, and nothing else that the memory or the registers hold gets into the results. -/
theorem C59_results : ∀ f ∈ functions, f.ResultsOfArgs := by
  intro f hf
  refine resultsOfArgs ?_
  revert f
  decide +kernel

/-- The four other functions keep `BP`; see `C59_bp_false` for those that do not. -/
theorem C59_bp_partial : ∀ f ∈ [macWithCarryFn, subWithBorrowFn, addWithCarryFn, montReduceFn], f.KeepsBP := by
  intro f hf
  by_cases h : f.frame = 0
  · have hd : ∀ f ∈ [macWithCarryFn, subWithBorrowFn, addWithCarryFn, montReduceFn], f.frame = 0 →
        (f.text.all fun i => !(dests i).contains (.reg .BP)) = true := by
      decide +kernel
    intro s
    simp only [Fn.call, if_pos h]
    refine get_run (x := .reg .BP) fun i hi hm => ?_
    have := List.all_eq_true.mp (hd f hf h) i hi
    rw [List.contains_iff_mem.mpr hm] at this
    cases this
  · intro s
    simp only [Fn.call, if_neg h, if_true]

/-- **A defect.** The three functions on whole numbers use `BP` as a scratch register although they have no frame: after a
call the frame pointer of the caller is lost. -/
theorem C59_bp_false : ¬ multiplyFQReprFn.KeepsBP ∧ ¬ addNoCarryFn.KeepsBP ∧ ¬ subNoBorrowFn.KeepsBP := by
  refine ⟨fun h => ?_, fun h => ?_, fun h => ?_⟩ <;>
  exact absurd (h ⟨fun _ => 1, fun _ => 0, fun _ => 0, false⟩) (by decide +kernel)

open Bls.AsmGen (vrun VState Assigns)

theorem assigns_mac : Assigns macWithCarryText AsmGen.macWithCarry := by decide +kernel
theorem assigns_sub : Assigns subWithBorrowText AsmGen.subWithBorrow := by decide +kernel
theorem assigns_add : Assigns addWithCarryText AsmGen.addWithCarry := by decide +kernel
theorem assigns_multiply : Assigns multiplyFQReprText AsmGen.multiplyFQRepr := by decide +kernel
theorem assigns_montReduce : Assigns montReduceText AsmGen.montReduce := by decide +kernel
theorem assigns_addNoCarry : Assigns addNoCarryText AsmGen.addNoCarry := by decide +kernel
theorem assigns_subNoBorrow : Assigns subNoBorrowText AsmGen.subNoBorrow := by decide +kernel

/-- Each function of the assembly file leaves the same arguments and results as the program of the generator, whatever
the registers (real and virtual), frames and flags hold before. -/
theorem C60_text (s : State) (t : VState) (h : s.fp = t.fp) :
    (run macWithCarryText s).fp = (vrun AsmGen.macWithCarry t).fp ∧
    (run subWithBorrowText s).fp = (vrun AsmGen.subWithBorrow t).fp ∧
    (run addWithCarryText s).fp = (vrun AsmGen.addWithCarry t).fp ∧
    (run multiplyFQReprText s).fp = (vrun AsmGen.multiplyFQRepr t).fp ∧
    (run montReduceText s).fp = (vrun AsmGen.montReduce t).fp ∧
    (run addNoCarryText s).fp = (vrun AsmGen.addNoCarry t).fp ∧
    (run subNoBorrowText s).fp = (vrun AsmGen.subNoBorrow t).fp :=
  ⟨assigns_mac.sound s t h, assigns_sub.sound s t h, assigns_add.sound s t h, assigns_multiply.sound s t h,
    assigns_montReduce.sound s t h, assigns_addNoCarry.sound s t h, assigns_subNoBorrow.sound s t h⟩

/-- What a text returns any other text for the same program returns. -/
theorem returns_of_assigns {text text' : List Instr} {prog : List AsmGen.VInstr} (h : Assigns text prog)
    (h' : Assigns text' prog) {args results : List W} (r : Returns text args results) :
    Returns text' args results := by
  intro s hs k hk
  have e := (h.sound s ⟨fun _ => 0, s.sp, s.fp, s.cf⟩ rfl).trans (h'.sound s ⟨fun _ => 0, s.sp, s.fp, s.cf⟩ rfl).symm
  rw [← e]
  exact r s hs k hk

/-- Any other assignment of registers gives the same functions: a file generated anew, with other registers, computes
what the portable functions compute. -/
theorem C60_any (text : List Instr) :
    (Assigns text AsmGen.macWithCarry → ∀ a b c carry : W, Returns text [a, b, c, carry]
      [(macWithCarry a b c carry).1, (macWithCarry a b c carry).2]) ∧
    (Assigns text AsmGen.subWithBorrow → ∀ a b borrow : W, borrow.toNat ≤ 1 → Returns text [a, b, borrow]
      [(subWithBorrow a b borrow).1, (subWithBorrow a b borrow).2]) ∧
    (Assigns text AsmGen.addWithCarry → ∀ a b carry : W, Returns text [a, b, carry]
      [(addWithCarry a b carry).1, (addWithCarry a b carry).2]) ∧
    (Assigns text AsmGen.multiplyFQRepr → ∀ a b : FQRepr, Returns text (a.words ++ b.words)
      ((a.multiply b).1.words ++ (a.multiply b).2.words)) ∧
    (Assigns text AsmGen.montReduce → ∀ hi lo : FQRepr, Returns text (hi.words ++ lo.words)
      (montReduceRepr hi lo).words) ∧
    (Assigns text AsmGen.addNoCarry → ∀ a b : FQRepr, Returns text (a.words ++ b.words) (a.addNoCarry b).words) ∧
    (Assigns text AsmGen.subNoBorrow → ∀ a b : FQRepr, Returns text (a.words ++ b.words) (a.subNoBorrow b).words) :=
  ⟨fun h a b c d => returns_of_assigns assigns_mac h (C10_macWithCarry a b c d),
    fun h a b c hc => returns_of_assigns assigns_sub h (C10_subWithBorrow a b c hc),
    fun h a b c => returns_of_assigns assigns_add h (C10_addWithCarry a b c),
    fun h a b => returns_of_assigns assigns_multiply h (C10_multiplyFQRepr a b),
    fun h a b => returns_of_assigns assigns_montReduce h (C10_montReduce a b),
    fun h a b => returns_of_assigns assigns_addNoCarry h (C10_addNoCarry a b),
    fun h a b => returns_of_assigns assigns_subNoBorrow h (C10_subNoBorrow a b)⟩

/-- Another assignment: `MACWithCarry` with `SI` and `DI` in place of `CX`. -/
example : Assigns [.MOVQ (.fp 8) (.reg .SI), .MOVQ (.fp 16) (.reg .AX), .MULQ (.reg .SI), .MOVQ (.fp 0) (.reg .DI),
    .ADDQ (.reg .DI) (.reg .AX), .ADCQ (.imm 0) (.reg .DX), .MOVQ (.fp 24) (.reg .SI), .ADDQ (.reg .SI) (.reg .AX),
    .ADCQ (.imm 0) (.reg .DX), .MOVQ (.reg .AX) (.fp 32), .MOVQ (.reg .DX) (.fp 40)] AsmGen.macWithCarry := by
  decide +kernel

/-- Not an assignment: `a` is loaded to `DX`, which holds the high word of the product. -/
example : ¬ Assigns [.MOVQ (.fp 8) (.reg .CX), .MOVQ (.fp 16) (.reg .AX), .MULQ (.reg .CX), .MOVQ (.fp 0) (.reg .DX),
    .ADDQ (.reg .DX) (.reg .AX), .ADCQ (.imm 0) (.reg .DX), .MOVQ (.fp 24) (.reg .CX), .ADDQ (.reg .CX) (.reg .AX),
    .ADCQ (.imm 0) (.reg .DX), .MOVQ (.reg .AX) (.fp 32), .MOVQ (.reg .DX) (.fp 40)] AsmGen.macWithCarry := by
  decide +kernel

end Bls.Props
