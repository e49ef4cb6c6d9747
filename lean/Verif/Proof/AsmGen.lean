import Verif.Spec.AsmGen
/- A text that follows a program on virtual registers leaves the same results. -/
namespace Bls.AsmGen
open Bls.Asm (Reg Opd Instr State bit step run)

/-- What is known holds of the two processors. -/
structure Known.Holds (k : Known) (s : State) (t : VState) : Prop where
  regs : ∀ x ∈ k.regs, s.reg x.1 = t.reg x.2
  frame : ∀ i ∈ k.frame, s.sp i = t.sp i
  fp : s.fp = t.fp
  flag : k.flag = true → s.cf = t.cf

theorem Known.Holds.get {k : Known} {s : State} {t : VState} (h : k.Holds s t) {a : Opd} {b : VOpd}
    (e : k.Same a b = true) : s.get a = t.get b := by
  cases a <;> cases b <;> simp only [Known.Same, Bool.false_eq_true, List.contains_iff_mem, beq_iff_eq,
    Bool.and_eq_true] at e
  · exact h.regs _ e
  · exact e
  · obtain ⟨rfl, e⟩ := e
    exact h.frame _ e
  · subst e
    exact congrFun h.fp _

theorem Known.Holds.put {k k' : Known} {s : State} {t : VState} (h : k.Holds s t) {d : Opd} {e : VOpd}
    (w : k.write d e = some k') {x y : W} (v : x = y) : k'.Holds (s.put d x) (t.put e y) := by
  subst v
  cases d <;> cases e <;> simp only [Known.write, Option.some.injEq, reduceCtorEq] at w
  case reg.reg r v =>
    subst w
    refine ⟨fun y hy => ?_, h.frame, h.fp, h.flag⟩
    rcases List.mem_cons.mp hy with rfl | hy
    · exact (if_pos rfl).trans (if_pos rfl).symm
    · obtain ⟨hy, ne⟩ := List.mem_filter.mp hy
      simp only [Bool.and_eq_true, bne_iff_ne, ne_eq] at ne
      exact (if_neg ne.1).trans ((h.regs _ hy).trans (if_neg ne.2).symm)
  case sp.sp i j =>
    split at w
    case isFalse => cases w
    case isTrue e =>
      subst e
      cases w
      refine ⟨h.regs, fun a ha => ?_, h.fp, h.flag⟩
      by_cases e : a = i
      · exact (if_pos e).trans (if_pos e).symm
      · refine (if_neg e).trans (Eq.trans (h.frame _ ?_) (if_neg e).symm)
        dsimp only at ha
        split at ha
        · exact ha
        · exact (List.mem_cons.mp ha).resolve_left e
  case fp.fp i j =>
    split at w
    case isFalse => cases w
    case isTrue e =>
      subst e
      cases w
      refine ⟨h.regs, h.frame, funext fun a => ?_, h.flag⟩
      change (if a = i then x else s.fp a) = if a = i then x else t.fp a
      rw [h.fp]

theorem Known.Holds.setFlag {k : Known} {s : State} {t : VState} (h : k.Holds s t) {b c : Bool} (e : b = c) :
    k.flagged.Holds (s.flag b) (t.flag c) := ⟨h.regs, h.frame, h.fp, fun _ => e⟩

theorem Known.Holds.xor {s : State} {t : VState} {a d : Opd} {b e : VOpd} {k : Known} (h : k.Holds s t)
    (c : ((a == d && b == e) || (k.Same a b && k.Same d e)) = true) :
    s.get d ^^^ s.get a = t.get e ^^^ t.get b := by
  simp only [Bool.or_eq_true, Bool.and_eq_true, beq_iff_eq] at c
  rcases c with ⟨rfl, rfl⟩ | ⟨c1, c2⟩
  · rw [UInt64.xor_self, UInt64.xor_self]
  · rw [h.get c1, h.get c2]

theorem Known.Holds.step {k k' : Known} {s : State} {t : VState} (h : k.Holds s t) {i : Instr} {j : VInstr}
    (e : k.step i j = some k') : k'.Holds (Asm.step s i) (vstep t j) := by
  cases i <;> cases j <;> simp only [Known.step, reduceCtorEq] at e
  all_goals
    split at e
    case isFalse => cases e
    rename_i c
  case MOVQ.MOVQ => exact h.put e (h.get c)
  case XORQ.XORQ =>
    obtain ⟨k1, w, rfl⟩ := Option.map_eq_some_iff.mp e
    exact (h.put w (h.xor c)).setFlag rfl
  case SETCS.SETCS =>
    rw [Bool.and_eq_true] at c
    have c1 : s.reg _ = t.reg _ := h.get c.1
    simp only [Asm.step, vstep, c1, h.flag c.2]
    exact h.put e rfl
  case MULQ.MULQ =>
    rw [Bool.and_eq_true] at c
    obtain ⟨k1, w, rfl⟩ := Option.map_eq_some_iff.mp e
    obtain ⟨k2, w2, w⟩ := Option.bind_eq_some_iff.mp w
    have c1 := h.get c.1
    have c2 : s.reg .AX = t.reg (.phys .AX) := h.get c.2
    simp only [Asm.step, vstep, c1, c2]
    exact ((h.put w2 rfl).put w rfl).setFlag rfl
  all_goals
    obtain ⟨k1, w, rfl⟩ := Option.map_eq_some_iff.mp e
    simp only [Bool.and_eq_true] at c
  case ADDQ.ADDQ | SUBQ.SUBQ | ORQ.ORQ =>
    simp only [Asm.step, vstep, h.get c.1, h.get c.2]
    exact (h.put w rfl).setFlag rfl
  case ADCQ.ADCQ | SBBQ.SBBQ =>
    simp only [Asm.step, vstep, h.get c.1.1, h.get c.1.2, h.flag c.2]
    exact (h.put w rfl).setFlag rfl

theorem Known.Holds.follows {k : Known} {s : State} {t : VState} (h : k.Holds s t) :
    ∀ {text : List Instr} {prog : List VInstr}, k.follows text prog = true →
      (run text s).fp = (vrun prog t).fp := by
  intro text
  induction text generalizing k s t with
  | nil =>
    intro prog e
    cases prog with
    | nil => exact h.fp
    | cons => cases e
  | cons i text ih =>
    intro prog e
    cases prog with
    | nil => cases e
    | cons j prog =>
      rw [Known.follows] at e
      split at e
      next w => exact ih (h.step w) e
      next => cases e

theorem Assigns.sound {text : List Instr} {prog : List VInstr} (h : Assigns text prog) (s : State) (t : VState)
    (e : s.fp = t.fp) : (run text s).fp = (vrun prog t).fp :=
  Known.Holds.follows (k := .start) ⟨fun _ h => absurd h (List.not_mem_nil), fun _ h => absurd h (List.not_mem_nil), e, (nomatch ·)⟩ h

end Bls.AsmGen
