import Verif.Model.Asm
import Verif.Model.FQ
import Verif.Proof.Word
import Verif.Proof.Step
/-
Execution of the assembly, block by block.
-/
namespace Bls.Asm
open Instr Opd Reg

theorem run_append (p q : List Instr) (s : State) : run (p ++ q) s = run q (run p s) :=
  List.foldl_append

theorem run_cons (i : Instr) (p : List Instr) (s : State) : run (i :: p) s = run p (step s i) := rfl
theorem run_nil (s : State) : run [] s = s := rfl

theorem bit_carry (x y : W) : bit (decide (2 ^ 64 ≤ x.toNat + y.toNat)) = (add64 x y 0).2 := by
  have hx := W.lt x
  have hy := W.lt y
  rw [bit, add64]
  simp only [decide_eq_true_eq, UInt64.toNat_zero, Nat.add_zero]
  split
  · rw [show (x.toNat + y.toNat) / 2 ^ 64 = 1 by omega]; rfl
  · rw [show (x.toNat + y.toNat) / 2 ^ 64 = 0 by omega]; rfl

theorem bit_carry' (x y : W) : bit (decide (18446744073709551616 ≤ x.toNat + y.toNat)) =
    (add64 x y 0).2 := bit_carry x y

theorem add64_fst (x y : W) : (add64 x y 0).1 = x + y := by
  rw [add64]; exact UInt64.add_zero _

/-- Two additions with their carries added up. -/
theorem addWithCarry_eq (a b c : W) : addWithCarry a b c =
    (a + b + c, (add64 a b 0).2 + (add64 (a + b) c 0).2) := by
  rw [addWithCarry]
  simp only [add64_fst]

theorem macWithCarry_eq (a b c d : W) : macWithCarry a b c d =
    (b * c + a + d, UInt64.ofNat (b.toNat * c.toNat / 2 ^ 64) + (add64 (b * c) a 0).2 +
      (add64 (b * c + a) d 0).2) := by
  rw [macWithCarry]
  simp only [add64_fst, mul64]


section
variable (s : State) (r x : Reg) (i j : Nat) (v : W) (b : Bool)
theorem reg_put : (s.put (.reg r) v).reg x = if x = r then v else s.reg x := rfl
theorem reg_put_self : (s.put (.reg r) v).reg r = v := if_pos rfl
theorem reg_put_ne {r x : Reg} (h : x ≠ r) : (s.put (.reg r) v).reg x = s.reg x := if_neg h
theorem sp_put_reg : (s.put (.reg r) v).sp = s.sp := rfl
theorem fp_put_reg : (s.put (.reg r) v).fp = s.fp := rfl
theorem reg_put_sp : (s.put (.sp i) v).reg = s.reg := rfl
theorem fp_put_sp : (s.put (.sp i) v).fp = s.fp := rfl
theorem sp_put_self : (s.put (.sp i) v).sp i = v := if_pos rfl
theorem sp_put_ne {i j : Nat} (h : j ≠ i) : (s.put (.sp i) v).sp j = s.sp j := if_neg h
theorem reg_put_fp : (s.put (.fp i) v).reg = s.reg := rfl
theorem sp_put_fp : (s.put (.fp i) v).sp = s.sp := rfl
theorem fp_put_self : (s.put (.fp i) v).fp i = v := if_pos rfl
theorem fp_put_ne {i j : Nat} (h : j ≠ i) : (s.put (.fp i) v).fp j = s.fp j := if_neg h
theorem reg_flag : (s.flag b).reg = s.reg := rfl
theorem sp_flag : (s.flag b).sp = s.sp := rfl
theorem fp_flag : (s.flag b).fp = s.fp := rfl
theorem cf_flag : (s.flag b).cf = b := rfl
theorem cf_put (d : Opd) : (s.put d v).cf = s.cf := by cases d <;> rfl
theorem get_reg : s.get (.reg r) = s.reg r := rfl
theorem get_sp : s.get (.sp i) = s.sp i := rfl
theorem get_fp : s.get (.fp i) = s.fp i := rfl
theorem get_imm : s.get (.imm v) = v := rfl
end

/-- The multiply-accumulate block used throughout: `r, c := r + AX * m + c`. -/
def macCore (m r c : Reg) : List Instr :=
  [MULQ (reg m), ADDQ (reg r) (reg AX), ADCQ (imm 0) (reg DX), ADDQ (reg c) (reg AX),
   ADCQ (imm 0) (reg DX), MOVQ (reg DX) (reg c), MOVQ (reg AX) (reg r)]

theorem macCore_spec (s : State) {m r c : Reg} (hrA : r ≠ AX) (hrD : r ≠ DX) (hcA : c ≠ AX)
    (hcD : c ≠ DX) (hrc : r ≠ c) :
    (run (macCore m r c) s).reg r = (macWithCarry (s.reg r) (s.reg AX) (s.reg m) (s.reg c)).1 ∧
    (run (macCore m r c) s).reg c = (macWithCarry (s.reg r) (s.reg AX) (s.reg m) (s.reg c)).2 ∧
    (∀ x, x ≠ AX → x ≠ DX → x ≠ r → x ≠ c → (run (macCore m r c) s).reg x = s.reg x) ∧
    (run (macCore m r c) s).fp = s.fp ∧ (run (macCore m r c) s).sp = s.sp := by
  rw [macWithCarry_eq, macCore, run_cons, run_cons, run_cons, run_cons, run_cons, run_cons,
    run_cons, run_nil]
  have hDA : DX ≠ AX := by decide
  have hAD : AX ≠ DX := by decide
  obtain ⟨s1, h1⟩ : ∃ s1, s1 = step s (MULQ (reg m)) := ⟨_, rfl⟩
  obtain ⟨s2, h2⟩ : ∃ t, t = step s1 (ADDQ (reg r) (reg AX)) := ⟨_, rfl⟩
  obtain ⟨s3, h3⟩ : ∃ t, t = step s2 (ADCQ (imm 0) (reg DX)) := ⟨_, rfl⟩
  obtain ⟨s4, h4⟩ : ∃ t, t = step s3 (ADDQ (reg c) (reg AX)) := ⟨_, rfl⟩
  obtain ⟨s5, h5⟩ : ∃ t, t = step s4 (ADCQ (imm 0) (reg DX)) := ⟨_, rfl⟩
  rw [← h1, ← h2, ← h3, ← h4, ← h5]
  have a1 : s1.reg AX = s.reg AX * s.reg m := by
    rw [h1, step, reg_flag, reg_put_ne _ _ hAD, reg_put_self]; rfl
  have d1 : s1.reg DX = UInt64.ofNat ((s.reg AX).toNat * (s.reg m).toNat / 2 ^ 64) := by
    rw [h1, step, reg_flag, reg_put_self]; rfl
  have o1 : ∀ x, x ≠ AX → x ≠ DX → s1.reg x = s.reg x := fun x hA hD => by
    rw [h1, step, reg_flag, reg_put_ne _ _ hD, reg_put_ne _ _ hA]
  have a2 : s2.reg AX = s.reg AX * s.reg m + s.reg r := by
    rw [h2, step, reg_flag, reg_put_self, get_reg, get_reg, a1, o1 r hrA hrD]
  have c2 : bit s2.cf = (add64 (s.reg AX * s.reg m) (s.reg r) 0).2 := by
    rw [h2, step, cf_flag, bit_carry, get_reg, get_reg, a1, o1 r hrA hrD]
  have o2 : ∀ x, x ≠ AX → s2.reg x = s1.reg x := fun x hA => by
    rw [h2, step, reg_flag, reg_put_ne _ _ hA]
  have d3 : s3.reg DX = s1.reg DX + bit s2.cf := by
    rw [h3, step, reg_flag, reg_put_self, get_reg, get_imm, o2 DX hDA, UInt64.add_zero]
  have o3 : ∀ x, x ≠ DX → s3.reg x = s2.reg x := fun x hA => by
    rw [h3, step, reg_flag, reg_put_ne _ _ hA]
  have a4 : s4.reg AX = s.reg AX * s.reg m + s.reg r + s.reg c := by
    rw [h4, step, reg_flag, reg_put_self, get_reg, get_reg, o3 _ hAD, o3 _ hcD, a2, o2 _ hcA,
      o1 c hcA hcD]
  have c4 : bit s4.cf = (add64 (s.reg AX * s.reg m + s.reg r) (s.reg c) 0).2 := by
    rw [h4, step, cf_flag, bit_carry, get_reg, get_reg, o3 _ hAD, o3 _ hcD, a2, o2 _ hcA,
      o1 c hcA hcD]
  have o4 : ∀ x, x ≠ AX → s4.reg x = s3.reg x := fun x hA => by
    rw [h4, step, reg_flag, reg_put_ne _ _ hA]
  have d5 : s5.reg DX = s3.reg DX + bit s4.cf := by
    rw [h5, step, reg_flag, reg_put_self, get_reg, get_imm, o4 DX hDA, UInt64.add_zero]
  have o5 : ∀ x, x ≠ DX → s5.reg x = s4.reg x := fun x hA => by
    rw [h5, step, reg_flag, reg_put_ne _ _ hA]
  have f5 : s5.fp = s.fp := by rw [h5, h4, h3, h2, h1]; rfl
  have p5 : s5.sp = s.sp := by rw [h5, h4, h3, h2, h1]; rfl
  refine ⟨?_, ?_, fun x hA hD hr hc => ?_, f5, p5⟩
  · rw [step, reg_put_self, get_reg, step, reg_put_ne _ _ hcA.symm, o5 _ hAD, a4]
  · rw [step, reg_put_ne _ _ hrc.symm, step, reg_put_self, get_reg, d5, d3, d1, c2, c4]
  · rw [step, reg_put_ne _ _ hr, step, reg_put_ne _ _ hc, o5 x hD, o4 x hA, o3 x hD, o2 x hA,
      o1 x hA hD]

/-! ## MultiplyFQRepr -/

/-- Load `a` and `b`, optionally clear `r`, multiply-accumulate. -/
def mulBlock (z : Bool) (i j : Nat) (r c : Reg) : List Instr :=
  [MOVQ (fp i) (reg AX), MOVQ (fp j) (reg BX)] ++ (if z then [XORQ (reg r) (reg r)] else []) ++
    MOVQ (reg AX) (reg AX) :: macCore BX r c

theorem mulBlock_spec (s : State) (z : Bool) (i j : Nat) {r c : Reg} (hrA : r ≠ AX) (hrD : r ≠ DX)
    (hrB : r ≠ BX) (hcA : c ≠ AX) (hcD : c ≠ DX) (hcB : c ≠ BX) (hrc : r ≠ c) :
    let x := macWithCarry (if z then 0 else s.reg r) (s.fp i) (s.fp j) (s.reg c)
    (run (mulBlock z i j r c) s).reg r = x.1 ∧ (run (mulBlock z i j r c) s).reg c = x.2 ∧
    (∀ x, x ≠ AX → x ≠ DX → x ≠ BX → x ≠ r → x ≠ c → (run (mulBlock z i j r c) s).reg x = s.reg x) ∧
    (run (mulBlock z i j r c) s).fp = s.fp := by
  intro x
  have hBA : BX ≠ AX := by decide
  obtain ⟨t, ht⟩ : ∃ t, t = run ([MOVQ (fp i) (reg AX), MOVQ (fp j) (reg BX)] ++
    (if z then [XORQ (reg r) (reg r)] else []) ++ [MOVQ (reg AX) (reg AX)]) s := ⟨_, rfl⟩
  have e : run (mulBlock z i j r c) s = run (macCore BX r c) t := by
    rw [ht, ← run_append, mulBlock]
    simp only [List.append_assoc, List.cons_append, List.nil_append]
  have hA : t.reg AX = s.fp i := by
    rw [ht]
    cases z
    · simp only [Bool.false_eq_true, if_false, List.append_nil, List.cons_append, List.nil_append,
        run_cons, run_nil, step, reg_put_self, get_reg, reg_put_ne _ _ hBA.symm, get_fp]
    · simp only [if_true, List.cons_append, List.nil_append, reg_flag,
        run_cons, run_nil, step, reg_put_self, get_reg, reg_put_ne _ _ hBA.symm, get_fp,
        reg_put_ne _ _ hrA.symm]
  have hB : t.reg BX = s.fp j := by
    rw [ht]
    cases z
    · simp only [Bool.false_eq_true, if_false, List.append_nil, List.cons_append, List.nil_append,
        run_cons, run_nil, step, reg_put_self, get_reg, reg_put_ne _ _ hBA, get_fp, fp_put_reg]
    · simp only [if_true, List.cons_append, List.nil_append, reg_flag,
        run_cons, run_nil, step, reg_put_self, get_reg, reg_put_ne _ _ hBA, get_fp,
        reg_put_ne _ _ hrB.symm, fp_put_reg]
  have hr : t.reg r = if z then 0 else s.reg r := by
    rw [ht]
    cases z
    · simp only [Bool.false_eq_true, if_false, List.append_nil, List.cons_append, List.nil_append,
        run_cons, run_nil, step, reg_put_ne _ _ hrA, reg_put_ne _ _ hrB]
    · simp only [if_true, List.cons_append, List.nil_append, reg_flag,
        run_cons, run_nil, step, reg_put_ne _ _ hrA, reg_put_self, UInt64.xor_self]
  have ho : ∀ x, x ≠ AX → x ≠ BX → x ≠ r → t.reg x = s.reg x := fun x hA hB hxr => by
    rw [ht]
    cases z
    · simp only [Bool.false_eq_true, if_false, List.append_nil, List.cons_append, List.nil_append,
        run_cons, run_nil, step, reg_put_ne _ _ hA, reg_put_ne _ _ hB]
    · simp only [if_true, List.cons_append, List.nil_append, reg_flag,
        run_cons, run_nil, step, reg_put_ne _ _ hA, reg_put_ne _ _ hB, reg_put_ne _ _ hxr]
  have hf : t.fp = s.fp := by
    rw [ht]
    cases z <;> rfl
  obtain ⟨h1, h2, h3, h4, -⟩ := macCore_spec t (m := BX) hrA hrD hcA hcD hrc
  rw [hr, hA, hB, ho c hcA hcB hrc.symm] at h1 h2
  rw [e]
  exact ⟨h1, h2, fun y hA hD hB hr hc => (h3 y hA hD hr hc).trans (ho y hA hB hr), h4.trans hf⟩

/-- One row of the schoolbook multiplication. -/
def macRow (a : W) : List W → List W → W → List W × W
  | x :: xs, b :: bs, c =>
    ((macWithCarry x a b c).1 :: (macRow a xs bs (macWithCarry x a b c).2).1,
      (macRow a xs bs (macWithCarry x a b c).2).2)
  | _, _, c => ([], c)

def mulRow (z : Bool) (i : Nat) (c : Reg) : List Reg → Nat → List Instr
  | [], _ => []
  | r :: rs, j => mulBlock z i j r c ++ mulRow z i c rs (j + 8)

def offsets : Nat → Nat → List Nat
  | 0, _ => []
  | n + 1, j => j :: offsets n (j + 8)

theorem mulRow_spec (z : Bool) (i : Nat) {c : Reg} (hcA : c ≠ AX) (hcD : c ≠ DX) (hcB : c ≠ BX)
    (rs : List Reg) (hA : AX ∉ rs) (hD : DX ∉ rs) (hB : BX ∉ rs) (hc : c ∉ rs) (hn : rs.Nodup)
    (j : Nat) (s : State) :
    let x := macRow (s.fp i) (rs.map fun r => if z then 0 else s.reg r)
      ((offsets rs.length j).map s.fp) (s.reg c)
    rs.map (run (mulRow z i c rs j) s).reg = x.1 ∧ (run (mulRow z i c rs j) s).reg c = x.2 ∧
    (∀ y, y ≠ AX → y ≠ DX → y ≠ BX → y ∉ rs → y ≠ c →
      (run (mulRow z i c rs j) s).reg y = s.reg y) ∧
    (run (mulRow z i c rs j) s).fp = s.fp := by
  induction rs generalizing j s with
  | nil => exact ⟨rfl, rfl, fun _ _ _ _ _ _ => rfl, rfl⟩
  | cons r rs ih =>
    simp only [List.mem_cons, not_or] at hA hD hB hc
    rw [List.nodup_cons] at hn
    intro x
    obtain ⟨h1, h2, h3, h4⟩ := mulBlock_spec s z i j (Ne.symm hA.1) (Ne.symm hD.1) (Ne.symm hB.1)
      hcA hcD hcB (Ne.symm hc.1)
    obtain ⟨g1, g2, g3, g4⟩ := ih hA.2 hD.2 hB.2 hc.2 hn.2 (j + 8) (run (mulBlock z i j r c) s)
    have e : (rs.map fun r_1 => if z then 0 else (run (mulBlock z i j r c) s).reg r_1) =
        rs.map fun r => if z then 0 else s.reg r := by
      refine List.map_congr_left fun y hy => ?_
      rw [h3 y (fun h => hA.2 (h ▸ hy)) (fun h => hD.2 (h ▸ hy)) (fun h => hB.2 (h ▸ hy))
        (fun h => hn.1 (h ▸ hy)) (fun h => hc.2 (h ▸ hy))]
    rw [e, h4, h2] at g1 g2
    have hrun : run (mulRow z i c (r :: rs) j) s =
      run (mulRow z i c rs (j + 8)) (run (mulBlock z i j r c) s) := run_append _ _ _
    refine ⟨?_, ?_, fun y yA yD yB yr yc => ?_, ?_⟩
    · rw [hrun, List.map_cons, g1, g3 r (Ne.symm hA.1) (Ne.symm hD.1) (Ne.symm hB.1) hn.1
        (Ne.symm hc.1), h1]
      rfl
    · rw [hrun, g2]
      rfl
    · rw [hrun]
      simp only [List.mem_cons, not_or] at yr
      rw [g3 y yA yD yB yr.2 yc, h3 y yA yD yB yr.1 yc]
    · rw [hrun, g4, h4]

/-- A row, on six limbs. -/
def row6 (a : W) (x b : FQRepr) : FQRepr × W :=
  let (y0, c) := macWithCarry x.l0 a b.l0 0
  let (y1, c) := macWithCarry x.l1 a b.l1 c
  let (y2, c) := macWithCarry x.l2 a b.l2 c
  let (y3, c) := macWithCarry x.l3 a b.l3 c
  let (y4, c) := macWithCarry x.l4 a b.l4 c
  let (y5, c) := macWithCarry x.l5 a b.l5 c
  (⟨y0, y1, y2, y3, y4, y5⟩, c)

/-- Drop the low limb, append `c`. -/
def shiftIn (x : FQRepr) (c : W) : FQRepr := ⟨x.l1, x.l2, x.l3, x.l4, x.l5, c⟩

theorem macRow_words (a : W) (x b : FQRepr) :
    macRow a x.words b.words 0 = ((row6 a x b).1.words, (row6 a x b).2) := rfl

theorem multiply_eq (a b : FQRepr) {x y z u v w : FQRepr × W}
    (hx : x = row6 a.l0 ⟨0, 0, 0, 0, 0, 0⟩ b) (hy : y = row6 a.l1 (shiftIn x.1 x.2) b)
    (hz : z = row6 a.l2 (shiftIn y.1 y.2) b) (hu : u = row6 a.l3 (shiftIn z.1 z.2) b)
    (hv : v = row6 a.l4 (shiftIn u.1 u.2) b) (hw : w = row6 a.l5 (shiftIn v.1 v.2) b) :
    a.multiply b =
      (shiftIn w.1 w.2, ⟨x.1.l0, y.1.l0, z.1.l0, u.1.l0, v.1.l0, w.1.l0⟩) := by
  generalize hr : a.multiply b = r
  revert hr
  unfold FQRepr.multiply
  pair_step y00 c00 h00
  pair_step y01 c01 h01
  pair_step y02 c02 h02
  pair_step y03 c03 h03
  pair_step y04 c04 h04
  pair_step y05 c05 h05
  rw [row6] at hx
  simp only [h00, h01, h02, h03, h04, h05] at hx
  pair_step y10 c10 h10
  pair_step y11 c11 h11
  pair_step y12 c12 h12
  pair_step y13 c13 h13
  pair_step y14 c14 h14
  pair_step y15 c15 h15
  rw [hx, shiftIn, row6] at hy
  simp only [h10, h11, h12, h13, h14, h15] at hy
  pair_step y20 c20 h20
  pair_step y21 c21 h21
  pair_step y22 c22 h22
  pair_step y23 c23 h23
  pair_step y24 c24 h24
  pair_step y25 c25 h25
  rw [hy, shiftIn, row6] at hz
  simp only [h20, h21, h22, h23, h24, h25] at hz
  pair_step y30 c30 h30
  pair_step y31 c31 h31
  pair_step y32 c32 h32
  pair_step y33 c33 h33
  pair_step y34 c34 h34
  pair_step y35 c35 h35
  rw [hz, shiftIn, row6] at hu
  simp only [h30, h31, h32, h33, h34, h35] at hu
  pair_step y40 c40 h40
  pair_step y41 c41 h41
  pair_step y42 c42 h42
  pair_step y43 c43 h43
  pair_step y44 c44 h44
  pair_step y45 c45 h45
  rw [hu, shiftIn, row6] at hv
  simp only [h40, h41, h42, h43, h44, h45] at hv
  pair_step y50 c50 h50
  pair_step y51 c51 h51
  pair_step y52 c52 h52
  pair_step y53 c53 h53
  pair_step y54 c54 h54
  pair_step y55 c55 h55
  rw [hv, shiftIn, row6] at hw
  simp only [h50, h51, h52, h53, h54, h55] at hw
  intro hr
  rw [← hr, hx, hy, hz, hu, hv, hw]
  rfl

theorem multiplyFQReprText_eq : multiplyFQReprText =
    [XORQ (reg R10) (reg R10)] ++ mulRow true 0 R10 [CX, BP, SI, DI, R8, R9] 48 ++
    [MOVQ (reg R10) (reg R10), XORQ (reg R11) (reg R11)] ++
      mulRow false 8 R11 [BP, SI, DI, R8, R9, R10] 48 ++
    [MOVQ (reg R11) (reg R11), XORQ (reg R12) (reg R12)] ++
      mulRow false 16 R12 [SI, DI, R8, R9, R10, R11] 48 ++
    [MOVQ (reg R12) (reg R12), XORQ (reg R13) (reg R13)] ++
      mulRow false 24 R13 [DI, R8, R9, R10, R11, R12] 48 ++
    [MOVQ (reg R13) (reg R13), XORQ (reg R14) (reg R14)] ++
      mulRow false 32 R14 [R8, R9, R10, R11, R12, R13] 48 ++
    [MOVQ (reg R14) (reg R14), XORQ (reg R15) (reg R15)] ++
      mulRow false 40 R15 [R9, R10, R11, R12, R13, R14] 48 ++
    [MOVQ (reg R15) (reg AX), MOVQ (reg CX) (fp 144), MOVQ (reg BP) (fp 152),
     MOVQ (reg SI) (fp 160), MOVQ (reg DI) (fp 168), MOVQ (reg R8) (fp 176), MOVQ (reg R9) (fp 184),
     MOVQ (reg R10) (fp 96), MOVQ (reg R11) (fp 104), MOVQ (reg R12) (fp 112),
     MOVQ (reg R13) (fp 120), MOVQ (reg R14) (fp 128), MOVQ (reg AX) (fp 136)] := by
  decide +kernel

theorem mulRow6 {s : State} {z : Bool} {a : W} {x b : FQRepr} {i : Nat} {r0 r1 r2 r3 r4 r5 c : Reg}
    (hd : [AX, DX, BX, c, r0, r1, r2, r3, r4, r5].Nodup) (ha : s.fp i = a)
    (hb : (offsets 6 48).map s.fp = b.words)
    (hx : [r0, r1, r2, r3, r4, r5].map (fun r => if z then 0 else s.reg r) = x.words)
    (hc : s.reg c = 0) :
    let t := run (mulRow z i c [r0, r1, r2, r3, r4, r5] 48) s
    [r0, r1, r2, r3, r4, r5].map t.reg = (row6 a x b).1.words ∧ t.reg c = (row6 a x b).2 ∧
    (∀ y, y ∉ [AX, DX, BX, c, r0, r1, r2, r3, r4, r5] → t.reg y = s.reg y) ∧ t.fp = s.fp := by
  intro t
  have hA : AX ∉ [DX, BX, c, r0, r1, r2, r3, r4, r5] := (List.nodup_cons.mp hd).1
  have hd1 := (List.nodup_cons.mp hd).2
  have hD : DX ∉ [BX, c, r0, r1, r2, r3, r4, r5] := (List.nodup_cons.mp hd1).1
  have hd2 := (List.nodup_cons.mp hd1).2
  have hB : BX ∉ [c, r0, r1, r2, r3, r4, r5] := (List.nodup_cons.mp hd2).1
  have hd3 := (List.nodup_cons.mp hd2).2
  have hcr : c ∉ [r0, r1, r2, r3, r4, r5] := (List.nodup_cons.mp hd3).1
  have hd4 := (List.nodup_cons.mp hd3).2
  have h := mulRow_spec z i (c := c) (fun e => hA (by simp [e])) (fun e => hD (by simp [e]))
    (fun e => hB (by simp [e])) [r0, r1, r2, r3, r4, r5]
    (fun e => hA (by simp only [List.mem_cons] at e ⊢; tauto))
    (fun e => hD (by simp only [List.mem_cons] at e ⊢; tauto))
    (fun e => hB (by simp only [List.mem_cons] at e ⊢; tauto)) hcr hd4 48 s
  rw [hx, ha, hc, show List.length [r0, r1, r2, r3, r4, r5] = 6 from rfl, hb, macRow_words] at h
  obtain ⟨h1, h2, h3, h4⟩ := h
  refine ⟨h1, h2, fun y hy => ?_, h4⟩
  simp only [List.mem_cons, List.not_mem_nil, or_false, not_or] at hy
  refine h3 y hy.1 hy.2.1 hy.2.2.1 ?_ hy.2.2.2.1
  simp only [List.mem_cons, List.not_mem_nil, or_false, not_or]
  exact hy.2.2.2.2

/-- A row followed by the preparation of the next one. -/
theorem mulRowGlue {s : State} {z : Bool} {a : W} {x b : FQRepr} {i : Nat}
    {r0 r1 r2 r3 r4 r5 c d : Reg}
    (hd : [AX, DX, BX, c, r0, r1, r2, r3, r4, r5].Nodup)
    (hdd : d ∉ [AX, DX, BX, c, r0, r1, r2, r3, r4, r5]) (ha : s.fp i = a)
    (hb : (offsets 6 48).map s.fp = b.words)
    (hx : [r0, r1, r2, r3, r4, r5].map (fun r => if z then 0 else s.reg r) = x.words)
    (hc : s.reg c = 0) :
    let t := run [MOVQ (reg c) (reg c), XORQ (reg d) (reg d)]
      (run (mulRow z i c [r0, r1, r2, r3, r4, r5] 48) s)
    t.reg r0 = (row6 a x b).1.l0 ∧
    [r1, r2, r3, r4, r5, c].map (fun r => if false then 0 else t.reg r) =
      (shiftIn (row6 a x b).1 (row6 a x b).2).words ∧ t.reg d = 0 ∧
    (∀ y, y ∉ [AX, DX, BX, c, r0, r1, r2, r3, r4, r5, d] → t.reg y = s.reg y) ∧ t.fp = s.fp := by
  obtain ⟨h1, h2, h3, h4⟩ := mulRow6 hd ha hb hx hc
  generalize run (mulRow z i c [r0, r1, r2, r3, r4, r5] 48) s = u at *
  intro t
  have ht : ∀ y, y ≠ d → t.reg y = u.reg y := fun y hy => by
    change (step (step u (MOVQ (reg c) (reg c))) (XORQ (reg d) (reg d))).reg y = _
    rw [step, step, reg_flag, reg_put_ne _ _ hy, reg_put, get_reg]
    by_cases h : y = c
    · rw [if_pos h, h]
    · rw [if_neg h]
  simp only [List.map_cons, List.map_nil, FQRepr.words, List.cons.injEq, and_true] at h1
  simp only [List.mem_cons, List.not_mem_nil, or_false, not_or] at hdd
  obtain ⟨d1, d2, d3, d4, d5, d6, d7, d8, d9, d10⟩ := hdd
  refine ⟨?_, ?_, ?_, fun y hy => ?_, h4⟩
  · rw [ht _ (Ne.symm d5), h1.1]
  · simp only [Bool.false_eq_true, if_false, List.map_cons, List.map_nil, shiftIn, FQRepr.words,
      ht _ (Ne.symm d4), ht _ (Ne.symm d6), ht _ (Ne.symm d7), ht _ (Ne.symm d8),
      ht _ (Ne.symm d9), ht _ (Ne.symm d10), h1, h2]
  · change (step (step u (MOVQ (reg c) (reg c))) (XORQ (reg d) (reg d))).reg d = _
    rw [step, step, reg_flag, reg_put_self, UInt64.xor_self]
  · simp only [List.mem_cons, List.not_mem_nil, or_false, not_or] at hy
    obtain ⟨k1, k2, k3, k4, k5, k6, k7, k8, k9, k10, k11⟩ := hy
    rw [ht y k11]
    refine h3 y ?_
    simp only [List.mem_cons, List.not_mem_nil, or_false, not_or]
    exact ⟨k1, k2, k3, k4, k5, k6, k7, k8, k9, k10⟩

/-- Two lists of words in the argument area. -/
theorem multiplyFQReprText_spec (s : State) (a b : FQRepr)
    (ha : (offsets 6 0).map s.fp = a.words) (hb : (offsets 6 48).map s.fp = b.words) :
    (offsets 6 96).map (run multiplyFQReprText s).fp = (a.multiply b).1.words ∧
    (offsets 6 144).map (run multiplyFQReprText s).fp = (a.multiply b).2.words := by
  rw [multiplyFQReprText_eq]
  simp only [run_append]
  simp only [offsets, List.map_cons, List.map_nil, FQRepr.words, List.cons.injEq, and_true,
    Nat.zero_add, Nat.reduceAdd] at ha
  obtain ⟨a0, a1, a2, a3, a4, a5⟩ := ha
  obtain ⟨s0, h0⟩ : ∃ t, t = run [XORQ (reg R10) (reg R10)] s := ⟨_, rfl⟩
  have f0 : s0.fp = s.fp := by rw [h0]; rfl
  have c0 : s0.reg R10 = 0 := by rw [h0, run_cons, run_nil, step, reg_flag, reg_put_self, UInt64.xor_self]
  rw [← h0]
  obtain ⟨x1, y1, z1, o1, f1⟩ := mulRowGlue (s := s0) (z := true) (x := ⟨0, 0, 0, 0, 0, 0⟩) (b := b)
    (a := a.l0) (i := 0) (r0 := CX) (r1 := BP) (r2 := SI) (r3 := DI) (r4 := R8) (r5 := R9) (c := R10)
    (d := R11) (by decide) (by decide) (by rw [f0, a0]) (by rw [f0, hb]) rfl c0
  obtain ⟨X1, hX1⟩ : ∃ X, X = row6 a.l0 ⟨0, 0, 0, 0, 0, 0⟩ b := ⟨_, rfl⟩
  rw [← hX1] at x1 y1
  obtain ⟨s1, h1⟩ : ∃ t, t = run [MOVQ (reg R10) (reg R10), XORQ (reg R11) (reg R11)]
    (run (mulRow true 0 R10 [CX, BP, SI, DI, R8, R9] 48) s0) := ⟨_, rfl⟩
  rw [← h1] at x1 y1 z1 o1 f1 ⊢
  rw [f0] at f1
  obtain ⟨x2, y2, z2, o2, f2⟩ := mulRowGlue (s := s1) (b := b)
    (a := a.l1) (i := 8) (d := R12) (by decide) (by decide) (by rw [f1, a1]) (by rw [f1, hb]) y1 z1
  obtain ⟨X2, hX2⟩ : ∃ X, X = row6 a.l1 (shiftIn X1.1 X1.2) b := ⟨_, rfl⟩
  rw [← hX2] at x2 y2
  obtain ⟨s2, h2⟩ : ∃ t, t = run [MOVQ (reg R11) (reg R11), XORQ (reg R12) (reg R12)]
    (run (mulRow false 8 R11 [BP, SI, DI, R8, R9, R10] 48) s1) := ⟨_, rfl⟩
  rw [← h2] at x2 y2 z2 o2 f2 ⊢
  rw [f1] at f2
  obtain ⟨x3, y3, z3, o3, f3⟩ := mulRowGlue (s := s2) (b := b)
    (a := a.l2) (i := 16) (d := R13) (by decide) (by decide) (by rw [f2, a2]) (by rw [f2, hb]) y2 z2
  obtain ⟨X3, hX3⟩ : ∃ X, X = row6 a.l2 (shiftIn X2.1 X2.2) b := ⟨_, rfl⟩
  rw [← hX3] at x3 y3
  obtain ⟨s3, h3⟩ : ∃ t, t = run [MOVQ (reg R12) (reg R12), XORQ (reg R13) (reg R13)]
    (run (mulRow false 16 R12 [SI, DI, R8, R9, R10, R11] 48) s2) := ⟨_, rfl⟩
  rw [← h3] at x3 y3 z3 o3 f3 ⊢
  rw [f2] at f3
  obtain ⟨x4, y4, z4, o4, f4⟩ := mulRowGlue (s := s3) (b := b)
    (a := a.l3) (i := 24) (d := R14) (by decide) (by decide) (by rw [f3, a3]) (by rw [f3, hb]) y3 z3
  obtain ⟨X4, hX4⟩ : ∃ X, X = row6 a.l3 (shiftIn X3.1 X3.2) b := ⟨_, rfl⟩
  rw [← hX4] at x4 y4
  obtain ⟨s4, h4⟩ : ∃ t, t = run [MOVQ (reg R13) (reg R13), XORQ (reg R14) (reg R14)]
    (run (mulRow false 24 R13 [DI, R8, R9, R10, R11, R12] 48) s3) := ⟨_, rfl⟩
  rw [← h4] at x4 y4 z4 o4 f4 ⊢
  rw [f3] at f4
  obtain ⟨x5, y5, z5, o5, f5⟩ := mulRowGlue (s := s4) (b := b)
    (a := a.l4) (i := 32) (d := R15) (by decide) (by decide) (by rw [f4, a4]) (by rw [f4, hb]) y4 z4
  obtain ⟨X5, hX5⟩ : ∃ X, X = row6 a.l4 (shiftIn X4.1 X4.2) b := ⟨_, rfl⟩
  rw [← hX5] at x5 y5
  obtain ⟨s5, h5⟩ : ∃ t, t = run [MOVQ (reg R14) (reg R14), XORQ (reg R15) (reg R15)]
    (run (mulRow false 32 R14 [R8, R9, R10, R11, R12, R13] 48) s4) := ⟨_, rfl⟩
  rw [← h5] at x5 y5 z5 o5 f5 ⊢
  rw [f4] at f5
  obtain ⟨y6, z6, o6, f6⟩ := mulRow6 (s := s5) (b := b)
    (a := a.l5) (i := 40) (by decide) (by rw [f5, a5]) (by rw [f5, hb]) y5 z5
  obtain ⟨X6, hX6⟩ : ∃ X, X = row6 a.l5 (shiftIn X5.1 X5.2) b := ⟨_, rfl⟩
  rw [← hX6] at y6 z6
  obtain ⟨s6, h6⟩ : ∃ t, t = run (mulRow false 40 R15 [R9, R10, R11, R12, R13, R14] 48) s5 :=
    ⟨_, rfl⟩
  rw [← h6] at y6 z6 o6 f6 ⊢
  rw [multiply_eq a b hX1 hX2 hX3 hX4 hX5 hX6]
  simp only [List.map_cons, List.map_nil, FQRepr.words, List.cons.injEq, and_true] at y6
  have e0 : s6.reg CX = X1.1.l0 := by
    rw [o6 _ (by decide), o5 _ (by decide), o4 _ (by decide), o3 _ (by decide), o2 _ (by decide), x1]
  have e1 := x2
  rw [← o3 _ (by decide), ← o4 _ (by decide), ← o5 _ (by decide), ← o6 _ (by decide)] at e1
  have e2 := x3
  rw [← o4 _ (by decide), ← o5 _ (by decide), ← o6 _ (by decide)] at e2
  have e3 := x4
  rw [← o5 _ (by decide), ← o6 _ (by decide)] at e3
  have e4 := x5
  rw [← o6 _ (by decide)] at e4
  obtain ⟨y60, y61, y62, y63, y64, y65⟩ := y6
  constructor
  · rw [FQRepr.words, shiftIn, ← y61, ← y62, ← y63, ← y64, ← y65, ← z6]
    rfl
  · rw [FQRepr.words, ← y60, ← e4, ← e3, ← e2, ← e1, ← e0]
    rfl

end Bls.Asm
