import Verif.Proof.Asm
/-
Execution of the assembly: MontReduce and the short functions.
-/
namespace Bls.Asm
open Instr Opd Reg

theorem macWithCarry_comm (a b c d : W) : macWithCarry a b c d = macWithCarry a c b d := by
  rw [macWithCarry_eq, macWithCarry_eq, UInt64.mul_comm b c, Nat.mul_comm b.toNat]

theorem addWithCarry_comm (a b c : W) : addWithCarry a b c = addWithCarry a c b := by
  have h1 := addWithCarry_spec a b c
  have h2 := addWithCarry_spec a c b
  have e1 : (addWithCarry a b c).1 = (addWithCarry a c b).1 := by
    rw [addWithCarry_eq, addWithCarry_eq]
    exact (UInt64.add_assoc a b c).trans
      ((congrArg (a + ·) (UInt64.add_comm b c)).trans (UInt64.add_assoc a c b).symm)
  refine Prod.ext e1 (UInt64.toNat_inj.mp ?_)
  rw [e1] at h1
  omega

/-! ## MontReduce -/

def montBlock (j : Nat) (q : W) : List Instr :=
  [MOVQ (sp j) (reg DI), MOVQ (imm q) (reg AX)] ++ (macCore BP DI SI ++ [MOVQ (reg DI) (sp j)])

theorem montBlock_spec (s : State) (j : Nat) (q : W) :
    let x := macWithCarry (s.sp j) (s.reg BP) q (s.reg SI)
    let t := run (montBlock j q) s
    t.sp j = x.1 ∧ t.reg SI = x.2 ∧ (∀ k, k ≠ j → t.sp k = s.sp k) ∧ t.reg BP = s.reg BP ∧
    t.reg CX = s.reg CX ∧ t.fp = s.fp := by
  intro x t
  obtain ⟨u, hu⟩ : ∃ u, u = run [MOVQ (sp j) (reg DI), MOVQ (imm q) (reg AX)] s := ⟨_, rfl⟩
  obtain ⟨v, hv⟩ : ∃ v, v = run (macCore BP DI SI) u := ⟨_, rfl⟩
  obtain ⟨h1, h2, h3, h4, h5⟩ := macCore_spec u (m := BP) (r := DI) (c := SI) (by decide) (by decide)
    (by decide) (by decide) (by decide)
  rw [← hv] at h1 h2 h3 h4 h5
  have ht : t = v.put (sp j) (v.reg DI) := by
    change run (montBlock j q) s = _
    rw [montBlock, run_append, run_append, ← hu, ← hv]
    rfl
  have d : u.reg DI = s.sp j := by rw [hu]; rfl
  have a : u.reg AX = q := by rw [hu]; rfl
  have b : u.reg BP = s.reg BP := by rw [hu]; rfl
  have c : u.reg SI = s.reg SI := by rw [hu]; rfl
  have e : u.reg CX = s.reg CX := by rw [hu]; rfl
  have f : u.fp = s.fp := by rw [hu]; rfl
  have g : u.sp = s.sp := by rw [hu]; rfl
  rw [d, a, b, c, macWithCarry_comm] at h1 h2
  refine ⟨?_, ?_, fun k hk => ?_, ?_, ?_, ?_⟩
  · rw [ht, sp_put_self, h1]
  · rw [ht, reg_put_sp, h2]
  · rw [ht, sp_put_ne _ _ hk, h5, g]
  · rw [ht, reg_put_sp, h3 _ (by decide) (by decide) (by decide) (by decide), b]
  · rw [ht, reg_put_sp, h3 _ (by decide) (by decide) (by decide) (by decide), e]
  · rw [ht, fp_put_sp, h4, f]

/-- The first block of a row: the low word is not stored. -/
def montFirst (i : Nat) (n q : W) : List Instr :=
  [MOVQ (imm n) (reg AX), MOVQ (sp i) (reg BP), MULQ (reg BP), MOVQ (reg AX) (reg BP),
   XORQ (reg SI) (reg SI), MOVQ (sp i) (reg DI), MOVQ (imm q) (reg AX)] ++ macCore BP DI SI

theorem montFirst_spec (s : State) (i : Nat) (n q : W) :
    let k := s.sp i * n
    let t := run (montFirst i n q) s
    t.reg BP = k ∧ t.reg SI = (macWithCarry (s.sp i) k q 0).2 ∧ t.sp = s.sp ∧
    t.reg CX = s.reg CX ∧ t.fp = s.fp := by
  intro k t
  obtain ⟨u, hu⟩ : ∃ u, u = run [MOVQ (imm n) (reg AX), MOVQ (sp i) (reg BP), MULQ (reg BP),
    MOVQ (reg AX) (reg BP), XORQ (reg SI) (reg SI), MOVQ (sp i) (reg DI), MOVQ (imm q) (reg AX)] s :=
    ⟨_, rfl⟩
  obtain ⟨v, hv⟩ : ∃ v, v = run (macCore BP DI SI) u := ⟨_, rfl⟩
  obtain ⟨h1, h2, h3, h4, h5⟩ := macCore_spec u (m := BP) (r := DI) (c := SI) (by decide) (by decide)
    (by decide) (by decide) (by decide)
  rw [← hv] at h1 h2 h3 h4 h5
  have ht : t = v := by
    change run (montFirst i n q) s = _
    rw [montFirst, run_append, ← hu, ← hv]
  have d : u.reg DI = s.sp i := by rw [hu]; rfl
  have a : u.reg AX = q := by rw [hu]; rfl
  have b : u.reg BP = k := by
    rw [show k = s.sp i * n from rfl, UInt64.mul_comm, hu]; rfl
  have c : u.reg SI = 0 := by rw [hu]; exact UInt64.xor_self
  have e : u.reg CX = s.reg CX := by rw [hu]; rfl
  have f : u.fp = s.fp := by rw [hu]; rfl
  have g : u.sp = s.sp := by rw [hu]; rfl
  rw [d, a, b, c, macWithCarry_comm] at h2
  rw [ht]
  exact ⟨by rw [h3 _ (by decide) (by decide) (by decide) (by decide), b], h2, h5.trans g,
    by rw [h3 _ (by decide) (by decide) (by decide) (by decide), e], h4.trans f⟩

/-- The last block of a row: add the carry of the row and the one of the previous row. -/
def montLast (j : Nat) : List Instr :=
  [XORQ (reg BX) (reg BX), MOVQ (sp j) (reg AX), ADDQ (reg SI) (reg AX), ADCQ (imm 0) (reg BX),
   ADDQ (reg CX) (reg AX), ADCQ (imm 0) (reg BX), MOVQ (reg BX) (reg CX), MOVQ (reg AX) (sp j)]

theorem montLast_spec (s : State) (j : Nat) :
    let x := addWithCarry (s.sp j) (s.reg CX) (s.reg SI)
    let t := run (montLast j) s
    t.sp j = x.1 ∧ t.reg CX = x.2 ∧ (∀ k, k ≠ j → t.sp k = s.sp k) ∧ t.fp = s.fp := by
  intro x t
  have hx : x = (s.sp j + s.reg SI + s.reg CX, (add64 (s.sp j) (s.reg SI) 0).2 +
      (add64 (s.sp j + s.reg SI) (s.reg CX) 0).2) := by
    rw [← addWithCarry_eq, addWithCarry_comm]
  rw [hx]
  refine ⟨?_, ?_, fun k hk => ?_, rfl⟩
  · change (State.put _ (sp j) _).sp j = _
    rw [sp_put_self]
    rfl
  · have e : t.reg CX = (s.reg BX ^^^ s.reg BX) + 0 +
        bit (decide (2 ^ 64 ≤ (s.sp j).toNat + (s.reg SI).toNat)) + 0 +
        bit (decide (2 ^ 64 ≤ (s.sp j + s.reg SI).toNat + (s.reg CX).toNat)) := rfl
    rw [e, UInt64.xor_self, bit_carry, bit_carry, UInt64.add_zero, UInt64.add_zero, UInt64.zero_add]
  · change (State.put _ (sp j) _).sp k = _
    rw [sp_put_ne _ _ hk]
    rfl

/-- A row of the reduction, on six limbs, the next limb and the carry of the previous row. -/
def montRow (x : FQRepr) (h c2 : W) : FQRepr × W :=
  let k := x.l0 * montInvFQ
  let (_, c) := macWithCarry x.l0 k qFieldModulus.l0 0
  let (y1, c) := macWithCarry x.l1 k qFieldModulus.l1 c
  let (y2, c) := macWithCarry x.l2 k qFieldModulus.l2 c
  let (y3, c) := macWithCarry x.l3 k qFieldModulus.l3 c
  let (y4, c) := macWithCarry x.l4 k qFieldModulus.l4 c
  let (y5, c) := macWithCarry x.l5 k qFieldModulus.l5 c
  let (h, c2) := addWithCarry h c2 c
  (⟨y1, y2, y3, y4, y5, h⟩, c2)

theorem montRow_eq (x : FQRepr) (h c2 : W) {k c0 c1 c2' c3 c4 c5 : W}
    (hk : k = x.l0 * montInvFQ)
    (h0 : c0 = (macWithCarry x.l0 k qFieldModulus.l0 0).2)
    (h1 : c1 = (macWithCarry x.l1 k qFieldModulus.l1 c0).2)
    (h2 : c2' = (macWithCarry x.l2 k qFieldModulus.l2 c1).2)
    (h3 : c3 = (macWithCarry x.l3 k qFieldModulus.l3 c2').2)
    (h4 : c4 = (macWithCarry x.l4 k qFieldModulus.l4 c3).2)
    (h5 : c5 = (macWithCarry x.l5 k qFieldModulus.l5 c4).2) :
    montRow x h c2 = (⟨(macWithCarry x.l1 k qFieldModulus.l1 c0).1,
      (macWithCarry x.l2 k qFieldModulus.l2 c1).1, (macWithCarry x.l3 k qFieldModulus.l3 c2').1,
      (macWithCarry x.l4 k qFieldModulus.l4 c3).1, (macWithCarry x.l5 k qFieldModulus.l5 c4).1,
      (addWithCarry h c2 c5).1⟩, (addWithCarry h c2 c5).2) := by
  subst hk h0 h1 h2 h3 h4 h5
  rfl

def montRowText (i : Nat) : List Instr :=
  montFirst i montInvFQ qFieldModulus.l0 ++ (montBlock (i + 8) qFieldModulus.l1 ++
    (montBlock (i + 16) qFieldModulus.l2 ++ (montBlock (i + 24) qFieldModulus.l3 ++
    (montBlock (i + 32) qFieldModulus.l4 ++ (montBlock (i + 40) qFieldModulus.l5 ++
    montLast (i + 48))))))

theorem montRowText_spec {s : State} {i : Nat} {x : FQRepr} {h c2 : W}
    (hx : (offsets 6 i).map s.sp = x.words) (hh : s.sp (i + 48) = h) (hc : s.reg CX = c2) :
    let t := run (montRowText i) s
    (offsets 6 (i + 8)).map t.sp = (montRow x h c2).1.words ∧ t.reg CX = (montRow x h c2).2 ∧
    (∀ k, i + 48 < k → t.sp k = s.sp k) ∧ t.fp = s.fp := by
  intro t
  simp only [offsets, List.map_cons, List.map_nil, FQRepr.words, List.cons.injEq, and_true,
    Nat.add_assoc, Nat.reduceAdd] at hx
  obtain ⟨x0, x1, x2, x3, x4, x5⟩ := hx
  have ht : t = run (montRowText i) s := rfl
  rw [montRowText] at ht
  simp only [run_append] at ht
  obtain ⟨b1, c1, p1, d1, f1⟩ := montFirst_spec s i montInvFQ qFieldModulus.l0
  generalize run (montFirst i montInvFQ qFieldModulus.l0) s = s1 at *
  obtain ⟨e2, c2', p2, b2, d2, f2⟩ := montBlock_spec s1 (i + 8) qFieldModulus.l1
  generalize run (montBlock (i + 8) qFieldModulus.l1) s1 = s2 at *
  obtain ⟨e3, c3, p3, b3, d3, f3⟩ := montBlock_spec s2 (i + 16) qFieldModulus.l2
  generalize run (montBlock (i + 16) qFieldModulus.l2) s2 = s3 at *
  obtain ⟨e4, c4, p4, b4, d4, f4⟩ := montBlock_spec s3 (i + 24) qFieldModulus.l3
  generalize run (montBlock (i + 24) qFieldModulus.l3) s3 = s4 at *
  obtain ⟨e5, c5, p5, b5, d5, f5⟩ := montBlock_spec s4 (i + 32) qFieldModulus.l4
  generalize run (montBlock (i + 32) qFieldModulus.l4) s4 = s5 at *
  obtain ⟨e6, c6, p6, b6, d6, f6⟩ := montBlock_spec s5 (i + 40) qFieldModulus.l5
  generalize run (montBlock (i + 40) qFieldModulus.l5) s5 = s6 at *
  obtain ⟨e7, c7, p7, f7⟩ := montLast_spec s6 (i + 48)
  rw [← ht] at e7 c7 p7 f7
  rw [b5, b4, b3, b2] at e6 c6
  rw [b4, b3, b2] at e5 c5
  rw [b3, b2] at e4 c4
  rw [b2] at e3 c3
  rw [x0] at b1 c1
  rw [← b1] at c1
  rw [p1, x1] at e2 c2'
  rw [p2 _ (by omega), p1, x2] at e3 c3
  rw [p3 _ (by omega), p2 _ (by omega), p1, x3] at e4 c4
  rw [p4 _ (by omega), p3 _ (by omega), p2 _ (by omega), p1, x4] at e5 c5
  rw [p5 _ (by omega), p4 _ (by omega), p3 _ (by omega), p2 _ (by omega), p1, x5] at e6 c6
  rw [p6 _ (by omega), p5 _ (by omega), p4 _ (by omega), p3 _ (by omega), p2 _ (by omega), p1,
    hh, d6, d5, d4, d3, d2, d1, hc] at e7 c7
  rw [montRow_eq x h c2 b1 c1 c2' c3 c4 c5 c6, ← e7, ← e6, ← e5, ← e4, ← e3, ← e2]
  refine ⟨?_, c7, fun k hk => ?_, by rw [f7, f6, f5, f4, f3, f2, f1]⟩
  · simp only [offsets, List.map_cons, List.map_nil, FQRepr.words, Nat.add_assoc, Nat.reduceAdd]
    rw [p7 _ (by omega), p6 _ (by omega), p5 _ (by omega), p4 _ (by omega), p3 _ (by omega),
      p7 _ (by omega), p6 _ (by omega), p5 _ (by omega), p4 _ (by omega),
      p7 _ (by omega), p6 _ (by omega), p5 _ (by omega), p7 _ (by omega), p6 _ (by omega),
      p7 _ (by omega)]
  · rw [p7 _ (by omega), p6 _ (by omega), p5 _ (by omega), p4 _ (by omega), p3 _ (by omega),
      p2 _ (by omega), p1]

theorem montReduceRepr_eq (hi lo : FQRepr) {x y z u v w : FQRepr × W}
    (hx : x = montRow lo hi.l0 0) (hy : y = montRow x.1 hi.l1 x.2)
    (hz : z = montRow y.1 hi.l2 y.2) (hu : u = montRow z.1 hi.l3 z.2)
    (hv : v = montRow u.1 hi.l4 u.2) (hw : w = montRow v.1 hi.l5 v.2) :
    montReduceRepr hi lo = w.1 := by
  generalize hr : montReduceRepr hi lo = r
  revert hr
  unfold montReduceRepr
  pair_step y00 c00 h00
  pair_step y01 c01 h01
  pair_step y02 c02 h02
  pair_step y03 c03 h03
  pair_step y04 c04 h04
  pair_step y05 c05 h05
  pair_step y06 c06 h06
  rw [montRow] at hx
  simp only [h00, h01, h02, h03, h04, h05, h06] at hx
  pair_step y10 c10 h10
  pair_step y11 c11 h11
  pair_step y12 c12 h12
  pair_step y13 c13 h13
  pair_step y14 c14 h14
  pair_step y15 c15 h15
  pair_step y16 c16 h16
  rw [hx, montRow] at hy
  simp only [h10, h11, h12, h13, h14, h15, h16] at hy
  pair_step y20 c20 h20
  pair_step y21 c21 h21
  pair_step y22 c22 h22
  pair_step y23 c23 h23
  pair_step y24 c24 h24
  pair_step y25 c25 h25
  pair_step y26 c26 h26
  rw [hy, montRow] at hz
  simp only [h20, h21, h22, h23, h24, h25, h26] at hz
  pair_step y30 c30 h30
  pair_step y31 c31 h31
  pair_step y32 c32 h32
  pair_step y33 c33 h33
  pair_step y34 c34 h34
  pair_step y35 c35 h35
  pair_step y36 c36 h36
  rw [hz, montRow] at hu
  simp only [h30, h31, h32, h33, h34, h35, h36] at hu
  pair_step y40 c40 h40
  pair_step y41 c41 h41
  pair_step y42 c42 h42
  pair_step y43 c43 h43
  pair_step y44 c44 h44
  pair_step y45 c45 h45
  pair_step y46 c46 h46
  rw [hu, montRow] at hv
  simp only [h40, h41, h42, h43, h44, h45, h46] at hv
  pair_step y50 c50 h50
  pair_step y51 c51 h51
  pair_step y52 c52 h52
  pair_step y53 c53 h53
  pair_step y54 c54 h54
  pair_step y55 c55 h55
  pair_step y56 c56 h56
  rw [hv, montRow] at hw
  simp only [h50, h51, h52, h53, h54, h55, h56] at hw
  intro hr
  rw [← hr, hw]

theorem montReduceText_eq : montReduceText =
    [MOVQ (fp 48) (reg AX), MOVQ (reg AX) (sp 0), MOVQ (fp 56) (reg AX), MOVQ (reg AX) (sp 8),
     MOVQ (fp 64) (reg AX), MOVQ (reg AX) (sp 16), MOVQ (fp 72) (reg AX), MOVQ (reg AX) (sp 24),
     MOVQ (fp 80) (reg AX), MOVQ (reg AX) (sp 32), MOVQ (fp 88) (reg AX), MOVQ (reg AX) (sp 40),
     MOVQ (fp 0) (reg AX), MOVQ (reg AX) (sp 48), MOVQ (fp 8) (reg AX), MOVQ (reg AX) (sp 56),
     MOVQ (fp 16) (reg AX), MOVQ (reg AX) (sp 64), MOVQ (fp 24) (reg AX), MOVQ (reg AX) (sp 72),
     MOVQ (fp 32) (reg AX), MOVQ (reg AX) (sp 80), MOVQ (fp 40) (reg AX), MOVQ (reg AX) (sp 88),
     XORQ (reg CX) (reg CX)] ++ (montRowText 0 ++ (montRowText 8 ++ (montRowText 16 ++
    (montRowText 24 ++ (montRowText 32 ++ (montRowText 40 ++
    [MOVQ (sp 48) (reg AX), MOVQ (reg AX) (fp 96), MOVQ (sp 56) (reg AX), MOVQ (reg AX) (fp 104),
     MOVQ (sp 64) (reg AX), MOVQ (reg AX) (fp 112), MOVQ (sp 72) (reg AX), MOVQ (reg AX) (fp 120),
     MOVQ (sp 80) (reg AX), MOVQ (reg AX) (fp 128), MOVQ (sp 88) (reg AX),
     MOVQ (reg AX) (fp 136)])))))) := by
  decide +kernel

theorem montRowText_spec' {s : State} {i : Nat} {x : FQRepr} {h c2 : W} (j k : Nat) (hj : j = i + 8)
    (hk : k = i + 48) (hx : (offsets 6 i).map s.sp = x.words) (hh : s.sp k = h)
    (hc : s.reg CX = c2) :
    ∃ t X, run (montRowText i) s = t ∧ X = montRow x h c2 ∧ (offsets 6 j).map t.sp = X.1.words ∧
    t.reg CX = X.2 ∧ (∀ l, k < l → t.sp l = s.sp l) := by
  subst hj hk
  obtain ⟨h1, h2, h3, -⟩ := montRowText_spec hx hh hc
  exact ⟨_, _, rfl, rfl, h1, h2, h3⟩

theorem montReduceText_spec (s : State) (hi lo : FQRepr)
    (hh : (offsets 6 0).map s.fp = hi.words) (hl : (offsets 6 48).map s.fp = lo.words) :
    (offsets 6 96).map (run montReduceText s).fp = (montReduceRepr hi lo).words := by
  rw [montReduceText_eq, run_append, run_append, run_append, run_append, run_append, run_append,
    run_append]
  simp only [offsets, List.map_cons, List.map_nil, FQRepr.words, List.cons.injEq, and_true,
    Nat.zero_add, Nat.reduceAdd] at hh
  obtain ⟨h0, h1, h2, h3, h4, h5⟩ := hh
  obtain ⟨s0, e0⟩ : ∃ t, t = run
    [MOVQ (fp 48) (reg AX), MOVQ (reg AX) (sp 0), MOVQ (fp 56) (reg AX), MOVQ (reg AX) (sp 8),
     MOVQ (fp 64) (reg AX), MOVQ (reg AX) (sp 16), MOVQ (fp 72) (reg AX), MOVQ (reg AX) (sp 24),
     MOVQ (fp 80) (reg AX), MOVQ (reg AX) (sp 32), MOVQ (fp 88) (reg AX), MOVQ (reg AX) (sp 40),
     MOVQ (fp 0) (reg AX), MOVQ (reg AX) (sp 48), MOVQ (fp 8) (reg AX), MOVQ (reg AX) (sp 56),
     MOVQ (fp 16) (reg AX), MOVQ (reg AX) (sp 64), MOVQ (fp 24) (reg AX), MOVQ (reg AX) (sp 72),
     MOVQ (fp 32) (reg AX), MOVQ (reg AX) (sp 80), MOVQ (fp 40) (reg AX), MOVQ (reg AX) (sp 88),
     XORQ (reg CX) (reg CX)] s := ⟨_, rfl⟩
  have hx : (offsets 6 0).map s0.sp = lo.words := by
    rw [e0, ← hl]
    rfl
  have hc : s0.reg CX = 0 := by rw [e0]; exact UInt64.xor_self
  have p0 : s0.sp 48 = hi.l0 := by rw [← h0, e0]; rfl
  have p1 : s0.sp 56 = hi.l1 := by rw [← h1, e0]; rfl
  have p2 : s0.sp 64 = hi.l2 := by rw [← h2, e0]; rfl
  have p3 : s0.sp 72 = hi.l3 := by rw [← h3, e0]; rfl
  have p4 : s0.sp 80 = hi.l4 := by rw [← h4, e0]; rfl
  have p5 : s0.sp 88 = hi.l5 := by rw [← h5, e0]; rfl
  rw [← e0]
  clear e0
  obtain ⟨s1, X1, e1, hX1, x1, c1, o1⟩ := montRowText_spec' 8 48 rfl rfl hx (h := hi.l0)
    (by rw [p0]) hc
  rw [e1]
  obtain ⟨s2, X2, e2, hX2, x2, c2, o2⟩ := montRowText_spec' 16 56 rfl rfl x1 (h := hi.l1)
    (by rw [o1 _ (by decide), p1]) c1
  rw [e2]
  obtain ⟨s3, X3, e3, hX3, x3, c3, o3⟩ := montRowText_spec' 24 64 rfl rfl x2 (h := hi.l2)
    (by rw [o2 _ (by decide), o1 _ (by decide), p2]) c2
  rw [e3]
  obtain ⟨s4, X4, e4, hX4, x4, c4, o4⟩ := montRowText_spec' 32 72 rfl rfl x3 (h := hi.l3)
    (by rw [o3 _ (by decide), o2 _ (by decide), o1 _ (by decide), p3]) c3
  rw [e4]
  obtain ⟨s5, X5, e5, hX5, x5, c5, o5⟩ := montRowText_spec' 40 80 rfl rfl x4 (h := hi.l4)
    (by rw [o4 _ (by decide), o3 _ (by decide), o2 _ (by decide), o1 _ (by decide), p4]) c4
  rw [e5]
  obtain ⟨s6, X6, e6, hX6, x6, c6, o6⟩ := montRowText_spec' 48 88 rfl rfl x5 (h := hi.l5)
    (by rw [o5 _ (by decide), o4 _ (by decide), o3 _ (by decide), o2 _ (by decide), o1 _ (by decide), p5]) c5
  rw [e6]
  rw [montReduceRepr_eq hi lo hX1 hX2 hX3 hX4 hX5 hX6, ← x6]
  simp (disch := decide) only [offsets, List.map_cons, List.map_nil, Nat.reduceAdd, run_cons,
    run_nil, step, get_reg, get_sp, fp_put_self, fp_put_ne, reg_put_self, fp_put_reg, sp_put_reg,
    sp_put_fp]

/-! ## The short functions -/

theorem macWithCarryText_spec (s : State) :
    let x := macWithCarry (s.fp 0) (s.fp 8) (s.fp 16) (s.fp 24)
    (run macWithCarryText s).fp 32 = x.1 ∧ (run macWithCarryText s).fp 40 = x.2 := by
  intro x
  have hx : x = _ := (macWithCarry_comm _ _ _ _).trans (macWithCarry_eq _ _ _ _)
  rw [hx, ← bit_carry, ← bit_carry]
  constructor
  · rfl
  · have e : (run macWithCarryText s).fp 40 =
        UInt64.ofNat ((s.fp 16).toNat * (s.fp 8).toNat / 2 ^ 64) + 0 +
        bit (decide (2 ^ 64 ≤ (s.fp 16 * s.fp 8).toNat + (s.fp 0).toNat)) + 0 +
        bit (decide (2 ^ 64 ≤ (s.fp 16 * s.fp 8 + s.fp 0).toNat + (s.fp 24).toNat)) := rfl
    rw [e, UInt64.add_zero, UInt64.add_zero]

theorem addWithCarryText_spec (s : State) :
    let x := addWithCarry (s.fp 0) (s.fp 8) (s.fp 16)
    (run addWithCarryText s).fp 24 = x.1 ∧ (run addWithCarryText s).fp 32 = x.2 := by
  intro x
  have hx : x = _ := addWithCarry_eq _ _ _
  rw [hx, ← bit_carry, ← bit_carry]
  constructor
  · rfl
  · have e : (run addWithCarryText s).fp 32 = (s.reg BX ^^^ s.reg BX) + 0 +
        bit (decide (2 ^ 64 ≤ (s.fp 0).toNat + (s.fp 8).toNat)) + 0 +
        bit (decide (2 ^ 64 ≤ (s.fp 0 + s.fp 8).toNat + (s.fp 16).toNat)) := rfl
    rw [e, UInt64.add_zero, UInt64.add_zero, UInt64.xor_self, UInt64.zero_add]

theorem subWithBorrowText_spec (s : State) (h : (s.fp 16).toNat ≤ 1) :
    let x := subWithBorrow (s.fp 0) (s.fp 8) (s.fp 16)
    (run subWithBorrowText s).fp 24 = x.1 ∧ (run subWithBorrowText s).fp 32 = x.2 := by
  intro x
  constructor
  · rfl
  · have e : (run subWithBorrowText s).fp 32 =
        ((s.reg BX ^^^ s.reg BX) &&& 0xffffffffffffff00 |||
          bit (decide ((s.fp 0 - s.fp 8).toNat < (s.fp 16).toNat))) |||
        ((s.reg DX ^^^ s.reg DX) &&& 0xffffffffffffff00 |||
          bit (decide ((s.fp 0).toNat < (s.fp 8).toNat))) := rfl
    rw [e, UInt64.xor_self, UInt64.xor_self, UInt64.zero_and, UInt64.zero_or, UInt64.zero_or]
    have hx : x.2 = if (s.fp 0).toNat < (s.fp 8).toNat + (s.fp 16).toNat then 1 else 0 := rfl
    rw [hx]
    have hsub := UInt64.toNat_sub (s.fp 0) (s.fp 8)
    have l0 := W.lt (s.fp 0)
    have l1 := W.lt (s.fp 8)
    generalize (s.fp 0 - s.fp 8).toNat = d at *
    generalize (s.fp 0).toNat = a at *
    generalize (s.fp 8).toNat = b at *
    generalize (s.fp 16).toNat = c at *
    by_cases h1 : a < b
    · have h2 : ¬ d < c := by omega
      rw [decide_eq_true h1, decide_eq_false h2, if_pos (by omega)]
      decide
    · by_cases h2 : d < c
      · rw [decide_eq_false h1, decide_eq_true h2, if_pos (by omega)]
        decide
      · rw [decide_eq_false h1, decide_eq_false h2, if_neg (by omega)]
        decide

/-! ## Carry chains -/

/-- A chain of `ADCQ` or `SBBQ`: `f` gives the result, `g` the flag. -/
def chainList (f : W → W → Bool → W) (g : W → W → Bool → Bool) :
    List W → List W → Bool → List W
  | a :: as, d :: ds, c => f d a c :: chainList f g as ds (g d a c)
  | _, _, _ => []

theorem chain_spec {I : Opd → Opd → Instr} {f : W → W → Bool → W} {g : W → W → Bool → Bool}
    (hI : ∀ s a d, step s (I (reg a) (reg d)) =
      (s.put (reg d) (f (s.reg d) (s.reg a) s.cf)).flag (g (s.reg d) (s.reg a) s.cf))
    (ps : List (Reg × Reg)) (s : State) (hn : (ps.map Prod.snd).Nodup)
    (hd : ∀ p ∈ ps, p.1 ∉ ps.map Prod.snd) :
    (ps.map Prod.snd).map (run (ps.map fun p => I (reg p.1) (reg p.2)) s).reg =
      chainList f g ((ps.map Prod.fst).map s.reg) ((ps.map Prod.snd).map s.reg) s.cf ∧
    (∀ y, y ∉ ps.map Prod.snd → (run (ps.map fun p => I (reg p.1) (reg p.2)) s).reg y = s.reg y) := by
  induction ps generalizing s with
  | nil => exact ⟨rfl, fun _ _ => rfl⟩
  | cons p ps ih =>
    rw [List.map_cons, List.nodup_cons] at hn
    obtain ⟨h1, h2⟩ := ih (step s (I (reg p.1) (reg p.2))) hn.2 fun x hx hm =>
      hd x (List.mem_cons_of_mem _ hx) (by rw [List.map_cons]; exact List.mem_cons_of_mem _ hm)
    rw [List.map_cons, List.map_cons, List.map_cons, List.map_cons, List.map_cons, List.map_cons, run_cons]
    have o : ∀ y, y ≠ p.2 → (step s (I (reg p.1) (reg p.2))).reg y = s.reg y := fun y hy => by
      rw [hI, reg_flag, reg_put_ne _ _ hy]
    have e1 : (ps.map Prod.fst).map (step s (I (reg p.1) (reg p.2))).reg =
        (ps.map Prod.fst).map s.reg := by
      refine List.map_congr_left fun y hy => o y fun h => ?_
      obtain ⟨x, hx, hxy⟩ := List.mem_map.mp hy
      refine hd x (List.mem_cons_of_mem _ hx) ?_
      rw [hxy, h, List.map_cons]
      exact List.mem_cons_self
    have e2 : (ps.map Prod.snd).map (step s (I (reg p.1) (reg p.2))).reg =
        (ps.map Prod.snd).map s.reg :=
      List.map_congr_left fun y hy => o y fun h => hn.1 (h ▸ hy)
    rw [e1, e2] at h1
    refine ⟨?_, fun y hy => ?_⟩
    · rw [h1, h2 _ hn.1, chainList, hI, reg_flag, cf_flag, reg_put_self]
    · simp only [List.mem_cons, not_or] at hy
      rw [h2 y hy.2, o y hy.1]

/-- The carry out of one step of the addition. -/
def adcBit (d a : W) (c : Bool) : Bool := decide (2 ^ 64 ≤ d.toNat + a.toNat + (bit c).toNat)

theorem bit_toNat_le (c : Bool) : (bit c).toNat ≤ 1 := by cases c <;> decide

theorem addWithCarry_bit (a b : W) (c : Bool) :
    addWithCarry a b (bit c) = (b + a + bit c, bit (adcBit b a c)) := by
  have h := addWithCarry_spec a b (bit c)
  have e1 : (addWithCarry a b (bit c)).1 = b + a + bit c := by
    rw [addWithCarry_eq, UInt64.add_comm b a]
  refine Prod.ext e1 (UInt64.toNat_inj.mp ?_)
  have hc := bit_toNat_le c
  have ha := W.lt a
  have hb := W.lt b
  have hl := W.lt (addWithCarry a b (bit c)).1
  rw [adcBit]
  by_cases h1 : 2 ^ 64 ≤ b.toNat + a.toNat + (bit c).toNat
  · rw [decide_eq_true h1]
    change _ = 1
    omega
  · rw [decide_eq_false h1]
    change _ = 0
    omega

theorem addNoCarry_chain (a b : FQRepr) : (a.addNoCarry b).words =
    chainList (fun d a c => d + a + bit c) adcBit a.words b.words false := by
  unfold FQRepr.addNoCarry
  rw [show (0 : W) = bit false from rfl]
  simp only [addWithCarry_bit]
  rfl

/-- The borrow out of one step of the subtraction. -/
def sbbBit (d a : W) (c : Bool) : Bool := decide (d.toNat < a.toNat + (bit c).toNat)

theorem subWithBorrow_bit (a b : W) (c : Bool) :
    subWithBorrow a b (bit c) = (a - b - bit c, bit (sbbBit a b c)) := by
  rw [subWithBorrow, sub64, bit.eq_1 (sbbBit _ _ _), sbbBit]
  simp only [decide_eq_true_eq]

theorem subNoBorrow_chain (a b : FQRepr) : (a.subNoBorrow b).words =
    chainList (fun d a c => d - a - bit c) sbbBit b.words a.words false := by
  unfold FQRepr.subNoBorrow
  rw [show (0 : W) = bit false from rfl]
  simp only [subWithBorrow_bit]
  rfl

def loads : List Instr :=
  [MOVQ (fp 0) (reg AX), MOVQ (fp 48) (reg CX), MOVQ (fp 8) (reg DX), MOVQ (fp 56) (reg BX),
   MOVQ (fp 16) (reg BP), MOVQ (fp 64) (reg SI), MOVQ (fp 24) (reg DI), MOVQ (fp 72) (reg R8),
   MOVQ (fp 32) (reg R9), MOVQ (fp 80) (reg R10), MOVQ (fp 40) (reg R11), MOVQ (fp 88) (reg R12)]

theorem loads_spec (s : State) :
    [AX, DX, BP, DI, R9, R11].map (run loads s).reg = (offsets 6 0).map s.fp ∧
    [CX, BX, SI, R8, R10, R12].map (run loads s).reg = (offsets 6 48).map s.fp := ⟨rfl, rfl⟩

def stores (r0 r1 r2 r3 r4 r5 : Reg) : List Instr :=
  [MOVQ (reg r0) (fp 96), MOVQ (reg r1) (fp 104), MOVQ (reg r2) (fp 112), MOVQ (reg r3) (fp 120),
   MOVQ (reg r4) (fp 128), MOVQ (reg r5) (fp 136)]

theorem stores_spec (s : State) (r0 r1 r2 r3 r4 r5 : Reg) :
    (offsets 6 96).map (run (stores r0 r1 r2 r3 r4 r5) s).fp =
      [r0, r1, r2, r3, r4, r5].map s.reg := rfl

theorem addNoCarryText_eq : addNoCarryText = loads ++ (ADDQ (reg AX) (reg CX) ::
    (([(DX, BX), (BP, SI), (DI, R8), (R9, R10), (R11, R12)].map fun p => ADCQ (reg p.1) (reg p.2)) ++
    stores CX BX SI R8 R10 R12)) := by decide +kernel

theorem subNoBorrowText_eq : subNoBorrowText = loads ++ (SUBQ (reg CX) (reg AX) ::
    (([(BX, DX), (SI, BP), (R8, DI), (R10, R9), (R12, R11)].map fun p => SBBQ (reg p.1) (reg p.2)) ++
    stores AX DX BP DI R9 R11)) := by decide +kernel

theorem step_ADDQ (s : State) (a d : Reg) :
    step s (ADDQ (reg a) (reg d)) = step (s.flag false) (ADCQ (reg a) (reg d)) := by
  rw [step, step, cf_flag, show bit false = 0 from rfl, UInt64.add_zero]
  rfl

theorem step_SUBQ (s : State) (a d : Reg) :
    step s (SUBQ (reg a) (reg d)) = step (s.flag false) (SBBQ (reg a) (reg d)) := by
  rw [step, step, cf_flag, show bit false = 0 from rfl, UInt64.sub_zero]
  rfl

theorem addNoCarryText_spec (s : State) (a b : FQRepr)
    (ha : (offsets 6 0).map s.fp = a.words) (hb : (offsets 6 48).map s.fp = b.words) :
    (offsets 6 96).map (run addNoCarryText s).fp = (a.addNoCarry b).words := by
  obtain ⟨h1, h2⟩ := loads_spec s
  rw [addNoCarryText_eq, run_append, run_cons, run_append, stores_spec, step_ADDQ, ← run_cons,
    addNoCarry_chain, ← ha, ← hb, ← h1, ← h2]
  exact (chain_spec (I := ADCQ) (f := fun d a c => d + a + bit c) (g := adcBit) (fun _ _ _ => rfl)
    [(AX, CX), (DX, BX), (BP, SI), (DI, R8), (R9, R10), (R11, R12)] ((run loads s).flag false)
    (by decide) (by decide)).1

theorem subNoBorrowText_spec (s : State) (a b : FQRepr)
    (ha : (offsets 6 0).map s.fp = a.words) (hb : (offsets 6 48).map s.fp = b.words) :
    (offsets 6 96).map (run subNoBorrowText s).fp = (a.subNoBorrow b).words := by
  obtain ⟨h1, h2⟩ := loads_spec s
  rw [subNoBorrowText_eq, run_append, run_cons, run_append, stores_spec, step_SUBQ, ← run_cons,
    subNoBorrow_chain, ← ha, ← hb, ← h1, ← h2]
  exact (chain_spec (I := SBBQ) (f := fun d a c => d - a - bit c) (g := sbbBit) (fun _ _ _ => rfl)
    [(CX, AX), (BX, DX), (SI, BP), (R8, DI), (R10, R9), (R12, R11)] ((run loads s).flag false)
    (by decide) (by decide)).1

end Bls.Asm
