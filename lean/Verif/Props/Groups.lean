import Verif.Proof.GroupsLib
/-
C84: a program that uses scalars, points of both groups and values of the pairing computes in the groups. Programs, and what
they compute on paper: Verif/Spec/Groups.lean.
-/
namespace Bls.Props

open Groups

/-- One bilinear, non-degenerate pairing, one way to encode scalars and points and one generator of each group explain every
program: started on variables that denote scalars, points of order r and roots of unity, the program panics (or meets a nil
result) exactly if it has no result on paper, and otherwise it sees the same results of comparisons and the same bytes, and
leaves variables that denote what the program makes on paper. -/
theorem C84_groups : ∃ (c : Choice) (G : E1) (H : E2), c.Lawful ∧ (G ≠ 0 ∧ r • G = 0) ∧ (H ≠ 0 ∧ r • H = 0) ∧
    ∀ (p : Prog) (v : Vars FR G1Projective G2Projective FQ12) (w : Vars (ZMod r) E1 E2 Fq12), Denote v w →
      (p.run library v = none ↔ p.run (paper c G H) w = none) ∧
      ∀ v' o, p.run library v = some (v', o) → ∃ w', p.run (paper c G H) w = some (w', o) ∧ Denote v' w' := by
  refine ⟨choice, g1Gen, g2Gen, lawful, ⟨g1Gen_ne_zero, r_smul_g1Gen⟩, ⟨g2Gen_ne_zero, r_smul_g2Gen⟩, fun p v w h => ?_⟩
  have hr := related.run p (denote_iff.mp h)
  constructor
  · generalize p.run library v = y at hr
    generalize p.run (paper choice g1Gen g2Gen) w = x at hr
    cases hr with
    | none => exact ⟨fun _ => rfl, fun _ => rfl⟩
    | some => exact ⟨fun h => (Option.some_ne_none _ h).elim, fun h => (Option.some_ne_none _ h).elim⟩
  · intro v' o e
    rw [e] at hr
    cases hr' : p.run (paper choice g1Gen g2Gen) w with
    | none => rw [hr'] at hr; cases hr
    | some x =>
      rw [hr'] at hr
      cases hr with
      | some hx =>
        refine ⟨x.1, ?_, denote_iff.mpr hx.1⟩
        have e2 : o = x.2 := hx.2
        rw [e2]

/-- What a program sees, and whether it panics, depends on the elements its variables denote and not on how they are
represented, for example not on the projective coordinates of a point. -/
theorem C84_same (p : Prog) (v v' : Vars FR G1Projective G2Projective FQ12) (w : Vars (ZMod r) E1 E2 Fq12)
    (h : Denote v w) (h' : Denote v' w) : (p.run library v).map (·.2) = (p.run library v').map (·.2) := by
  have hr := related.run p (denote_iff.mp h)
  have hr' := related.run p (denote_iff.mp h')
  generalize p.run (paper choice g1Gen g2Gen) w = x at hr hr'
  generalize p.run library v = y at hr
  generalize p.run library v' = z at hr'
  cases hr with
  | none => cases hr'; rfl
  | some hx => cases hr' with | some hx' => exact congrArg some (hx.2.trans hx'.2.symm)

/-- Programs never leave the groups: they never make a variable that does not denote an element. -/
theorem C84_closed (p : Prog) (v v' : Vars FR G1Projective G2Projective FQ12) (w : Vars (ZMod r) E1 E2 Fq12) (o : List Obs)
    (h : Denote v w) (e : p.run library v = some (v', o)) : ∃ w', Denote v' w' := by
  have hr := related.run p (denote_iff.mp h)
  rw [e] at hr
  generalize p.run (paper choice g1Gen g2Gen) w = x at hr
  cases hr with
  | some hx => exact ⟨_, denote_iff.mpr hx.1⟩

/-! ## Cases that meet the hypotheses -/

/-- A program that multiplies the generators by k, compares the pairings of kG with H and of G with kH, and then asks for
an inverse of 0 unless they were equal. -/
def progCompare (k : FRRepr) : Prog :=
  .scalar k (.gen1 (.gen2 (.mul1 .projective 0 0 (.mul2 .affine 0 0 (.test (.compare 1 0 0 1) fun b =>
    if b then .done else .binF .sub 0 0 (.invF 1 .done))))))

/-- No variables denote no elements. -/
theorem denote_nil : Denote ⟨[], [], [], []⟩ ⟨[], [], [], []⟩ := ⟨.nil, .nil, .nil, .nil⟩

/-- The program runs to its end and sees that the pairings are equal, for every k from 1 to r - 1. -/
example (k : FRRepr) (h0 : 0 < k.toNat) (hk : k.toNat < r) :
    ((progCompare k).run library ⟨[], [], [], []⟩).map (·.2) = some [.bool true] := by
  obtain ⟨c, G, H, hc, hG, hH, h⟩ := C84_groups
  obtain ⟨hn, hs⟩ := h (progCompare k) _ _ denote_nil
  have e1 : (k.toNat : ZMod r).val = k.toNat := ZMod.val_natCast_of_lt hk
  have left : ∀ n : ℕ, c.e (n • G) H = c.e G H ^ n := fun n => by
    induction n with
    | zero =>
      have := hc.add_left 0 0 H (nsmul_zero _) (nsmul_zero _) hH.2
      rw [add_zero] at this
      rw [zero_nsmul, pow_zero]
      refine (mul_eq_left₀ ?_).mp this.symm
      intro e0
      have := hc.root 0 H (nsmul_zero _) hH.2
      rw [e0, zero_pow r_pos.ne'] at this
      exact zero_ne_one this
    | succ n ih =>
      rw [succ_nsmul, hc.add_left _ _ _ (nsmul_val n hG.2) hG.2 hH.2, ih, pow_succ]
  have right : ∀ n : ℕ, c.e G (n • H) = c.e G H ^ n := fun n => by
    induction n with
    | zero =>
      have := hc.add_right G 0 0 hG.2 (nsmul_zero _) (nsmul_zero _)
      rw [add_zero] at this
      rw [zero_nsmul, pow_zero]
      refine (mul_eq_left₀ ?_).mp this.symm
      intro e0
      have := hc.root G 0 hG.2 (nsmul_zero _)
      rw [e0, zero_pow r_pos.ne'] at this
      exact zero_ne_one this
    | succ n ih =>
      rw [succ_nsmul, hc.add_right _ _ _ hG.2 (nsmul_val n hH.2) hH.2, ih, pow_succ]
  have hkG : k.toNat • G ≠ 0 := G1Pubs.nsmul_ne_of_lt hG.1 hG.2 h0.ne' hk
  have hkH : k.toNat • H ≠ 0 := G1Pubs.nsmul_ne_of_lt hH.1 hH.2 h0.ne' hk
  have hp : (progCompare k).run (paper c G H) ⟨[], [], [], []⟩ =
      some (⟨[(k.toNat : ZMod r)], [G, k.toNat • G], [H, k.toNat • H], []⟩, [.bool true]) := by
    simp [progCompare, Prog.run, Test.run, paper, Vars.pushF, Vars.push1, Vars.push2, see, hk, e1, hG.1, hH.1, hkG, hkH, left, right]
  cases hr : (progCompare k).run library ⟨[], [], [], []⟩ with
  | none => rw [hn.mp hr] at hp; cases hp
  | some x =>
    obtain ⟨w', hw, -⟩ := hs x.1 x.2 hr
    rw [hp, Option.some.injEq, Prod.mk.injEq] at hw
    rw [Option.map_some, ← hw.2]

/-- A scalar, a point in two representations, a point of the other group and a value of the pairing. -/
example (s : FR) (hs : s.isValid = true) :
    ∃ w, Denote ⟨[s], [G1Projective.one.double], [G2Projective.one.mulFR s.toRepr], [FQ12.one]⟩ w ∧
      Denote ⟨[s], [G1Projective.one.double.toAffine.toProjective], [G2Projective.one.mulFR s.toRepr], [FQ12.one]⟩ w := by
  have hs' := FR.rep_int hs
  have h1 := related.un1 .double related.gen1
  have h2 := related.mul2 .projective related.gen2 hs'
  exact ⟨⟨[(s.int : ZMod r)], [_], [_], [1]⟩, denote_iff.mpr ⟨.cons hs' .nil, .cons h1 .nil,
    .cons h2 .nil, .cons related.oneT .nil⟩, denote_iff.mpr ⟨.cons hs' .nil, .cons (related.un1 .affine h1) .nil,
    .cons h2 .nil, .cons related.oneT .nil⟩⟩

/-- The two representations differ. -/
example : G1Projective.one.double.z ≠ G1Projective.one.double.toAffine.toProjective.z := by
  decide +kernel

end Bls.Props
