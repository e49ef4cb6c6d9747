import Verif.Spec.Asm
import Verif.Spec.Limbs
import Verif.Proof.Asm2
import Verif.Proof.FQRepr
/-
C10: the amd64 assembly and the portable functions agree. `Returns p args results` is in
Verif/Spec/Asm.lean; the portable functions are those of Verif/Model/Word.lean,
Verif/Model/FQRepr.lean and Verif/Model/FQ.lean.
-/
namespace Bls.Props
open Bls.Asm

theorem offsets_map (f : Nat → W) (l : List W) (i : Nat) :
    (offsets l.length i).map f = l ↔ ∀ (k : Nat) (h : k < l.length), f (i + 8 * k) = l[k] := by
  induction l generalizing i with
  | nil => exact ⟨fun _ k h => absurd h (Nat.not_lt_zero k), fun _ => rfl⟩
  | cons a l ih =>
    change f i :: (offsets l.length (i + 8)).map f = a :: l ↔ _
    rw [List.cons.injEq, ih]
    constructor
    · rintro ⟨h1, h2⟩ k hk
      cases k with
      | zero => exact h1
      | succ k =>
        rw [show i + 8 * (k + 1) = i + 8 + 8 * k by omega, h2 k (Nat.lt_of_succ_lt_succ hk)]
        rfl
    · intro h
      refine ⟨h 0 (Nat.succ_pos _), fun k hk => ?_⟩
      rw [show i + 8 + 8 * k = i + 8 * (k + 1) by omega, h (k + 1) (Nat.succ_lt_succ hk)]
      rfl

theorem holds_append {s : State} {i : Nat} {l m : List W} :
    s.Holds i (l ++ m) ↔ s.Holds i l ∧ s.Holds (i + 8 * l.length) m := by
  simp only [State.Holds, ← offsets_map]
  induction l generalizing i with
  | nil =>
    exact ⟨fun h => ⟨rfl, h⟩, fun h => h.2⟩
  | cons a l ih =>
    rw [List.cons_append, List.length_cons, offsets, List.map_cons, List.cons.injEq, ih,
      List.length_cons, offsets, List.map_cons, List.cons.injEq,
      show i + 8 * (l.length + 1) = i + 8 + 8 * l.length by omega, and_assoc]

/-- Every list of arguments can be passed. -/
example (args : List W) : ∃ s : State, s.Holds 0 args :=
  ⟨⟨fun _ => 0, fun _ => 0, fun j => args.getD (j / 8) 0, false⟩, fun k h => by
    simp only [Nat.zero_add, Nat.mul_div_cancel_left k (by decide : 0 < 8)]
    rw [List.getD, List.getElem?_eq_getElem h, Option.getD_some]⟩

theorem C10_macWithCarry (a b c carry : W) :
    Returns macWithCarryText [a, b, c, carry]
      [(macWithCarry a b c carry).1, (macWithCarry a b c carry).2] := by
  intro s h
  have h0 : s.fp 0 = a := h 0 (by decide : 0 < 4)
  have h1 : s.fp 8 = b := h 1 (by decide : 1 < 4)
  have h2 : s.fp 16 = c := h 2 (by decide : 2 < 4)
  have h3 : s.fp 24 = carry := h 3 (by decide : 3 < 4)
  obtain ⟨e1, e2⟩ := macWithCarryText_spec s
  rw [h0, h1, h2, h3] at e1 e2
  exact (offsets_map _ _ _).mp (congrArg₂ _ e1 (congrArg₂ _ e2 rfl))

theorem C10_addWithCarry (a b carry : W) :
    Returns addWithCarryText [a, b, carry]
      [(addWithCarry a b carry).1, (addWithCarry a b carry).2] := by
  intro s h
  have h0 : s.fp 0 = a := h 0 (by decide : 0 < 3)
  have h1 : s.fp 8 = b := h 1 (by decide : 1 < 3)
  have h2 : s.fp 16 = carry := h 2 (by decide : 2 < 3)
  obtain ⟨e1, e2⟩ := addWithCarryText_spec s
  rw [h0, h1, h2] at e1 e2
  exact (offsets_map _ _ _).mp (congrArg₂ _ e1 (congrArg₂ _ e2 rfl))

/-- For a borrow of 0 or 1: for others `bits.Sub64`, which the portable version calls, is
unspecified, and no caller passes them (`C10_borrow`). -/
theorem C10_subWithBorrow (a b borrow : W) (hb : borrow.toNat ≤ 1) :
    Returns subWithBorrowText [a, b, borrow]
      [(subWithBorrow a b borrow).1, (subWithBorrow a b borrow).2] := by
  intro s h
  have h0 : s.fp 0 = a := h 0 (by decide : 0 < 3)
  have h1 : s.fp 8 = b := h 1 (by decide : 1 < 3)
  have h2 : s.fp 16 = borrow := h 2 (by decide : 2 < 3)
  obtain ⟨e1, e2⟩ := subWithBorrowText_spec s (h2 ▸ hb)
  rw [h0, h1, h2] at e1 e2
  exact (offsets_map _ _ _).mp (congrArg₂ _ e1 (congrArg₂ _ e2 rfl))

example : (1 : W).toNat ≤ 1 := by decide

/-- A borrow returned is 0 or 1, so that it may be passed on. -/
theorem C10_borrow (a b borrow : W) (hb : borrow.toNat ≤ 1) :
    (subWithBorrow a b borrow).2.toNat ≤ 1 := (subWithBorrow_spec a b borrow hb).2

theorem C10_multiplyFQRepr (a b : FQRepr) :
    Returns multiplyFQReprText (a.words ++ b.words)
      ((a.multiply b).1.words ++ (a.multiply b).2.words) := by
  intro s h
  rw [holds_append] at h
  obtain ⟨e1, e2⟩ := multiplyFQReprText_spec s a b ((offsets_map _ a.words 0).mpr h.1)
    ((offsets_map _ b.words 48).mpr h.2)
  rw [show 8 * (a.words ++ b.words).length = 96 from rfl, holds_append,
    show 96 + 8 * (a.multiply b).1.words.length = 144 from rfl]
  exact ⟨(offsets_map _ (a.multiply b).1.words 96).mp e1,
    (offsets_map _ (a.multiply b).2.words 144).mp e2⟩

theorem C10_montReduce (hi lo : FQRepr) :
    Returns montReduceText (hi.words ++ lo.words) (montReduceRepr hi lo).words := by
  intro s h
  rw [holds_append] at h
  rw [show 8 * (hi.words ++ lo.words).length = 96 from rfl]
  exact (offsets_map _ (montReduceRepr hi lo).words 96).mp (montReduceText_spec s hi lo
    ((offsets_map _ hi.words 0).mpr h.1) ((offsets_map _ lo.words 48).mpr h.2))

theorem C10_addNoCarry (a b : FQRepr) :
    Returns addNoCarryText (a.words ++ b.words) (a.addNoCarry b).words := by
  intro s h
  rw [holds_append] at h
  rw [show 8 * (a.words ++ b.words).length = 96 from rfl]
  exact (offsets_map _ (a.addNoCarry b).words 96).mp (addNoCarryText_spec s a b
    ((offsets_map _ a.words 0).mpr h.1) ((offsets_map _ b.words 48).mpr h.2))

theorem C10_subNoBorrow (a b : FQRepr) :
    Returns subNoBorrowText (a.words ++ b.words) (a.subNoBorrow b).words := by
  intro s h
  rw [holds_append] at h
  rw [show 8 * (a.words ++ b.words).length = 96 from rfl]
  exact (offsets_map _ (a.subNoBorrow b).words 96).mp (subNoBorrowText_spec s a b
    ((offsets_map _ a.words 0).mpr h.1) ((offsets_map _ b.words 48).mpr h.2))

/-- What that means for the product: the assembly computes it exactly. -/
theorem C10_multiplyFQRepr_value (a b : FQRepr) : ∃ hi lo : FQRepr,
    Returns multiplyFQReprText (a.words ++ b.words) (hi.words ++ lo.words) ∧
    hi.toNat * 2 ^ 384 + lo.toNat = a.toNat * b.toNat :=
  ⟨_, _, C10_multiplyFQRepr a b, FQRepr.multiply_spec a b⟩

end Bls.Props
