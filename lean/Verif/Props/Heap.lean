import Verif.Proof.History
import Verif.Props.FR
/-
C45, C46, C53 for the scalar field: which objects the calls change. A `World` is a memory with the
pointers a caller holds; `History w`: some sequence of calls leads from a fresh process to `w`
(Verif/Spec/History.lean).
-/
set_option exponentiation.threshold 1000
namespace Bls.Props
open Bls.Heap

/-- A caller who made an `FRRepr` with value `v` and gave it to `FRReprToFR`. -/
def demo (v : FRRepr) : World :=
  ⟨(frReprToFR (init.alloc v).2 6).2, (frReprToFR (init.alloc v).2 6).1.toList ++ [], [6]⟩

theorem demo_history (v : FRRepr) : HistoryNoSqrt (demo v) := by
  have e : (init.alloc v).1 = 6 := init_frs.2.2.1
  have h1 : Call World.start ⟨(init.alloc v).2, [], [6]⟩ := by
    have := Call.newRepr (w := World.start) v
    rw [show (World.start.mem.alloc v).1 = 6 from e] at this
    exact this
  have h2 : Call ⟨(init.alloc v).2, [], [6]⟩ (demo v) :=
    Call.frReprToFR (w := ⟨(init.alloc v).2, [], [6]⟩) 6 (List.mem_singleton.mpr rfl)
  exact .tail (.tail .refl h1) h2

theorem historyNoSqrt_history {w : World} (h : HistoryNoSqrt w) : History w :=
  Relation.ReflTransGen.mono (fun _ _ h => Or.inl h) _ _ h

/-- The caller of `demo` holds one `FR`, with the integer 4. -/
example : (demo (.new 4)).frs = [4] ∧ (demo (.new 4)).reprs = [6] ∧
    ((demo (.new 4)).mem.val 4).isValid ∧ ((demo (.new 4)).mem.val 4).int = 4 := by decide +kernel

/-! ## C45 -/

/-- `FRReprToFR(o)`: afterwards the caller's own array `*o` holds `o·2^256 mod r` (if `o < r`). -/
theorem C45_frReprToFR (w : World) (h : History w) (o : Nat) (ho : o ∈ w.reprs) :
    ((frReprToFR w.mem o).2.cell o).toNat =
      if (w.mem.cell o).toNat < r then (w.mem.cell o).toNat * 2 ^ 256 % r
      else (w.mem.cell o).toNat := by
  have hi := h.inv
  rw [(frReprToFR_spec hi.consts (.inl (hi.reprs o ho).1)).2.2.2.2.1]
  by_cases hlt : (w.mem.cell o).toNat < r
  · rw [if_pos (FR.isValid_iff.mpr hlt), if_pos hlt]
    have hr := FR.raw_mul_R2 hlt
    have h1 := (FR.rep_iff.mp hr).1
    have h2 := (FR.rep_iff.mp hr).2
    rw [Rr_eq, ← Nat.cast_mul] at h2
    rw [← Nat.mod_eq_of_lt h1]
    exact (ZMod.natCast_eq_natCast_iff _ _ _).mp h2
  · rw [if_neg (fun hv => hlt (FR.isValid_iff.mp hv)), if_neg hlt]

/-- So the argument is changed exactly when it is accepted and not zero. -/
theorem C45_frReprToFR_changes (w : World) (h : History w) (o : Nat) (ho : o ∈ w.reprs) :
    (frReprToFR w.mem o).2.cell o ≠ w.mem.cell o ↔
      0 < (w.mem.cell o).toNat ∧ (w.mem.cell o).toNat < r := by
  have e := C45_frReprToFR w h o ho
  generalize (frReprToFR w.mem o).2.cell o = b at e
  generalize w.mem.cell o = a at e
  have hab : b = a ↔ b.toNat = a.toNat := ⟨fun e => by rw [e], FRRepr.toNat_inj⟩
  rw [Ne, hab, e]
  by_cases hlt : a.toNat < r
  · rw [if_pos hlt]
    refine ⟨fun hne => ⟨Nat.pos_of_ne_zero fun h0 => hne (by rw [h0, zero_mul, Nat.zero_mod]), hlt⟩,
      fun hp he => ?_⟩
    have h1 : ((a.toNat * 2 ^ 256 : ℕ) : Fr) = (a.toNat : Fr) := by
      rw [ZMod.natCast_eq_natCast_iff', he, Nat.mod_eq_of_lt hlt]
    rw [Nat.cast_mul] at h1
    have h2 : (a.toNat : Fr) ≠ 0 := by
      intro h0
      rw [ZMod.natCast_eq_zero_iff] at h0
      have := Nat.le_of_dvd hp.1 h0
      omega
    have h3 : ((2 ^ 256 : ℕ) : Fr) = ((1 : ℕ) : Fr) := by
      rw [Nat.cast_one]
      exact mul_left_cancel₀ h2 (by rw [h1, mul_one])
    rw [ZMod.natCast_eq_natCast_iff'] at h3
    revert h3
    rw [r]
    norm_num
  · rw [if_neg hlt]
    exact ⟨fun h => absurd rfl h, fun h => absurd h.2 hlt⟩

/-- The claim is false of `FRReprToFR`. -/
theorem C45_frReprToFR_false : ¬ ∀ (w : World) (o : Nat), History w → o ∈ w.reprs →
    (frReprToFR w.mem o).2.cell o = w.mem.cell o := by
  intro h
  have h1 := h (demo (.new 4)) 6 (historyNoSqrt_history (demo_history _)) (List.mem_singleton.mpr rfl)
  revert h1
  decide +kernel

/-- The claim is false of `KeyFromFQRepr`. -/
theorem C45_keyFromFQRepr_false : ¬ ∀ (w : World) (o : Nat), History w → o ∈ w.reprs →
    (keyFromFQRepr w.mem o).2.cell o = w.mem.cell o := C45_frReprToFR_false

/-- The arguments of `AddAssign`, `SubAssign` and `MulAssign` keep their value, if the argument and
the receiver do not share their array; the receiver gets the result. Missing: `FRReprToFR` and
`KeyFromFQRepr`, which do change their argument. -/
theorem C45_assign_partial (w : World) (h : History w) (f o : Nat) (hf : f ∈ w.frs) :
    (w.mem.fr f ≠ w.mem.fr o → (addAssign w.mem f o).val o = w.mem.val o ∧
      (subAssign w.mem f o).val o = w.mem.val o ∧ (mulAssign w.mem f o).val o = w.mem.val o) ∧
    (addAssign w.mem f o).val f = (w.mem.val f).add (w.mem.val o) ∧
    (subAssign w.mem f o).val f = (w.mem.val f).sub (w.mem.val o) ∧
    (mulAssign w.mem f o).val f = (w.mem.val f).mul (w.mem.val o) := by
  have hi := h.inv
  have hm := hi.consts.mod
  rw [addAssign_eq hm (hi.fr_mod hf), subAssign_eq hm, mulAssign_eq hm (hi.fr_mod hf)]
  refine ⟨fun hne => ⟨?_, ?_, ?_⟩, ?_, ?_, ?_⟩
  · simp only [Mem.val, Mem.set_fr, Mem.set_ne hne.symm]
  · simp only [Mem.val, Mem.set_fr, Mem.set_ne hne.symm]
  · simp only [Mem.val, Mem.set_fr, Mem.set_ne hne.symm]
  · simp only [Mem.val, Mem.set_fr, Mem.set_self]
  · simp only [Mem.val, Mem.set_fr, Mem.set_self]
  · simp only [Mem.val, Mem.set_fr, Mem.set_self]

/-- The calls that return something new change nothing that was in use. Missing: `FRReprToFR`,
`KeyFromFQRepr`. -/
theorem C45_pure_partial (w : World) (h : History w) (f o n : Nat) (hf : f ∈ w.frs) (ho : o ∈ w.frs)
    (hn : n ∈ w.reprs) (b : List UInt8) :
    Unchanged w.mem (copy w.mem f).2 ∧ Unchanged w.mem (toRepr w.mem f).2 ∧
    Unchanged w.mem (cmp w.mem f o).2 ∧ Unchanged w.mem (parity w.mem f).2 ∧
    (∀ x, exp w.mem f n = some x → Unchanged w.mem x.2) ∧
    (∀ x, inverse w.mem f = some x → Unchanged w.mem x.2) ∧
    (∀ x, mulBits w.mem f n = some x → Unchanged w.mem x.2) ∧
    (∀ x, mulBytes w.mem f b = some x → Unchanged w.mem x.2) ∧
    (∀ x, hashFR w.mem b = some x → Unchanged w.mem x.2) ∧
    (∀ x, legendre w.mem f = some x → Unchanged w.mem x.2) := by
  have hi := h.inv
  have hc := hi.consts
  obtain ⟨-, f2, f3, -⟩ := hi.frs f hf
  obtain ⟨-, o2, o3, -⟩ := hi.frs o ho
  exact ⟨(copy_spec _ f).1.unchanged, (toRepr_spec hc f2 f3).1.unchanged,
    (cmp_spec hc f2 f3 o2 o3).1.unchanged, (parity_spec hc f2 f3).1.unchanged,
    fun x hx => ((exp_spec hc f2 f3).2 x hx).1.unchanged,
    fun x hx => ((inverse_spec hc).2 x hx).1.unchanged,
    fun x hx => ((mulBits_spec hc f2 f3 (hi.reprs n hn).2).2 x hx).1.unchanged,
    fun x hx => ((mulBytes_spec hc f2 f3).2 x hx).1.unchanged,
    fun x hx => ((mulBytes_spec hc ((by decide : aBigOneFR < 4).trans_le hi.nextFr)
      (by rw [hi.bigOne]; exact (by decide : aFrOne < 6).trans_le hi.nextCell)).2 x hx).1.unchanged,
    fun x hx => ((legendre_spec hc f2 f3).2 x hx).unchanged⟩

/-! ## C46 -/

/-- Without `Sqrt`, no history changes a package variable (there are six arrays and the two structs
`bigOneFR`, `bigZeroFR`). Missing: histories with `Sqrt`. -/
theorem C46_constants_partial (w : World) (h : HistoryNoSqrt w) :
    (∀ p < 6, w.mem.cell p = init.cell p) ∧ w.mem.fr aBigOneFR = init.fr aBigOneFR ∧
      w.mem.fr aBigZeroFR = init.fr aBigZeroFR ∧
      (w.mem.val aBigOneFR).int = 1 ∧ (w.mem.val aBigZeroFR).int = 0 := by
  have hi := h.inv
  have hone := hi.hone _ rfl
  refine ⟨fun p hp => ?_, by rw [hi.bigOne, init_frs.1], by rw [hi.bigZero, init_frs.2.1], ?_, ?_⟩
  · by_cases hne : p = aFrOne
    · rw [hne, hone, init_cells.2.2.1]
    · exact hi.cells p hp hne
  · rw [Mem.val, hi.bigOne, hone]; decide +kernel
  · rw [Mem.val, hi.bigZero, hi.consts.zero]; decide +kernel

/-- With `Sqrt`, and whatever is done to its results, the only package value that can change is
`bigOneFR` (with `frOne`, which is the same array). -/
theorem C46_constants_sqrt (w : World) (h : History w) :
    (∀ p < 6, p ≠ aFrOne → w.mem.cell p = init.cell p) ∧ w.mem.fr aBigOneFR = init.fr aBigOneFR ∧
      w.mem.fr aBigZeroFR = init.fr aBigZeroFR := by
  have hi := h.inv
  exact ⟨hi.cells, by rw [hi.bigOne, init_frs.1], by rw [hi.bigZero, init_frs.2.1]⟩

/-- What `Exp` returns after any history with `k` calls of `Sqrt` (whose results are not kept): off
by the factor `(2^256)^k`. -/
theorem C46_exp_sqrts (k : Nat) (w : World) (h : HistorySqrts k w) (f n : Nat) (hf : f ∈ w.frs)
    (hv : (w.mem.val f).isValid) :
    ∃ x, exp w.mem f n = some x ∧ (x.2.val x.1).isValid ∧ (x.2.val x.1).int =
      (2 ^ 256) ^ k * (w.mem.val f).int ^ (w.mem.cell n).toNat % r := by
  obtain ⟨a, ha, hi⟩ := h.inv
  obtain ⟨-, f2, f3, -⟩ := hi.frs f hf
  obtain ⟨e, -⟩ := exp_spec hi.consts f2 f3 (n := n)
  have hone : w.mem.val aBigOneFR = a := by rw [Mem.val, hi.bigOne, hi.hone _ rfl]
  obtain ⟨b, h1, h2⟩ := (FR.rep_int hv).expFrom ha (w.mem.cell n)
  rw [hone, h1, Option.map_eq_some_iff] at e
  obtain ⟨x, h3, h4⟩ := e
  refine ⟨x, h3, by rw [h4]; exact h2.isValid, ?_⟩
  rw [h4]
  exact FR.Rep.int_eq (by push_cast at h2 ⊢; exact h2)

theorem historySqrts_zero {w : World} (h : HistoryNoSqrt w) : HistorySqrts 0 w := by
  induction h with
  | refl => exact .start
  | tail _ hc ih => exact .call ih hc

/-- `Exp` returns the power after any history without `Sqrt`. -/
theorem C46_exp_partial (w : World) (h : HistoryNoSqrt w) (f n : Nat) (hf : f ∈ w.frs)
    (hv : (w.mem.val f).isValid) :
    ∃ x, exp w.mem f n = some x ∧ (x.2.val x.1).isValid ∧
      (x.2.val x.1).int = (w.mem.val f).int ^ (w.mem.cell n).toNat % r := by
  have := C46_exp_sqrts 0 w (historySqrts_zero h) f n hf hv
  rwa [pow_zero, one_mul] at this

/-- A second caller, who has also called `Sqrt` once. -/
def demoSqrt (v : FRRepr) : World :=
  ⟨(sqrt (demo v).mem 4).2, (sqrt (demo v).mem 4).1.toList ++ (demo v).frs, [6]⟩

theorem demoSqrt_history (v : FRRepr) (h4 : 4 ∈ (demo v).frs) : History (demoSqrt v) :=
  .tail (historyNoSqrt_history (demo_history v)) (.inr (.sqrt 4 h4))

/-- Such a caller meets the hypotheses of the theorems on histories with one call of `Sqrt`. -/
example : HistorySqrts 1 ⟨(sqrt (demo (.new 4)).mem 4).2, (demo (.new 4)).frs, (demo (.new 4)).reprs⟩ ∧
    4 ∈ (demo (.new 4)).frs ∧ 6 ∈ (demo (.new 4)).reprs ∧ ((sqrt (demo (.new 4)).mem 4).2.val 4).isValid :=
  ⟨.sqrt 4 (historySqrts_zero (demo_history _)) (by decide +kernel), by decide +kernel, by decide +kernel,
    by decide +kernel⟩

/-- The claim is false of `Exp`: after one call of `Sqrt`, `4^0` is no longer 1. -/
theorem C46_exp_false : ¬ ∀ (w : World) (f n : Nat), History w → f ∈ w.frs → n ∈ w.reprs →
    (w.mem.val f).isValid → ∃ x, exp w.mem f n = some x ∧
      (x.2.val x.1).int = (w.mem.val f).int ^ (w.mem.cell n).toNat % r := by
  intro h
  -- the caller then makes the exponent 0
  have hw := demoSqrt_history (.new 4) (by decide +kernel)
  have hw' := Relation.ReflTransGen.tail hw (.inl (.newRepr (.new 0)))
  obtain ⟨x, h1, h2⟩ := h _ 4 7 hw' (by decide +kernel) (by decide +kernel) (by decide +kernel)
  have h3 : (exp ((demoSqrt (.new 4)).mem.alloc (.new 0)).2 4 7).map
      (fun x => (x.2.val x.1).int) ≠ some 1 := by decide +kernel
  refine h3 ?_
  rw [h1, Option.map_some, h2]
  rw [r]
  decide +kernel

open Classical in
/-- `Legendre` is right after any history with any number of calls of `Sqrt` whose results are not
kept (the factor cancels). Missing: histories in which the caller changes what `Sqrt` returned. -/
theorem C46_legendre_partial (k : Nat) (w : World) (h : HistorySqrts k w) (f : Nat) (hf : f ∈ w.frs)
    (hv : (w.mem.val f).isValid) :
    ∃ m', legendre w.mem f = some (if (w.mem.val f).int = 0 then .zero
      else if ∃ s : ℕ, (s * s) % r = (w.mem.val f).int then .quadraticResidue
      else .quadraticNonResidue, m') := by
  rw [← C12_legendre _ hv]
  obtain ⟨a, ha, hi⟩ := h.inv
  obtain ⟨-, f2, f3, -⟩ := hi.frs f hf
  obtain ⟨e, -⟩ := legendre_spec hi.consts f2 f3
  have hone : w.mem.val aBigOneFR = a := by rw [Mem.val, hi.bigOne, hi.hone _ rfl]
  have hfr := FR.rep_int hv
  obtain ⟨b, h1, h2⟩ := hfr.expFrom ha FR.rMinus1Over2
  have h3 := hfr.exp FR.rMinus1Over2
  rw [hone, h1, Option.map_some, Option.map_eq_some_iff] at e
  obtain ⟨⟨x, m'⟩, h4, h5⟩ := e
  refine ⟨m', ?_⟩
  rw [h4]
  have hR : (((2 ^ 256 : ℕ) : Fr)) ^ k ≠ 0 := by
    refine pow_ne_zero _ fun h0 => ?_
    rw [ZMod.natCast_eq_zero_iff] at h0
    revert h0
    rw [r]; norm_num
  have z : b.isZero = (((w.mem.val f).exp FR.rMinus1Over2)).isZero := by
    rw [Bool.eq_iff_iff, h2.isZero, h3.isZero, mul_eq_zero, or_iff_right hR]
  have e' : b.equals a = (((w.mem.val f).exp FR.rMinus1Over2)).equals FR.one := by
    rw [Bool.eq_iff_iff, h2.equals ha, h3.equals FR.one_rep]
    conv_lhs => rhs; rw [← mul_one ((((2 ^ 256 : ℕ) : Fr)) ^ k)]
    exact mul_right_inj' hR
  rw [z, e'] at h5
  rw [Option.some.injEq, Prod.mk.injEq]
  exact ⟨h5, rfl⟩

theorem hashFR_eq {o : Option FRRepr} {w : World} (hi : Inv o w) (digest : List UInt8) :
    (hashFR w.mem digest).map (fun x => x.2.val x.1) =
      (w.mem.val aBigOneFR).mulBytes digest := by
  have h := (mulBytes_spec hi.consts (b := digest) ((by decide : aBigOneFR < 4).trans_le hi.nextFr)
      (by rw [hi.bigOne]; exact (by decide : aFrOne < 6).trans_le hi.nextCell)).1
  rw [hashFR, h, FR.mulBytes]
  congr 1
  rw [Mem.val, hi.bigZero, hi.consts.zero]
  decide +kernel

/-- What `HashFR` returns after any history with `k` calls of `Sqrt` (whose results are not kept):
off by the factor `(2^256)^k`. -/
theorem C46_hashFR_sqrts (k : Nat) (w : World) (h : HistorySqrts k w) (digest : List UInt8) :
    ∃ x y, hashFR w.mem digest = some x ∧ hashFR init digest = some y ∧
      (x.2.val x.1).int = (2 ^ 256) ^ k * (y.2.val y.1).int % r := by
  obtain ⟨a, ha, hi⟩ := h.inv
  have e1 := hashFR_eq hi digest
  have e2 := hashFR_eq Inv.start digest
  have hone : w.mem.val aBigOneFR = a := by rw [Mem.val, hi.bigOne, hi.hone _ rfl]
  have hone' : World.start.mem.val aBigOneFR = FR.one := by
    rw [Mem.val, Inv.start.bigOne, Inv.start.hone _ rfl]
  obtain ⟨b, h1, h2⟩ := ha.mulBytes digest
  obtain ⟨c, h3, h4⟩ := FR.one_rep.mulBytes digest
  rw [hone, h1, Option.map_eq_some_iff] at e1
  rw [hone', h3, Option.map_eq_some_iff] at e2
  obtain ⟨x, x1, x2⟩ := e1
  obtain ⟨y, y1, y2⟩ := e2
  refine ⟨x, y, x1, y1, ?_⟩
  rw [x2, y2]
  refine FR.Rep.int_eq ?_
  have h5 := FR.rep_int h4.isValid
  have h6 := h5.eq.symm.trans h4.eq
  rw [mul_one] at h6
  rw [← h6] at h2
  rw [Nat.cast_mul, Nat.cast_pow, mul_comm]
  exact h2

/-- `HashFR` returns what it returns in a fresh process, after any history without `Sqrt`. -/
theorem C46_hashFR_partial (w : World) (h : HistoryNoSqrt w) (digest : List UInt8) :
    ∃ x y, hashFR w.mem digest = some x ∧ hashFR init digest = some y ∧
      x.2.val x.1 = y.2.val y.1 := by
  have hi := h.inv
  have e1 := hashFR_eq hi digest
  have e2 := hashFR_eq Inv.start digest
  rw [Mem.val, hi.bigOne, hi.hone _ rfl] at e1
  rw [Mem.val, Inv.start.bigOne, Inv.start.hone _ rfl] at e2
  obtain ⟨c, h3, -⟩ := FR.one_rep.mulBytes digest
  rw [h3, Option.map_eq_some_iff] at e1 e2
  obtain ⟨x, x1, x2⟩ := e1
  obtain ⟨y, y1, y2⟩ := e2
  exact ⟨x, y, x1, y1, by rw [x2, y2]⟩

/-- The other calls return what the functions of Verif/Model/FR.lean return for the values of their
arguments, after any history at all, `Sqrt` included. -/
theorem C46_others (w : World) (h : History w) (f o n : Nat) (hf : f ∈ w.frs) (ho : o ∈ w.frs)
    (hn : n ∈ w.reprs) (b : List UInt8) :
    (inverse w.mem f).map (fun x => x.1.map x.2.val) = (w.mem.val f).inverse? ∧
    (mulBits w.mem f n).map (fun x => x.2.val x.1) = (w.mem.val f).mulBits (w.mem.cell n) ∧
    (mulBytes w.mem f b).map (fun x => x.2.val x.1) = (w.mem.val f).mulBytes b ∧
    (frReprToFR w.mem n).1.map (frReprToFR w.mem n).2.val = FR.ofRepr? (w.mem.cell n) ∧
    (toRepr w.mem f).2.cell (toRepr w.mem f).1 = (w.mem.val f).toRepr ∧
    (cmp w.mem f o).1 = (w.mem.val f).cmp (w.mem.val o) ∧
    (parity w.mem f).1 = (w.mem.val f).parity ∧
    isZero w.mem f = (w.mem.val f).isZero ∧
    equals w.mem f o = (w.mem.val f).equals (w.mem.val o) ∧
    (negAssign w.mem f).val f = (w.mem.val f).neg ∧
    (doubleAssign w.mem f).val f = (w.mem.val f).double ∧
    (squareAssign w.mem f).val f = (w.mem.val f).square := by
  have hi := h.inv
  have hc := hi.consts
  obtain ⟨-, f2, f3, -⟩ := hi.frs f hf
  obtain ⟨-, o2, o3, -⟩ := hi.frs o ho
  have hz : w.mem.val aBigZeroFR = FR.zero := by
    rw [Mem.val, hi.bigZero, hc.zero]; decide +kernel
  refine ⟨(inverse_spec hc).1, ?_, ?_, (frReprToFR_spec hc (.inl (hi.reprs n hn).1)).1,
    (toRepr_spec hc f2 f3).2.2.2, (cmp_spec hc f2 f3 o2 o3).2, (parity_spec hc f2 f3).2,
    isZero_eq hc.zero, equals_eq, (negAssign_spec hc f3).2.2.2.2.2.2, ?_, ?_⟩
  · rw [(mulBits_spec hc f2 f3 (hi.reprs n hn).2).1, FR.mulBits, hz]
  · rw [(mulBytes_spec hc f2 f3).1, FR.mulBytes, hz]
  · rw [doubleAssign_eq hc.mod (hi.fr_mod hf)]
    simp only [Mem.val, Mem.set_fr, Mem.set_self]
  · rw [squareAssign_eq hc.mod (hi.fr_mod hf)]
    simp only [Mem.val, Mem.set_fr, Mem.set_self]

/-- What `Sqrt` returns, whatever the receiver: on the `k+1`-st call, `(2^256)^(k+1)`. -/
theorem C46_sqrt_value (k : Nat) (w : World) (h : HistorySqrts k w) (f : Nat) :
    ∃ g, (sqrt w.mem f).1 = some g ∧
      ((sqrt w.mem f).2.val g).int = (2 ^ 256) ^ (k + 1) % r := by
  obtain ⟨a, ha, hi⟩ := h.inv
  have e := (frReprToFR_spec hi.consts (.inr rfl)).1
  rw [hi.hone _ rfl, FR.ofRepr?, if_pos ha.isValid, Option.map_eq_some_iff] at e
  obtain ⟨g, h1, h2⟩ := e
  refine ⟨g, h1, ?_⟩
  rw [show (sqrt w.mem f).2 = (frReprToFR w.mem aFrOne).2 from rfl, h2]
  refine FR.Rep.int_eq ?_
  have := ha.mul frR2_rep
  rw [Rr_eq, ← pow_succ] at this
  push_cast at this ⊢
  exact this

/-- The claim is false of `Sqrt`: the result for 4 is not a square root of 4, already on the first
call. -/
theorem C46_sqrt_false : ¬ ∀ (w : World) (f : Nat), HistoryNoSqrt w → f ∈ w.frs →
    (w.mem.val f).isValid → (∃ s : ℕ, s * s % r = (w.mem.val f).int) →
    ∃ g, (sqrt w.mem f).1 = some g ∧
      ((sqrt w.mem f).2.val g).int * ((sqrt w.mem f).2.val g).int % r = (w.mem.val f).int := by
  intro h
  obtain ⟨g, h1, h2⟩ := h (demo (.new 4)) 4 (demo_history _) (by decide +kernel) (by decide +kernel)
    ⟨2, by rw [r]; decide +kernel⟩
  obtain ⟨g', h1', h2'⟩ := C46_sqrt_value 0 (demo (.new 4)) (historySqrts_zero (demo_history _)) 4
  rw [h1, Option.some.injEq] at h1'
  subst h1'
  rw [h2', show ((demo (.new 4)).mem.val 4).int = 4 by decide +kernel] at h2
  revert h2
  rw [r]
  norm_num

/-! ## C53 -/

/-- Whatever is done to the result of `Copy`, `Exp`, `Inverse`, `MulBits`, `MulBytes` or `HashFR`,
nothing that was in use before the call changes. Missing: `Sqrt`, `FRReprToFR`, `GetFRElement`,
for which it is false. -/
theorem C53_results_partial (w : World) (h : History w) (f n : Nat) (hf : f ∈ w.frs)
    (hn : n ∈ w.reprs) (b : List UInt8) (m' : Mem) :
    (Relation.ReflTransGen (Mutates (copy w.mem f).1) (copy w.mem f).2 m' → Unchanged w.mem m') ∧
    (∀ x, exp w.mem f n = some x →
      Relation.ReflTransGen (Mutates x.1) x.2 m' → Unchanged w.mem m') ∧
    (∀ x g, inverse w.mem f = some x → x.1 = some g →
      Relation.ReflTransGen (Mutates g) x.2 m' → Unchanged w.mem m') ∧
    (∀ x, mulBits w.mem f n = some x →
      Relation.ReflTransGen (Mutates x.1) x.2 m' → Unchanged w.mem m') ∧
    (∀ x, mulBytes w.mem f b = some x →
      Relation.ReflTransGen (Mutates x.1) x.2 m' → Unchanged w.mem m') ∧
    (∀ x, hashFR w.mem b = some x →
      Relation.ReflTransGen (Mutates x.1) x.2 m' → Unchanged w.mem m') := by
  have hi := h.inv
  have hc := hi.consts
  obtain ⟨-, f2, f3, -⟩ := hi.frs f hf
  refine ⟨fun hm => ?_, fun x hx hm => ?_, fun x g hx hg hm => ?_, fun x hx hm => ?_,
    fun x hx hm => ?_, fun x hx hm => ?_⟩
  · exact Mutates.unchanged hc (copy_spec _ f).1 (copy_spec _ f).2.1 hm
  · obtain ⟨h1, h2⟩ := (exp_spec hc f2 f3).2 x hx
    exact Mutates.unchanged hc h1 h2 hm
  · obtain ⟨h1, h2⟩ := (inverse_spec hc).2 x hx
    exact Mutates.unchanged hc h1 (h2 g hg) hm
  · obtain ⟨h1, h2⟩ := (mulBits_spec hc f2 f3 (hi.reprs n hn).2).2 x hx
    exact Mutates.unchanged hc h1 h2 hm
  · obtain ⟨h1, h2⟩ := (mulBytes_spec hc f2 f3).2 x hx
    exact Mutates.unchanged hc h1 h2 hm
  · obtain ⟨h1, h2⟩ := (mulBytes_spec hc ((by decide : aBigOneFR < 4).trans_le hi.nextFr)
      (by rw [hi.bigOne]; exact (by decide : aFrOne < 6).trans_le hi.nextCell)).2 x hx
    exact Mutates.unchanged hc h1 h2 hm

/-- Whatever is written to the result of `ToRepr`, nothing that was in use changes. -/
theorem C53_toRepr_partial (w : World) (h : History w) (f : Nat) (hf : f ∈ w.frs) (v : FRRepr) :
    Unchanged w.mem ((toRepr w.mem f).2.set (toRepr w.mem f).1 v) := by
  have hi := h.inv
  obtain ⟨-, f2, f3, -⟩ := hi.frs f hf
  obtain ⟨h1, h2, -, -⟩ := toRepr_spec hi.consts f2 f3
  exact (h1.set h2 v).unchanged

/-- The claim is false of `Sqrt`: doubling its result changes `bigOneFR`. -/
theorem C53_sqrt_false : ¬ ∀ (w : World) (f g : Nat) (m' : Mem), HistoryNoSqrt w → f ∈ w.frs →
    (sqrt w.mem f).1 = some g → Mutates g (sqrt w.mem f).2 m' →
    m'.val aBigOneFR = (sqrt w.mem f).2.val aBigOneFR := by
  intro h
  have h1 := h (demo (.new 4)) 4 6 _ (demo_history _) (by decide +kernel) (by decide +kernel)
    .doubleAssign
  revert h1
  decide +kernel

/-- The claim is false of `FRReprToFR`: doubling the `FR` changes the array it was made from. -/
theorem C53_frReprToFR_false : ¬ ∀ (w : World) (o g : Nat) (m' : Mem), HistoryNoSqrt w →
    o ∈ w.reprs → (frReprToFR w.mem o).1 = some g → Mutates g (frReprToFR w.mem o).2 m' →
    m'.cell o = (frReprToFR w.mem o).2.cell o := by
  intro h
  have h1 := h (demo (.new 4)) 6 6 _ (demo_history _) (by decide +kernel) (by decide +kernel)
    .doubleAssign
  revert h1
  decide +kernel

/-- The claim is false of `GetFRElement`: negating the element it returns changes the key. -/
theorem C53_getFRElement_false : ¬ ∀ (w : World) (s : SecretKey) (m' : Mem), HistoryNoSqrt w →
    s.f ∈ w.frs → Mutates s.getFRElement w.mem m' →
    (s.serialize m').1 = (s.serialize w.mem).1 := by
  intro h
  have h1 := h (demo (.new 4)) ⟨4⟩ _ (demo_history _) (by decide +kernel) .negAssign
  revert h1
  decide +kernel

end Bls.Props
