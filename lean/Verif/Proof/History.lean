import Verif.Spec.History
import Verif.Proof.Heap
/-
What every history of calls keeps.
-/
set_option exponentiation.threshold 1000
namespace Bls.Heap

/-- `one`: the value of the array of `frOne`/`bigOneFR`, if the caller holds no pointer to it. -/
structure Inv (one : Option FRRepr) (w : World) : Prop where
  cells : ∀ p < 6, p ≠ aFrOne → w.mem.cell p = init.cell p
  hone : ∀ v, one = some v → w.mem.cell aFrOne = v
  bigOne : w.mem.fr aBigOneFR = aFrOne
  bigZero : w.mem.fr aBigZeroFR = aFrZero
  nextCell : 6 ≤ w.mem.nextCell
  nextFr : 4 ≤ w.mem.nextFr
  reprs : ∀ p ∈ w.reprs, 6 ≤ p ∧ p < w.mem.nextCell
  frs : ∀ f ∈ w.frs, 4 ≤ f ∧ f < w.mem.nextFr ∧ w.mem.fr f < w.mem.nextCell ∧
    (6 ≤ w.mem.fr f ∨ one = none ∧ w.mem.fr f = aFrOne)

theorem init_cells : init.cell aRFieldModulus = rFieldModulus ∧ init.cell aFRR2 = frR2 ∧
    init.cell aFrOne = FR.one.n ∧
    init.cell aFrZero = frZero ∧ init.cell aRMinus1Over2 = FR.rMinus1Over2 := by decide +kernel

theorem init_frs : init.fr aBigOneFR = aFrOne ∧ init.fr aBigZeroFR = aFrZero ∧ init.nextCell = 6 ∧
    init.nextFr = 4 := by decide +kernel

theorem Inv.start : Inv (some FR.one.n) World.start where
  cells _ _ _ := rfl
  hone v h := by cases h; exact init_cells.2.2.1
  bigOne := init_frs.1
  bigZero := init_frs.2.1
  nextCell := by rw [World.start, init_frs.2.2.1]
  nextFr := by rw [World.start, init_frs.2.2.2]
  reprs p hp := by cases hp
  frs f hf := by cases hf

namespace Inv
variable {o : Option FRRepr} {w : World}

theorem consts (h : Inv o w) : Consts w.mem where
  mod := by rw [h.cells _ (by decide) (by decide), init_cells.1]
  r2 := by rw [h.cells _ (by decide) (by decide), init_cells.2.1]
  zero := by rw [h.cells _ (by decide) (by decide), init_cells.2.2.2.1]
  half := by rw [h.cells _ (by decide) (by decide), init_cells.2.2.2.2]
  bigOne := h.bigOne
  bigZero := h.bigZero
  cells := h.nextCell
  frs := (by decide : 3 ≤ 4).trans h.nextFr

theorem fr_mod (h : Inv o w) {f : Nat} (hf : f ∈ w.frs) : w.mem.fr f ≠ aRFieldModulus := by
  rcases (h.frs f hf).2.2.2 with h | ⟨-, h⟩
  · exact ne_mod h
  · rw [h]; decide

/-- Nothing in use changes; new pointers point to new objects. -/
theorem ext (h : Inv o w) {m : Mem} (hx : Ext w.mem m) {frs reprs : List Nat}
    (hf : ∀ f ∈ frs, f ∈ w.frs ∨ NewFr w.mem m f)
    (hr : ∀ p ∈ reprs, p ∈ w.reprs ∨ w.mem.nextCell ≤ p ∧ p < m.nextCell) :
    Inv o ⟨m, frs, reprs⟩ where
  cells p hp hne := by rw [hx.cell p (hp.trans_le h.nextCell), h.cells p hp hne]
  hone v hv := by rw [hx.cell _ ((by decide : aFrOne < 6).trans_le h.nextCell), h.hone v hv]
  bigOne := by rw [hx.fr _ ((by decide : aBigOneFR < 4).trans_le h.nextFr), h.bigOne]
  bigZero := by rw [hx.fr _ ((by decide : aBigZeroFR < 4).trans_le h.nextFr), h.bigZero]
  nextCell := h.nextCell.trans hx.nextCell
  nextFr := h.nextFr.trans hx.nextFr
  reprs p hp := by
    rcases hr p hp with hp | hp
    · exact ⟨(h.reprs p hp).1, (h.reprs p hp).2.trans_le hx.nextCell⟩
    · exact ⟨h.nextCell.trans hp.1, hp.2⟩
  frs f hf' := by
    rcases hf f hf' with hf | hf
    · obtain ⟨a, b, c, d⟩ := h.frs f hf
      rw [hx.fr f b]
      exact ⟨a, b.trans_le hx.nextFr, c.trans_le hx.nextCell, d⟩
    · exact ⟨h.nextFr.trans hf.fr, hf.fr_lt, hf.cell_lt, .inl (h.nextCell.trans hf.cell)⟩

/-- Writing an array the caller can reach. -/
theorem set (h : Inv o w) {p : Nat} (hp : 6 ≤ p ∨ o = none ∧ p = aFrOne) (v : FRRepr) :
    Inv o ⟨w.mem.set p v, w.frs, w.reprs⟩ where
  cells q hq hne := by
    rw [Mem.set_ne (by omega), h.cells q hq hne]
  hone v hv := by
    rw [Mem.set_ne, h.hone v hv]
    rcases hp with hp | ⟨rfl, -⟩
    · rw [aFrOne]; omega
    · cases hv
  bigOne := h.bigOne
  bigZero := h.bigZero
  nextCell := h.nextCell
  nextFr := h.nextFr
  reprs := h.reprs
  frs := h.frs

theorem frReprToFR (h : Inv o w) {p : Nat} (hp : 6 ≤ p ∧ p < w.mem.nextCell) :
    Inv o ⟨(frReprToFR w.mem p).2, (frReprToFR w.mem p).1.toList ++ w.frs, w.reprs⟩ := by
  obtain ⟨-, h2, h3, h4, -, h6, h7⟩ := frReprToFR_spec h.consts (.inl hp.1)
  have hn := h.nextFr
  refine ⟨fun q hq hne => ?_, fun v hv => ?_, ?_, ?_, ?_, ?_, ?_, fun f hf => ?_⟩
  · rw [h4 q (by omega), h.cells q hq hne]
  · rw [h4 _ (by rw [aFrOne]; omega), h.hone v hv]
  · rw [h3 _ (by rw [aBigOneFR]; omega), h.bigOne]
  · rw [h3 _ (by rw [aBigZeroFR]; omega), h.bigZero]
  · simp only [h6]; exact h.nextCell
  · simp only; omega
  · intro q hq; rw [h6]; exact h.reprs q hq
  · rw [List.mem_append, Option.mem_toList] at hf
    rcases hf with hf | hf
    · obtain ⟨rfl, e⟩ := h2 f hf
      refine ⟨hn, h7, ?_, .inl ?_⟩ <;> simp only [e, h6] <;> omega
    · obtain ⟨a, b, c, d⟩ := h.frs f hf
      simp only [h6]
      rw [h3 f b]
      exact ⟨a, by omega, c, d⟩

theorem negAssign (h : Inv o w) {f : Nat} (hf : f ∈ w.frs) :
    Inv o ⟨negAssign w.mem f, w.frs, w.reprs⟩ := by
  obtain ⟨f1, f2, f3, f4⟩ := h.frs f hf
  obtain ⟨n1, n2, n3, n4, n5, n6, -⟩ := negAssign_spec h.consts f3
  have hc := h.nextCell
  refine ⟨fun q hq hne => ?_, fun v hv => ?_, ?_, ?_, ?_, ?_, ?_, fun g hg => ?_⟩
  · rw [n1 q (by omega), h.cells q hq hne]
  · rw [n1 _ (by rw [aFrOne]; omega), h.hone v hv]
  · rw [n2 _ (by rw [aBigOneFR]; omega), h.bigOne]
  · rw [n2 _ (by rw [aBigZeroFR]; omega), h.bigZero]
  · simp only; omega
  · simp only [n6]; exact h.nextFr
  · intro q hq; exact ⟨(h.reprs q hq).1, (h.reprs q hq).2.trans_le n5⟩
  · obtain ⟨a, b, c, d⟩ := h.frs g hg
    simp only [n6]
    by_cases e : g = f
    · subst e
      refine ⟨a, b, n4, ?_⟩
      rcases n3 with n3 | n3
      · rw [n3]; exact d
      · exact .inl (hc.trans n3)
    · rw [n2 g e]; exact ⟨a, b, c.trans_le n5, d⟩

theorem call (h : Inv o w) {w' : World} (hc : Call w w') : Inv o w' := by
  have hk := h.consts
  have same : ∀ m, ∀ f ∈ w.frs, f ∈ w.frs ∨ NewFr w.mem m f := fun _ f hf => .inl hf
  have sameR : ∀ m : Mem, ∀ p ∈ w.reprs, p ∈ w.reprs ∨ w.mem.nextCell ≤ p ∧ p < m.nextCell :=
    fun _ p hp => .inl hp
  have one : ∀ m g, NewFr w.mem m g → ∀ f ∈ g :: w.frs, f ∈ w.frs ∨ NewFr w.mem m f := by
    intro m g hg f hf
    rcases List.mem_cons.mp hf with rfl | hf
    · exact .inr hg
    · exact .inl hf
  cases hc with
  | newRepr v =>
    refine h.ext (Ext.alloc _ v) (same _) fun p hp => ?_
    rcases List.mem_cons.mp hp with rfl | hp
    · exact .inr ⟨le_rfl, Nat.lt_succ_self _⟩
    · exact .inl hp
  | writeRepr p v hp => exact h.set (.inl (h.reprs p hp).1) v
  | frReprToFR p hp => exact h.frReprToFR (h.reprs p hp)
  | copy f hf =>
    obtain ⟨h1, h2, -⟩ := copy_spec w.mem f
    exact h.ext h1 (one _ _ h2) (sameR _)
  | addAssign f g hf hg =>
    rw [addAssign_eq hk.mod (h.fr_mod hf)]
    exact h.set (h.frs f hf).2.2.2 _
  | subAssign f g hf hg =>
    rw [subAssign_eq hk.mod]
    exact h.set (h.frs f hf).2.2.2 _
  | mulAssign f g hf hg =>
    rw [mulAssign_eq hk.mod (h.fr_mod hf)]
    exact h.set (h.frs f hf).2.2.2 _
  | negAssign f hf => exact h.negAssign hf
  | doubleAssign f hf =>
    rw [doubleAssign_eq hk.mod (h.fr_mod hf)]
    exact h.set (h.frs f hf).2.2.2 _
  | squareAssign f hf =>
    rw [squareAssign_eq hk.mod (h.fr_mod hf)]
    exact h.set (h.frs f hf).2.2.2 _
  | exp f n x hf hn hx =>
    obtain ⟨h1, h2⟩ := (exp_spec hk (h.frs f hf).2.1 (h.frs f hf).2.2.1).2 x hx
    exact h.ext h1 (one _ _ h2) (sameR _)
  | inverse f x hf hx =>
    obtain ⟨h1, h2⟩ := (inverse_spec hk).2 x hx
    refine h.ext h1 (fun g hg => ?_) (sameR _)
    rw [List.mem_append, Option.mem_toList] at hg
    rcases hg with hg | hg
    · exact .inr (h2 g hg)
    · exact .inl hg
  | mulBits f b x hf hb hx =>
    obtain ⟨h1, h2⟩ := (mulBits_spec hk (h.frs f hf).2.1 (h.frs f hf).2.2.1 (h.reprs b hb).2).2 x hx
    exact h.ext h1 (one _ _ h2) (sameR _)
  | mulBytes f b x hf hx =>
    obtain ⟨h1, h2⟩ := (mulBytes_spec hk (h.frs f hf).2.1 (h.frs f hf).2.2.1).2 x hx
    exact h.ext h1 (one _ _ h2) (sameR _)
  | hashFR d x hx =>
    obtain ⟨h1, h2⟩ := (mulBytes_spec hk ((by decide : aBigOneFR < 4).trans_le h.nextFr)
      (by rw [h.bigOne]; exact (by decide : aFrOne < 6).trans_le h.nextCell)).2 x hx
    exact h.ext h1 (one _ _ h2) (sameR _)
  | toRepr f hf =>
    obtain ⟨h1, h2, h3, -⟩ := toRepr_spec hk (h.frs f hf).2.1 (h.frs f hf).2.2.1
    refine h.ext h1 (same _) fun p hp => ?_
    rcases List.mem_cons.mp hp with rfl | hp
    · exact .inr ⟨h2, h3⟩
    · exact .inl hp
  | cmp f g hf hg =>
    exact h.ext (cmp_spec hk (h.frs f hf).2.1 (h.frs f hf).2.2.1 (h.frs g hg).2.1
      (h.frs g hg).2.2.1).1 (same _) (sameR _)
  | parity f hf =>
    exact h.ext (parity_spec hk (h.frs f hf).2.1 (h.frs f hf).2.2.1).1 (same _) (sameR _)
  | legendre f x hf hx =>
    exact h.ext ((legendre_spec hk (h.frs f hf).2.1 (h.frs f hf).2.2.1).2 x hx) (same _) (sameR _)

/-- `Sqrt`, when its result is dropped. -/
theorem sqrt_drop (h : Inv o w) {f : Nat} {v : FRRepr} (ho : o = some v) :
    Inv (some (if (⟨v⟩ : FR).isValid then (FR.mul ⟨v⟩ ⟨frR2⟩).n else v))
      ⟨(sqrt w.mem f).2, w.frs, w.reprs⟩ := by
  rw [sqrt]
  obtain ⟨-, h2, h3, h4, h5, h6, h7⟩ := frReprToFR_spec h.consts (.inr rfl)
  have hn := h.nextFr
  refine ⟨fun q hq hne => ?_, fun v' hv => ?_, ?_, ?_, ?_, ?_, ?_, fun f hf => ?_⟩
  · rw [h4 q hne, h.cells q hq hne]
  · rw [h5, h.hone v ho]; exact Option.some.inj hv
  · rw [h3 _ (by rw [aBigOneFR]; omega), h.bigOne]
  · rw [h3 _ (by rw [aBigZeroFR]; omega), h.bigZero]
  · simp only [h6]; exact h.nextCell
  · simp only; omega
  · intro q hq; rw [h6]; exact h.reprs q hq
  · obtain ⟨a, b, c, d⟩ := h.frs f hf
    simp only [h6]
    rw [h3 f b]
    refine ⟨a, by omega, c, .inl ?_⟩
    rcases d with d | ⟨d, -⟩
    · exact d
    · rw [ho] at d; cases d

theorem weaken (h : Inv o w) : Inv none w :=
  ⟨h.cells, fun v hv => (by cases hv), h.bigOne, h.bigZero, h.nextCell, h.nextFr, h.reprs, fun f hf => by
    obtain ⟨a, b, c, d⟩ := h.frs f hf
    exact ⟨a, b, c, d.imp_right fun d => ⟨rfl, d.2⟩⟩⟩

theorem sqrtCall (h : Inv none w) {w' : World} (hc : SqrtCall w w') : Inv none w' := by
  cases hc with
  | sqrt f hf =>
  rw [sqrt]
  obtain ⟨-, h2, h3, h4, h5, h6, h7⟩ := frReprToFR_spec h.consts (.inr rfl)
  have hn := h.nextFr
  have hc := h.nextCell
  refine ⟨fun q hq hne => ?_, fun v' hv => ?_, ?_, ?_, ?_, ?_, ?_, fun f hf => ?_⟩
  · rw [h4 q hne, h.cells q hq hne]
  · cases hv
  · rw [h3 _ (by rw [aBigOneFR]; omega), h.bigOne]
  · rw [h3 _ (by rw [aBigZeroFR]; omega), h.bigZero]
  · simp only [h6]; exact h.nextCell
  · simp only; omega
  · intro q hq; rw [h6]; exact h.reprs q hq
  · rw [List.mem_append, Option.mem_toList] at hf
    rcases hf with hf | hf
    · obtain ⟨rfl, e⟩ := h2 f hf
      refine ⟨hn, h7, ?_, .inr ⟨rfl, e⟩⟩
      simp only [e, h6]; rw [aFrOne]; omega
    · obtain ⟨a, b, c, d⟩ := h.frs f hf
      simp only [h6]
      rw [h3 f b]
      exact ⟨a, by omega, c, d.imp_right fun d => ⟨trivial, d.2⟩⟩

end Inv

theorem HistoryNoSqrt.inv {w : World} (h : HistoryNoSqrt w) : Inv (some FR.one.n) w := by
  induction h with
  | refl => exact Inv.start
  | tail _ hc ih => exact ih.call hc

theorem History.inv {w : World} (h : History w) : Inv none w := by
  induction h with
  | refl => exact Inv.start.weaken
  | tail _ hc ih => exact hc.elim ih.call ih.sqrtCall

/-- After `k` calls of `Sqrt`, `bigOneFR` is `R^k`. -/
theorem HistorySqrts.inv {k : Nat} {w : World} (h : HistorySqrts k w) :
    ∃ a : FR, FR.Rep a (((2 ^ 256 : ℕ) : Fr) ^ k) ∧ Inv (some a.n) w := by
  induction h with
  | start => exact ⟨FR.one, by rw [pow_zero]; exact FR.one_rep, Inv.start⟩
  | call _ hc ih =>
    obtain ⟨a, h1, h2⟩ := ih
    exact ⟨a, h1, h2.call hc⟩
  | sqrt f _ hf ih =>
    obtain ⟨a, h1, h2⟩ := ih
    refine ⟨a.mul ⟨frR2⟩, ?_, ?_⟩
    · rw [pow_succ]
      rw [← Rr_eq] at h1 ⊢; exact h1.mul frR2_rep
    · have := h2.sqrt_drop (f := f) rfl
      rw [if_pos h1.isValid] at this
      exact this

theorem Ext.unchanged {m m' : Mem} (h : Ext m m') : Unchanged m m' := ⟨h.cell, h.fr⟩

/-- Changing a new object changes no old one. -/
theorem Mutates.ext {m m' m'' : Mem} {g : Nat} (hc : Consts m) (h : Ext m m') (hn : NewFr m m' g)
    (hm : Mutates g m' m'') : Ext m m'' ∧ NewFr m m'' g := by
  have hc' := h.consts hc
  have hne : m'.fr g ≠ aRFieldModulus := ne_mod (hc.cells.trans hn.cell)
  have key : ∀ v, Ext m (m'.set (m'.fr g) v) ∧ NewFr m (m'.set (m'.fr g) v) g := fun v =>
    ⟨h.set hn.cell v, hn.fr, hn.fr_lt, hn.cell, hn.cell_lt⟩
  cases hm with
  | addAssign o => rw [addAssign_eq hc'.mod hne]; exact key _
  | subAssign o => rw [subAssign_eq hc'.mod]; exact key _
  | mulAssign o => rw [mulAssign_eq hc'.mod hne]; exact key _
  | doubleAssign => rw [doubleAssign_eq hc'.mod hne]; exact key _
  | squareAssign => rw [squareAssign_eq hc'.mod hne]; exact key _
  | negAssign =>
    obtain ⟨n1, n2, n3, n4, n5, n6, -⟩ := negAssign_spec hc' hn.cell_lt
    have hnf := hn.fr
    refine ⟨⟨fun p hp => ?_, fun f hf => ?_, ?_, ?_⟩, hn.fr, ?_, ?_, n4⟩
    · rw [n1 p (hp.trans_le h.nextCell), h.cell p hp]
    · rw [n2 f (by omega), h.fr f hf]
    · exact h.nextCell.trans n5
    · rw [n6]; exact h.nextFr
    · rw [n6]; exact hn.fr_lt
    · rcases n3 with n3 | n3
      · rw [n3]; exact hn.cell
      · exact h.nextCell.trans n3

theorem Mutates.unchanged {m m' m'' : Mem} {g : Nat} (hc : Consts m) (h : Ext m m')
    (hn : NewFr m m' g) (hm : Relation.ReflTransGen (Mutates g) m' m'') : Unchanged m m'' := by
  have : Ext m m'' ∧ NewFr m m'' g := by
    induction hm with
    | refl => exact ⟨h, hn⟩
    | tail _ hs ih => exact hs.ext hc ih.1 ih.2
  exact this.1.unchanged

end Bls.Heap
