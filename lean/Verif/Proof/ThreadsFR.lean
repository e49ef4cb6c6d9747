import Verif.Proof.HeapFR
import Verif.Spec.ThreadsFR
import Mathlib.Order.Basic
import Mathlib.Algebra.Order.Group.Nat
/-
Which objects the calls of Verif/Model/HeapFR.lean access.
-/
namespace Bls.HeapFR
open Bls.Heap (Mem aRFieldModulus aFrZero aBigOneFR aBigZeroFR aFRR2 aFrOne aRMinus1Over2)

/-- The objects that a goroutine may read and write: `FRRepr`s, and the pointers in `FR`s. -/
structure Fp where
  RC : Nat → Prop
  WC : Nat → Prop
  RS : Nat → Prop
  WS : Nat → Prop

/-- All accesses of the call, alone on `m`, are allowed, and if it returns, then `Q` holds. -/
def M.Ok {α : Type} (F : Fp) (Q : α → Mem → Prop) : M α → Mem → Prop
  | .ret a, m => Q a m
  | .panic, _ => True
  | .readCell p k, m => F.RC p ∧ (k (m.cell p)).Ok F Q m
  | .writeCell p v k, m => F.WC p ∧ k.Ok F Q (m.set p v)
  | .readFr f k, m => (F.RS f ∧ f < m.nextFr) ∧ (k (m.fr f)).Ok F Q m
  | .writeFr f p k, m => (F.WS f ∧ F.WC p ∧ p < m.nextCell) ∧ k.Ok F Q (m.setN f p)
  | .newCell v k, m => (k (m.alloc v).1).Ok F Q (m.alloc v).2
  | .newFr p k, m => p < m.nextCell ∧ (k (m.allocFr p).1).Ok F Q (m.allocFr p).2

variable {F : Fp}

theorem Ok_bind {α β : Type} {Q : β → Mem → Prop} (x : M α) (f : α → M β) (m : Mem) :
    (x >>= f).Ok F Q m ↔ x.Ok F (fun a m' => (f a).Ok F Q m') m := by
  show (M.bind x f).Ok F Q m ↔ _
  induction x generalizing m with
  | ret a => rfl
  | panic => rfl
  | readCell p k ih => exact and_congr Iff.rfl (ih _ m)
  | writeCell p v k ih => exact and_congr Iff.rfl (ih _)
  | readFr p k ih => exact and_congr Iff.rfl (ih _ m)
  | writeFr p v k ih => exact and_congr Iff.rfl (ih _)
  | newCell v k ih => exact ih _ _
  | newFr v k ih => exact and_congr Iff.rfl (ih _ _)

theorem Ok_mono {α : Type} {P Q : α → Mem → Prop} (hPQ : ∀ a m, P a m → Q a m) :
    ∀ (x : M α) (m : Mem), x.Ok F P m → x.Ok F Q m := by
  intro x
  induction x with
  | ret a => exact fun m h => hPQ a m h
  | panic => exact fun _ _ => trivial
  | readCell p k ih => exact fun m h => ⟨h.1, ih _ m h.2⟩
  | writeCell p v k ih => exact fun m h => ⟨h.1, ih _ h.2⟩
  | readFr p k ih => exact fun m h => ⟨h.1, ih _ m h.2⟩
  | writeFr p v k ih => exact fun m h => ⟨h.1, ih _ h.2⟩
  | newCell v k ih => exact fun m h => ih _ _ h
  | newFr v k ih => exact fun m h => ⟨h.1, ih _ _ h.2⟩

/-- What a call does not change: the pointers in the `FR`s, unless it sets them to something that may be written. -/
structure Stable (F : Fp) (m m' : Mem) : Prop where
  cells : m.nextCell ≤ m'.nextCell
  frs : m.nextFr ≤ m'.nextFr
  ptr : ∀ f < m.nextFr, m'.fr f = m.fr f ∨ (F.WS f ∧ F.WC (m'.fr f) ∧ m'.fr f < m'.nextCell)
  fresh : ∀ f, m.nextFr ≤ f → f < m'.nextFr → m'.fr f < m'.nextCell

theorem Stable.refl (m : Mem) : Stable F m m :=
  ⟨le_rfl, le_rfl, fun _ _ => .inl rfl, fun _ h h' => absurd h' (not_lt.mpr h)⟩

theorem Stable.trans {m m' m'' : Mem} (h : Stable F m m') (h' : Stable F m' m'') : Stable F m m'' where
  cells := h.cells.trans h'.cells
  frs := h.frs.trans h'.frs
  ptr f hf := by
    rcases h'.ptr f (hf.trans_le h.frs) with h1 | h1
    · rcases h.ptr f hf with h2 | h2
      · exact .inl (h1.trans h2)
      · exact .inr ⟨h2.1, h1 ▸ h2.2.1, by rw [h1]; exact h2.2.2.trans_le h'.cells⟩
    · exact .inr h1
  fresh f hf hf' := by
    by_cases hlt : f < m'.nextFr
    · rcases h'.ptr f hlt with h1 | h1
      · rw [h1]; exact (h.fresh f hf hlt).trans_le h'.cells
      · exact h1.2.2
    · exact h'.fresh f (not_lt.mp hlt) hf'

/-- What holds when the program has returned includes that it got there. -/
theorem Ok_ran {α : Type} {Q : α → Mem → Prop} : ∀ (x : M α) (m : Mem), x.Ok F Q m →
    x.Ok F (fun a m' => Q a m' ∧ x.run m = some (a, m')) m := by
  intro x
  induction x with
  | ret a => exact fun m h => ⟨h, rfl⟩
  | panic => exact fun _ _ => trivial
  | readCell p k ih => exact fun m h => ⟨h.1, ih _ m h.2⟩
  | writeCell p v k ih => exact fun m h => ⟨h.1, ih _ h.2⟩
  | readFr p k ih => exact fun m h => ⟨h.1, ih _ m h.2⟩
  | writeFr p v k ih => exact fun m h => ⟨h.1, ih _ h.2⟩
  | newCell v k ih => exact fun m h => ih _ _ h
  | newFr v k ih => exact fun m h => ⟨h.1, ih _ _ h.2⟩

theorem Ok_stable {α : Type} {Q : α → Mem → Prop} : ∀ (x : M α) (m : Mem), x.Ok F Q m →
    x.Ok F (fun a m' => Q a m' ∧ Stable F m m') m := by
  intro x
  induction x with
  | ret a => exact fun m h => ⟨h, .refl m⟩
  | panic => exact fun _ _ => trivial
  | readCell p k ih => exact fun m h => ⟨h.1, ih _ m h.2⟩
  | writeCell p v k ih =>
    exact fun m h => ⟨h.1, Ok_mono (fun a m' hh => ⟨hh.1, ⟨hh.2.cells, hh.2.frs, hh.2.ptr, hh.2.fresh⟩⟩) _ _ (ih _ h.2)⟩
  | readFr p k ih => exact fun m h => ⟨h.1, ih _ m h.2⟩
  | writeFr p v k ih =>
    intro m h
    have hs : Stable F m (m.setN p v) := ⟨le_rfl, le_rfl, fun f hf => by
      by_cases hfp : f = p
      · subst hfp
        refine .inr ⟨h.1.1, ?_⟩
        show F.WC (Function.update m.fr f v f) ∧ Function.update m.fr f v f < _
        rw [Function.update_self]; exact h.1.2
      · exact .inl (Function.update_of_ne hfp _ _), fun f h h' => absurd h' (not_lt.mpr h)⟩
    exact ⟨h.1, Ok_mono (fun a m' hh => ⟨hh.1, hs.trans hh.2⟩) _ _ (ih _ h.2)⟩
  | newCell v k ih =>
    intro m h
    have hs : Stable F m (m.alloc v).2 :=
      ⟨Nat.le_succ _, le_rfl, fun _ _ => .inl rfl, fun f h h' => absurd h' (not_lt.mpr h)⟩
    exact Ok_mono (fun a m' hh => ⟨hh.1, hs.trans hh.2⟩) _ _ (ih _ _ h)
  | newFr v k ih =>
    intro m h
    have hs : Stable F m (m.allocFr v).2 := ⟨le_rfl, Nat.le_succ _, fun f hf => .inl (Function.update_of_ne hf.ne _ _),
      fun f h1 h2 => by
        have : f = m.nextFr := le_antisymm (Nat.lt_succ_iff.mp h2) h1
        subst this
        show Function.update m.fr m.nextFr v m.nextFr < _
        rw [Function.update_self]; exact h.1⟩
    exact ⟨h.1, Ok_mono (fun a m' hh => ⟨hh.1, hs.trans hh.2⟩) _ _ (ih _ _ h.2)⟩

/-- The accesses that a program is allowed: what is new, the package variables for reading, and more. -/
structure Wide (F : Fp) (n nf : Nat) : Prop where
  sub : ∀ p, F.WC p → F.RC p
  subS : ∀ f, F.WS f → F.RS f
  pkg : ∀ p < 6, F.RC p
  newC : ∀ p, n ≤ p → F.WC p
  newS : ∀ f, nf ≤ f → F.WS f
  one : F.RS aBigOneFR
  zero : F.RS aBigZeroFR

/-- The scalar at `f` may be read. -/
structure Rd (F : Fp) (m : Mem) (f : Nat) : Prop where
  rs : F.RS f
  c : F.RC (m.fr f)
  lt : f < m.nextFr

theorem Rd.s {F : Fp} {m : Mem} {f : Nat} (h : Rd F m f) : F.RS f ∧ f < m.nextFr := ⟨h.rs, h.lt⟩

/-- The scalar at `f` may be changed. -/
structure Wr (F : Fp) (m : Mem) (f : Nat) : Prop where
  s : F.WS f
  c : F.WC (m.fr f)
  lt : f < m.nextFr

/-- What holds of the memory at all times. -/
structure Base (F : Fp) (n nf : Nat) (m : Mem) : Prop where
  wide : Wide F n nf
  old : n ≤ m.nextCell
  oldFr : nf ≤ m.nextFr
  six : 6 ≤ m.nextCell
  ptr : ∀ f < m.nextFr, m.fr f < m.nextCell
  one : Rd F m aBigOneFR
  zero : Rd F m aBigZeroFR

section
variable {n nf : Nat} {m m' : Mem} {f : Nat}

theorem Wr.rd (w : Wide F n nf) (h : Wr F m f) : Rd F m f := ⟨w.subS f h.s, w.sub _ h.c, h.lt⟩

theorem Rd.stable (w : Wide F n nf) (h : Rd F m f) (hs : Stable F m m') : Rd F m' f :=
  ⟨h.rs, (hs.ptr f h.lt).elim (fun e => e ▸ h.c) (fun e => w.sub _ e.2.1), h.lt.trans_le hs.frs⟩

theorem Wr.stable (h : Wr F m f) (hs : Stable F m m') : Wr F m' f :=
  ⟨h.s, (hs.ptr f h.lt).elim (fun e => e ▸ h.c) (fun e => e.2.1), h.lt.trans_le hs.frs⟩

theorem Base.stable (h : Base F n nf m) (hs : Stable F m m') : Base F n nf m' where
  wide := h.wide
  old := h.old.trans hs.cells
  oldFr := h.oldFr.trans hs.frs
  six := h.six.trans hs.cells
  ptr f hf := by
    by_cases hlt : f < m.nextFr
    · rcases hs.ptr f hlt with e | e
      · rw [e]; exact (h.ptr f hlt).trans_le hs.cells
      · exact e.2.2
    · exact hs.fresh f (not_lt.mp hlt) hf
  one := h.one.stable h.wide hs
  zero := h.zero.stable h.wide hs

end

/-- A call followed by another. -/
theorem Ok_seq {α β : Type} {P : α → Mem → Prop} {Q : β → Mem → Prop} {x : M α} {f : α → M β} {n nf : Nat} {m : Mem}
    (hb : Base F n nf m) (hx : x.Ok F P m)
    (hf : ∀ a m', P a m' → Stable F m m' → Base F n nf m' → (f a).Ok F Q m') : (x >>= f).Ok F Q m :=
  (Ok_bind x f m).mpr (Ok_mono (fun a m' h => hf a m' h.1 h.2 (hb.stable h.2)) _ _ (Ok_stable _ _ hx))

theorem Ok_pure {α : Type} {Q : α → Mem → Prop} (a : α) (m : Mem) : (pure a : M α).Ok F Q m ↔ Q a m := Iff.rfl

section
variable {β : Type} {Q : β → Mem → Prop} {m : Mem}
theorem Ok_cell {p : Nat} {k : FRRepr → M β} (h : F.RC p) (hk : (k (m.cell p)).Ok F Q m) : (cell p >>= k).Ok F Q m :=
  ⟨h, hk⟩
theorem Ok_fr {f : Nat} {k : Nat → M β} (h : F.RS f ∧ f < m.nextFr) (hk : (k (m.fr f)).Ok F Q m) : (fr f >>= k).Ok F Q m := ⟨h, hk⟩
theorem Ok_setCell {p : Nat} {v : FRRepr} {k : Unit → M β} (h : F.WC p) (hk : (k ()).Ok F Q (m.set p v)) :
    (setCell p v >>= k).Ok F Q m := ⟨h, hk⟩
end

/-- Nothing is claimed about what the call returns. -/
abbrev Any {α : Type} : α → Mem → Prop := fun _ _ => True

section
variable {n nf : Nat} {m : Mem}

theorem isValid_ok (hb : Base F n nf m) {f : Nat} (h : Rd F m f) : (isValid f).Ok F (fun _ m' => m' = m) m :=
  ⟨h.s, h.c, hb.wide.pkg _ (by decide), rfl⟩

theorem reduceAssign_ok (hb : Base F n nf m) {f : Nat} (h : Wr F m f) : (reduceAssign f).Ok F Any m := by
  have hr := h.rd hb.wide
  refine Ok_seq hb (isValid_ok hb hr) fun v m' e _ _ => ?_
  subst e
  cases v
  · exact ⟨hr.s, hr.c, hb.wide.pkg _ (by decide), h.c, trivial⟩
  · trivial

/-- A new scalar whose pointer may be written, may be changed. -/
theorem newFr_ok (hb : Base F n nf m) {p : Nat} (hp : F.WC p) (hlt : p < m.nextCell) :
    (newFr p).Ok F (fun f m' => Wr F m' f ∧ m'.cell = m.cell ∧ m'.nextCell = m.nextCell) m := by
  refine ⟨hlt, ⟨hb.wide.newS _ hb.oldFr, ?_, Nat.lt_succ_self _⟩, rfl, rfl⟩
  show F.WC (Function.update m.fr m.nextFr p m.nextFr)
  rw [Function.update_self]; exact hp

theorem copy_ok (hb : Base F n nf m) {f : Nat} (h : Rd F m f) : (copy f).Ok F (fun g m' => Wr F m' g) m := by
  refine ⟨h.s, h.c, ?_⟩
  refine ⟨Nat.lt_succ_self _, hb.wide.newS _ hb.oldFr, ?_, Nat.lt_succ_self _⟩
  show F.WC (Function.update m.fr m.nextFr m.nextCell m.nextFr)
  rw [Function.update_self]; exact hb.wide.newC _ hb.old

theorem Base.set (hb : Base F n nf m) (p : Nat) (v : FRRepr) : Base F n nf (m.set p v) :=
  ⟨hb.wide, hb.old, hb.oldFr, hb.six, hb.ptr, ⟨hb.one.rs, hb.one.c, hb.one.lt⟩, ⟨hb.zero.rs, hb.zero.c, hb.zero.lt⟩⟩
theorem Rd.set {f : Nat} (h : Rd F m f) (p : Nat) (v : FRRepr) : Rd F (m.set p v) f := ⟨h.rs, h.c, h.lt⟩
theorem Wr.set {f : Nat} (h : Wr F m f) (p : Nat) (v : FRRepr) : Wr F (m.set p v) f := ⟨h.s, h.c, h.lt⟩

theorem addAssign_ok (hb : Base F n nf m) {f g : Nat} (h : Wr F m f) (h' : Rd F m g) : (addAssign f g).Ok F Any m := by
  have hr := h.rd hb.wide
  exact ⟨hr.s, h'.s, hr.c, h'.c, h.c, reduceAssign_ok (hb.set _ _) (h.set _ _)⟩

theorem montReduce_ok (hb : Base F n nf m) {f : Nat} (h : Wr F m f) (hi lo : FRRepr) :
    (montReduce f hi lo).Ok F Any m := by
  have hr := h.rd hb.wide
  exact ⟨hb.wide.pkg _ (by decide), hr.s, h.c, reduceAssign_ok (hb.set _ _) (h.set _ _)⟩

theorem mulAssign_ok (hb : Base F n nf m) {f g : Nat} (h : Wr F m f) (h' : Rd F m g) : (mulAssign f g).Ok F Any m := by
  have hr := h.rd hb.wide
  exact ⟨hr.s, hr.c, h'.s, h'.c, montReduce_ok hb h _ _⟩

theorem frReprToFR_ok (hb : Base F n nf m) {o : Nat} (h : F.WC o) (hlt : o < m.nextCell) :
    (frReprToFR o).Ok F (fun r m' => ∀ f, r = some f → Wr F m' f) m := by
  refine Ok_seq hb (newFr_ok hb h hlt) fun r m1 h1 _ hb1 => ?_
  refine Ok_seq hb1 (isValid_ok hb1 (h1.1.rd hb.wide)) fun v m2 e _ _ => ?_
  subst e
  cases v
  · exact fun f hf => by cases hf
  · refine Ok_seq hb1 (P := fun t m' => Rd F m' t) ⟨lt_of_lt_of_le (by decide : aFRR2 < 6) hb1.six,
      hb.wide.subS _ (hb.wide.newS _ hb1.oldFr), ?_, Nat.lt_succ_self _⟩ fun t m3 ht hs3 hb3 => ?_
    · show F.RC (Function.update m2.fr m2.nextFr aFRR2 m2.nextFr)
      rw [Function.update_self]; exact hb.wide.pkg _ (by decide)
    · refine Ok_seq hb3 (mulAssign_ok hb3 (h1.1.stable hs3) ht) fun _ m4 _ hs4 _ => ?_
      intro f hf; cases hf
      exact (h1.1.stable hs3).stable hs4

theorem subAssign_ok (hb : Base F n nf m) {f g : Nat} (h : Wr F m f) (h' : Rd F m g) : (subAssign f g).Ok F Any m := by
  have hr := h.rd hb.wide
  refine Ok_fr h'.s (Ok_cell h'.c (Ok_fr hr.s (Ok_cell hr.c ?_)))
  dsimp only
  split
  · exact ⟨hr.s, hr.c, hb.wide.pkg _ (by decide), h.c, hr.s, h'.s, hr.c, h'.c, h.c, trivial⟩
  · exact ⟨hr.s, h'.s, hr.c, h'.c, h.c, trivial⟩

theorem isZero_ok (hb : Base F n nf m) {f : Nat} (h : Rd F m f) : (isZero f).Ok F (fun _ m' => m' = m) m :=
  ⟨h.s, h.c, hb.wide.pkg _ (by decide), rfl⟩

theorem equals_ok {f g : Nat} (h : Rd F m f) (h' : Rd F m g) : (equals f g).Ok F (fun _ m' => m' = m) m :=
  ⟨h.s, h.c, h'.s, h'.c, rfl⟩

theorem negAssign_ok (hb : Base F n nf m) {f : Nat} (h : Wr F m f) : (negAssign f).Ok F Any m := by
  have hr := h.rd hb.wide
  refine Ok_seq hb (isZero_ok hb hr) fun v m' e _ _ => ?_
  subst e
  cases v
  · exact ⟨hb.wide.pkg _ (by decide), hr.s, hb.wide.sub _ (hb.wide.newC _ hb.old), hr.c, hb.wide.newC _ hb.old,
      ⟨h.s, hb.wide.newC _ hb.old, Nat.lt_succ_self _⟩, trivial⟩
  · trivial

theorem doubleAssign_ok (hb : Base F n nf m) {f : Nat} (h : Wr F m f) : (doubleAssign f).Ok F Any m := by
  have hr := h.rd hb.wide
  exact ⟨hr.s, hr.c, h.c, reduceAssign_ok (hb.set _ _) (h.set _ _)⟩

theorem squareAssign_ok (hb : Base F n nf m) {f : Nat} (h : Wr F m f) : (squareAssign f).Ok F Any m := by
  have hr := h.rd hb.wide
  exact ⟨hr.s, hr.c, montReduce_ok hb h _ _⟩

theorem toRepr_ok (hb : Base F n nf m) {f : Nat} (h : Rd F m f) :
    (toRepr f).Ok F (fun p m' => F.WC p ∧ p < m'.nextCell) m := by
  refine Ok_seq hb (copy_ok hb h) fun g m1 h1 hs1 hb1 => ?_
  have h' := h.stable hb.wide hs1
  refine Ok_fr h'.s (Ok_cell h'.c ?_)
  refine Ok_seq hb1 (montReduce_ok hb1 h1 _ _) fun _ m2 _ hs2 hb2 => ?_
  have h2 := h1.stable hs2
  exact ⟨(h2.rd hb.wide).s, h2.c, hb2.ptr _ h2.lt⟩

theorem cmp_ok (hb : Base F n nf m) {f g : Nat} (h : Rd F m f) (h' : Rd F m g) : (cmp f g).Ok F Any m := by
  refine Ok_seq hb (toRepr_ok hb h) fun a m1 h1 hs1 hb1 => ?_
  refine Ok_seq hb1 (toRepr_ok hb1 (h'.stable hb.wide hs1)) fun b m2 h2 _ _ => ?_
  exact ⟨hb.wide.sub _ h1.1, hb.wide.sub _ h2.1, trivial⟩

theorem expLoop_ok {k fi fNew : Nat} : ∀ (fuel : Nat) {m : Mem}, Base F n nf m → F.WC k → Wr F m fi → Wr F m fNew →
    (expLoop k fi fNew fuel).Ok F Any m
  | 0, _, _, _, _, _ => trivial
  | fuel + 1, m, hb, hk, hi, hN => by
    have hkr := hb.wide.sub _ hk
    refine Ok_cell hkr (Ok_cell (hb.wide.pkg _ (by decide)) ?_)
    split
    · refine Ok_cell hkr ?_
      have K : ∀ m1, Stable F m m1 → Base F n nf m1 → (squareAssign fi >>= fun _ => cell k >>= fun c =>
          setCell k (c.rsh 1) >>= fun _ => expLoop k fi fNew fuel).Ok F Any m1 := fun m1 hs1 hb1 => by
        refine Ok_seq hb1 (squareAssign_ok hb1 (hi.stable hs1)) fun _ m2 _ hs2 hb2 => ?_
        exact Ok_cell hkr (Ok_setCell hk (expLoop_ok fuel (hb2.set _ _) hk (((hi.stable hs1).stable hs2).set _ _)
          (((hN.stable hs1).stable hs2).set _ _)))
      dsimp only
      split
      · exact Ok_seq hb (mulAssign_ok hb hN (hi.rd hb.wide)) fun _ m1 _ hs1 hb1 => K m1 hs1 hb1
      · exact K m (.refl m) hb
    · trivial

theorem newCell_ok (hb : Base F n nf m) (v : FRRepr) :
    (newCell v).Ok F (fun p m' => F.WC p ∧ p < m'.nextCell) m := ⟨hb.wide.newC _ hb.old, Nat.lt_succ_self _⟩

theorem exp_ok (hb : Base F n nf m) {f k : Nat} (h : Rd F m f) (hk : F.RC k) : (exp f k).Ok F (fun g m' => Wr F m' g) m := by
  refine Ok_cell hk ?_
  refine Ok_seq hb (newCell_ok hb _) fun c m1 h1 hs1 hb1 => ?_
  refine Ok_seq hb1 (copy_ok hb1 (h.stable hb.wide hs1)) fun fi m2 h2 hs2 hb2 => ?_
  refine Ok_seq hb2 (copy_ok hb2 hb2.one) fun fN m3 h3 hs3 hb3 => ?_
  refine Ok_seq hb3 (expLoop_ok 257 hb3 h1.1 (h2.stable hs3) h3) fun _ m4 _ hs4 _ => ?_
  exact h3.stable hs4

theorem halveLoop_ok {u b : Nat} : ∀ (fuel : Nat) {m : Mem}, Base F n nf m → F.WC u → Wr F m b →
    (halveLoop u b fuel).Ok F Any m
  | 0, _, _, _, _ => trivial
  | fuel + 1, m, hb, hu, h => by
    have hur := hb.wide.sub _ hu
    have hr := h.rd hb.wide
    refine Ok_cell hur ?_
    split
    · refine Ok_cell hur (Ok_setCell hu (Ok_fr hr.s (Ok_cell hr.c ?_)))
      have hb0 : Base F n nf (m.set u (m.cell u).div2) := hb.set _ _
      have h0 : Wr F (m.set u (m.cell u).div2) b := h.set _ _
      have K : ∀ m1, Base F n nf m1 → Wr F m1 b → (fr b >>= fun p => cell p >>= fun c =>
          setCell p c.div2 >>= fun _ => halveLoop u b fuel).Ok F Any m1 := fun m1 hb1 h1 =>
        Ok_fr (h1.rd hb.wide).s (Ok_cell (h1.rd hb.wide).c (Ok_setCell h1.c
          (halveLoop_ok fuel (hb1.set _ _) hu (h1.set _ _))))
      dsimp only
      split
      · exact K _ hb0 h0
      · exact Ok_fr hr.s (Ok_cell hr.c (Ok_cell (hb.wide.pkg _ (by decide)) (Ok_setCell h.c
          (K _ (hb0.set _ _) (h0.set _ _)))))
    · trivial

theorem inverseLoop_ok {one u v b c : Nat} : ∀ (fuel : Nat) {m : Mem}, Base F n nf m → F.RC one → F.WC u → F.WC v →
    Wr F m b → Wr F m c → (inverseLoop one u v b c fuel).Ok F Any m
  | 0, _, _, _, _, _, _, _ => trivial
  | fuel + 1, m, hb, ho, hu, hv, h, h' => by
    have hur := hb.wide.sub _ hu
    have hvr := hb.wide.sub _ hv
    refine Ok_cell hur (Ok_cell hvr (Ok_cell ho ?_))
    split
    · refine Ok_seq hb (halveLoop_ok 257 hb hu h) fun _ m1 _ hs1 hb1 => ?_
      refine Ok_seq hb1 (halveLoop_ok 257 hb1 hv (h'.stable hs1)) fun _ m2 _ hs2 hb2 => ?_
      have hB : Wr F m2 b := (h.stable hs1).stable hs2
      have hC : Wr F m2 c := (h'.stable hs1).stable hs2
      refine Ok_cell hur (Ok_cell hvr ?_)
      dsimp only
      split
      · refine Ok_setCell hu (Ok_seq (hb2.set _ _) (subAssign_ok (hb2.set _ _) (hB.set _ _)
          ((hC.set _ _).rd hb.wide)) fun _ m3 _ hs3 hb3 => ?_)
        exact inverseLoop_ok fuel hb3 ho hu hv ((hB.set _ _).stable hs3) ((hC.set _ _).stable hs3)
      · refine Ok_setCell hv (Ok_seq (hb2.set _ _) (subAssign_ok (hb2.set _ _) (hC.set _ _)
          ((hB.set _ _).rd hb.wide)) fun _ m3 _ hs3 hb3 => ?_)
        exact inverseLoop_ok fuel hb3 ho hu hv ((hB.set _ _).stable hs3) ((hC.set _ _).stable hs3)
    · trivial

theorem inverse_ok (hb : Base F n nf m) {f : Nat} (h : Rd F m f) :
    (inverse f).Ok F (fun r m' => ∀ g, r = some g → Wr F m' g) m := by
  refine Ok_seq hb (isZero_ok hb h) fun z m' e _ _ => ?_
  subst e
  cases z
  · refine Ok_fr h.s (Ok_cell h.c ?_)
    refine Ok_seq hb (newCell_ok hb _) fun u m1 hu hs1 hb1 => ?_
    refine Ok_cell (hb.wide.pkg _ (by decide)) ?_
    refine Ok_seq hb1 (newCell_ok hb1 _) fun v m2 hv hs2 hb2 => ?_
    refine Ok_cell (hb.wide.pkg _ (by decide)) ?_
    refine Ok_seq hb2 (newCell_ok hb2 _) fun p m3 hp hs3 hb3 => ?_
    refine Ok_seq hb3 (newFr_ok hb3 hp.1 hp.2) fun b m4 hB hs4 hb4 => ?_
    refine Ok_seq hb4 (copy_ok hb4 hb4.zero) fun c m5 hC hs5 hb5 => ?_
    refine Ok_seq hb5 (newCell_ok hb5 _) fun o m6 ho hs6 hb6 => ?_
    refine Ok_seq hb6 (inverseLoop_ok 520 hb6 (hb.wide.sub _ ho.1) hu.1 hv.1 ((hB.1.stable hs5).stable hs6)
      (hC.stable hs6)) fun _ m7 _ hs7 hb7 => ?_
    refine ⟨hb.wide.sub _ hu.1, hb.wide.sub _ ho.1, fun g hg => ?_⟩
    cases hg
    split
    · exact ((hB.1.stable hs5).stable hs6).stable hs7
    · exact (hC.stable hs6).stable hs7
  · exact fun g hg => by cases hg

theorem parity_ok (hb : Base F n nf m) {f : Nat} (h : Rd F m f) : (parity f).Ok F Any m := by
  refine Ok_seq hb (copy_ok hb h) fun g m1 h1 hs1 hb1 => ?_
  refine Ok_seq hb1 (negAssign_ok hb1 h1) fun _ m2 _ hs2 hb2 => ?_
  refine Ok_seq hb2 (cmp_ok hb2 ((h.stable hb.wide hs1).stable hb.wide hs2) ((h1.stable hs2).rd hb.wide))
    fun _ _ _ _ _ => trivial

theorem mulBitsLoop_ok {f b res : Nat} : ∀ (k i : Nat) {m : Mem}, Base F n nf m → Rd F m f → F.RC b → Wr F m res →
    (mulBitsLoop f b res k i).Ok F Any m
  | 0, _, _, _, _, _, _ => trivial
  | k + 1, i, m, hb, h, hB, hr => by
    refine Ok_seq hb (doubleAssign_ok hb hr) fun _ m1 _ hs1 hb1 => ?_
    refine Ok_cell hB ?_
    have K : ∀ m2, Stable F m1 m2 → Base F n nf m2 → (mulBitsLoop f b res k (i + 1)).Ok F Any m2 := fun m2 hs2 hb2 =>
      mulBitsLoop_ok k (i + 1) hb2 ((h.stable hb.wide hs1).stable hb.wide hs2) hB ((hr.stable hs1).stable hs2)
    cases (m1.cell b).bit i with
    | none => trivial
    | some t =>
      dsimp only
      split
      · exact Ok_seq hb1 (addAssign_ok hb1 (hr.stable hs1) (h.stable hb.wide hs1)) fun _ m2 _ hs2 hb2 => K m2 hs2 hb2
      · exact K m1 (.refl m1) hb1

theorem mulBits_ok (hb : Base F n nf m) {f b : Nat} (h : Rd F m f) (hB : F.RC b) :
    (mulBits f b).Ok F (fun g m' => Wr F m' g) m := by
  refine Ok_seq hb (copy_ok hb hb.zero) fun g m1 h1 hs1 hb1 => ?_
  refine Ok_cell hB ?_
  refine Ok_seq hb1 (mulBitsLoop_ok _ 0 hb1 (h.stable hb.wide hs1) hB h1) fun _ m2 _ hs2 _ => ?_
  exact h1.stable hs2

theorem mulBytesLoop_ok {f res : Nat} {b : List UInt8} : ∀ (k i : Nat) {m : Mem}, Base F n nf m → Rd F m f →
    Wr F m res → (mulBytesLoop f b res k i).Ok F Any m
  | 0, _, _, _, _, _ => trivial
  | k + 1, i, m, hb, h, hr => by
    refine Ok_seq hb (doubleAssign_ok hb hr) fun _ m1 _ hs1 hb1 => ?_
    have K : ∀ m2, Stable F m1 m2 → Base F n nf m2 → (mulBytesLoop f b res k (i + 1)).Ok F Any m2 := fun m2 hs2 hb2 =>
      mulBytesLoop_ok k (i + 1) hb2 ((h.stable hb.wide hs1).stable hb.wide hs2) ((hr.stable hs1).stable hs2)
    cases b[i / 8]? with
    | none => trivial
    | some t =>
      dsimp only
      split
      · exact Ok_seq hb1 (addAssign_ok hb1 (hr.stable hs1) (h.stable hb.wide hs1)) fun _ m2 _ hs2 hb2 => K m2 hs2 hb2
      · exact K m1 (.refl m1) hb1

theorem mulBytes_ok (hb : Base F n nf m) {f : Nat} (h : Rd F m f) (b : List UInt8) :
    (mulBytes f b).Ok F (fun g m' => Wr F m' g) m := by
  refine Ok_seq hb (copy_ok hb hb.zero) fun g m1 h1 hs1 hb1 => ?_
  refine Ok_seq hb1 (mulBytesLoop_ok _ 0 hb1 (h.stable hb.wide hs1) h1) fun _ m2 _ hs2 _ => ?_
  exact h1.stable hs2

theorem legendre_ok (hb : Base F n nf m) {f : Nat} (h : Rd F m f) : (legendre f).Ok F Any m := by
  refine Ok_seq hb (exp_ok hb h (hb.wide.pkg _ (by decide))) fun o m1 h1 hs1 hb1 => ?_
  refine Ok_seq hb1 (isZero_ok hb1 (h1.rd hb.wide)) fun z m2 e _ _ => ?_
  subst e
  cases z
  · refine Ok_seq hb1 (equals_ok (h1.rd hb.wide) hb1.one) fun q m3 _ _ _ => ?_
    cases q <;> trivial
  · trivial

theorem serialize_ok (hb : Base F n nf m) {f : Nat} (h : Rd F m f) : (serialize f).Ok F Any m := by
  refine Ok_seq hb (toRepr_ok hb h) fun a m1 h1 _ _ => ?_
  exact ⟨hb.wide.sub _ h1.1, trivial⟩

end
end Bls.HeapFR
