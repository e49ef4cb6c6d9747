import Verif.Proof.ThreadsFRRun
/-
Goroutines on scalars after a first program: the objects that each may access, and the start of the simulation.
-/
namespace Bls.HeapFR
open Bls.Heap (Mem aRFieldModulus aFrZero aBigOneFR aBigZeroFR aFRR2 aFrOne aRMinus1Over2)

/-- What the first program may access. -/
def fp0 : Fp := ⟨fun _ => True, fun p => 6 ≤ p, fun _ => True, fun f => Heap.init.nextFr ≤ f⟩

theorem init_nextCell : Heap.init.nextCell = 6 := by decide +kernel
theorem init_nextFr : Heap.init.nextFr = 4 := by decide +kernel
theorem init_one : Heap.init.fr aBigOneFR = aFrOne := by decide +kernel
theorem init_zero : Heap.init.fr aBigZeroFR = aFrZero := by decide +kernel
theorem init_ptr : ∀ f < 4, Heap.init.fr f < 6 := by decide +kernel

theorem base0 : Base fp0 6 Heap.init.nextFr Heap.init where
  wide := ⟨fun _ _ => trivial, fun _ _ => trivial, fun _ _ => trivial, fun _ h => h, fun _ h => h, trivial, trivial⟩
  old := init_nextCell.ge
  oldFr := le_rfl
  six := init_nextCell.ge
  ptr := by rw [init_nextCell, init_nextFr]; exact init_ptr
  one := ⟨trivial, trivial, by rw [init_nextFr]; decide⟩
  zero := ⟨trivial, trivial, by rw [init_nextFr]; decide⟩

/-- What holds when the goroutines start. -/
structure Started (m : Mem) (e : Env) : Prop where
  one : m.fr aBigOneFR = aFrOne
  zero : m.fr aBigZeroFR = aFrZero
  six : 6 ≤ m.nextCell
  four : 4 ≤ m.nextFr
  ptr : ∀ f < m.nextFr, m.fr f < m.nextCell
  frs : ∀ i f, e.fr i = some f → 6 ≤ m.fr f ∧ f < m.nextFr
  reprs : ∀ (i p : Nat), e.reprs[i]? = some p → 6 ≤ p ∧ p < m.nextCell

theorem started {pre : Prog Op Out} {e : Env} {outs : List Out} {m : Mem}
    (hpre : aloneRun pre Env.empty Heap.init = some ((e, outs), m)) (h0 : NoSqrt (made pre Env.empty Heap.init)) : Started m e := by
  have hok := calls_ok (U := fun _ => True) (C := fun _ => True) pre base0 (e := Env.empty)
    ⟨fun i f _ h => by simp [Env.empty, Env.fr] at h, fun i f _ h => by simp [Env.empty, Env.fr] at h,
      fun i p _ h => by simp [Env.empty] at h, fun i p _ h => by simp [Env.empty] at h⟩
    (fun _ _ _ _ => trivial) (fun _ _ _ _ => trivial) h0
  obtain ⟨⟨hb, he⟩, hs⟩ := Ok_run _ _ (Ok_stable _ _ hok) _ ((calls_run pre Env.empty Heap.init).trans hpre)
  dsimp only at hb he hs
  have keep : ∀ f < 4, m.fr f = Heap.init.fr f := fun f hf => (hs.ptr f (init_nextFr ▸ hf)).elim id fun h => by
    have : Heap.init.nextFr ≤ f := h.1
    rw [init_nextFr] at this
    omega
  refine ⟨(keep _ (by decide)).trans init_one, (keep _ (by decide)).trans init_zero, hb.six, init_nextFr ▸ hb.oldFr, hb.ptr,
    fun i f h => ?_, fun i p h => he.wc i p trivial h⟩
  have := he.wr i f trivial h
  exact ⟨this.c, this.lt⟩

/-- Cells below `b` are as at the start. -/
theorem Ok_cells {α : Type} {F : Fp} {Q : α → Mem → Prop} {b : Nat} (hF : ∀ p < b, ¬ F.WC p) :
    ∀ (x : M α) (m : Mem), b ≤ m.nextCell → x.Ok F Q m → ∀ r, x.run m = some r → ∀ p < b, r.2.cell p = m.cell p := by
  intro x
  induction x with
  | ret a => intro m _ _ r hr p _; cases hr; rfl
  | panic => intro m _ _ r hr; cases hr
  | readCell p k ih => exact fun m hb h => ih _ m hb h.2
  | writeCell p v k ih =>
    exact fun m hb h r hr q hq => (ih (m.set p v) hb h.2 r hr q hq).trans
      (Function.update_of_ne (fun e : q = p => hF q hq (e ▸ h.1)) _ _)
  | readFr p k ih => exact fun m hb h => ih _ m hb h.2
  | writeFr p v k ih => exact fun m hb h r hr q hq => ih (m.setN p v) hb h.2 r hr q hq
  | newCell v k ih =>
    exact fun m hb h r hr q hq => (ih _ (m.alloc v).2 (hb.trans (Nat.le_succ _)) h r hr q hq).trans
      (Function.update_of_ne (hq.trans_le hb).ne _ _)
  | newFr v k ih => exact fun m hb h r hr q hq => ih _ (m.allocFr v).2 hb h.2 r hr q hq

theorem started_cells {pre : Prog Op Out} {e : Env} {outs : List Out} {m : Mem}
    (hpre : aloneRun pre Env.empty Heap.init = some ((e, outs), m)) (h0 : NoSqrt (made pre Env.empty Heap.init)) :
    ∀ p < 6, m.cell p = Heap.init.cell p := by
  have hok := calls_ok (U := fun _ => True) (C := fun _ => True) pre base0 (e := Env.empty)
    ⟨fun i f _ h => by simp [Env.empty, Env.fr] at h, fun i f _ h => by simp [Env.empty, Env.fr] at h,
      fun i p _ h => by simp [Env.empty] at h, fun i p _ h => by simp [Env.empty] at h⟩
    (fun _ _ _ _ => trivial) (fun _ _ _ _ => trivial) h0
  exact Ok_cells (fun p hp hw => absurd hp (not_lt.mpr hw)) _ _ init_nextCell.ge hok _
    ((calls_run pre Env.empty Heap.init).trans hpre)

theorem changed_vars (op : Op) {v : Var} (h : v ∈ op.changed) : v ∈ op.vars := by
  cases op <;> simp only [Op.changed, Op.vars, List.mem_cons, List.not_mem_nil, or_false] at * <;> simp [h]

theorem Changes.uses {m : Mem} {e : Env} {progs : List (Prog Op Out)} {t p : Nat} (h : Changes m e progs t p) :
    Uses m e progs t p := by
  obtain ⟨ops, h1, op, h2, v, h3, h4⟩ := h
  exact ⟨ops, h1, op, h2, v, changed_vars op h3, h4⟩

section
variable (m : Mem) (e : Env) (progs : List (Prog Op Out))

/-- Goroutine `t` uses the shared scalar at `f`. -/
def UsesFr (t f : Nat) : Prop := ∃ prog, progs[t]? = some prog ∧ ∃ op ∈ made prog e m, ∃ i, .fr i ∈ op.vars ∧ e.fr i = some f
/-- Goroutine `t` changes the shared scalar at `f`. -/
def ChangesFr (t f : Nat) : Prop := ∃ prog, progs[t]? = some prog ∧ ∃ op ∈ made prog e m, ∃ i, .fr i ∈ op.changed ∧ e.fr i = some f

/-- What goroutine `t` may access. -/
def fp (t : Nat) : Fp where
  RC p := p < 6 ∨ m.nextCell ≤ p ∨ Uses m e progs t p
  WC p := m.nextCell ≤ p ∨ Changes m e progs t p
  RS f := (f = aBigOneFR ∨ f = aBigZeroFR) ∨ m.nextFr ≤ f ∨ UsesFr m e progs t f
  WS f := m.nextFr ≤ f ∨ ChangesFr m e progs t f

/-- The variables that the program of goroutine `t` uses or makes. -/
def usesVar (t : Nat) (v : Var) : Prop := v.cell e m = none ∨ ∃ prog, progs[t]? = some prog ∧ ∃ op ∈ made prog e m, v ∈ op.vars
/-- The variables that the program of goroutine `t` changes or makes. -/
def changesVar (t : Nat) (v : Var) : Prop :=
  v.cell e m = none ∨ ∃ prog, progs[t]? = some prog ∧ ∃ op ∈ made prog e m, v ∈ op.changed
end

section
variable {m : Mem} {e : Env} {progs : List (Prog Op Out)}

theorem UsesFr.uses {t f : Nat} (h : UsesFr m e progs t f) : Uses m e progs t (m.fr f) := by
  obtain ⟨ops, h1, op, h2, i, h3, h4⟩ := h
  exact ⟨ops, h1, op, h2, _, h3, by simp [Var.cell, h4]⟩

theorem ChangesFr.changes {t f : Nat} (h : ChangesFr m e progs t f) : Changes m e progs t (m.fr f) := by
  obtain ⟨ops, h1, op, h2, i, h3, h4⟩ := h
  exact ⟨ops, h1, op, h2, _, h3, by simp [Var.cell, h4]⟩

theorem ChangesFr.usesFr {t f : Nat} (h : ChangesFr m e progs t f) : UsesFr m e progs t f := by
  obtain ⟨ops, h1, op, h2, i, h3, h4⟩ := h
  exact ⟨ops, h1, op, h2, i, changed_vars op h3, h4⟩

theorem Started.uses (s : Started m e) {t p : Nat} (h : Uses m e progs t p) : 6 ≤ p ∧ p < m.nextCell := by
  obtain ⟨ops, h1, op, h2, v, h3, h4⟩ := h
  cases v with
  | fr i =>
    cases hf : e.fr i with
    | none => simp [Var.cell, hf] at h4
    | some f =>
      simp only [Var.cell, hf, Option.map_some, Option.some.injEq] at h4
      subst h4
      exact ⟨(s.frs i f hf).1, s.ptr f (s.frs i f hf).2⟩
  | repr i => exact s.reprs i p h4

theorem fp_disj (s : Started m e) (sep : Separate m e progs) {t u : Nat} (htu : t ≠ u) :
    Disj m.nextCell m.nextFr (fp m e progs u) (fp m e progs t) where
  cells p hp hw hr := by
    rcases hw with hw | hw
    · exact absurd hp (not_lt.mpr hw)
    · rcases hr with hr | hr | hr
      · exact absurd hr (not_lt.mpr (s.uses hw.uses).1)
      · exact absurd hp (not_lt.mpr hr)
      · exact sep u t p (Ne.symm htu) hw hr
  frs f hf hw hr := by
    rcases hw with hw | hw
    · exact absurd hf (not_lt.mpr hw)
    · have h6 := (s.uses (m := m) hw.usesFr.uses).1
      rcases hr with (hr | hr) | hr | hr
      · subst hr; rw [s.one] at h6; exact absurd h6 (by decide)
      · subst hr; rw [s.zero] at h6; exact absurd h6 (by decide)
      · exact absurd hf (not_lt.mpr hr)
      · exact sep u t _ (Ne.symm htu) hw.changes hr.uses

theorem fp_wide (t : Nat) : Wide (fp m e progs t) m.nextCell m.nextFr :=
  ⟨fun _ h => h.elim (fun h => .inr (.inl h)) fun h => .inr (.inr h.uses),
    fun _ h => h.elim (fun h => .inr (.inl h)) fun h => .inr (.inr h.usesFr), fun _ h => .inl h, fun _ h => .inl h,
    fun _ h => .inl h, .inl (.inl rfl), .inl (.inr rfl)⟩

theorem fp_base (s : Started m e) (t : Nat) : Base (fp m e progs t) m.nextCell m.nextFr m where
  wide := fp_wide t
  old := le_rfl
  oldFr := le_rfl
  six := s.six
  ptr := s.ptr
  one := ⟨.inl (.inl rfl), .inl (by rw [s.one]; decide), lt_of_lt_of_le (by decide) s.four⟩
  zero := ⟨.inl (.inr rfl), .inl (by rw [s.zero]; decide), lt_of_lt_of_le (by decide) s.four⟩

theorem fp_env (s : Started m e) (t : Nat) :
    EnvOk (fp m e progs t) (usesVar m e progs t) (changesVar m e progs t) m e where
  rd i f hu hf := by
    rcases hu with hu | ⟨ops, h1, op, h2, h3⟩
    · simp [Var.cell, hf] at hu
    · have : UsesFr m e progs t f := ⟨ops, h1, op, h2, i, h3, hf⟩
      exact ⟨.inr (.inr this), .inr (.inr this.uses), (s.frs i f hf).2⟩
  wr i f hu hf := by
    rcases hu with hu | ⟨ops, h1, op, h2, h3⟩
    · simp [Var.cell, hf] at hu
    · have : ChangesFr m e progs t f := ⟨ops, h1, op, h2, i, h3, hf⟩
      exact ⟨.inr this, .inr this.changes, (s.frs i f hf).2⟩
  rc i p hu hp := by
    rcases hu with hu | ⟨ops, h1, op, h2, h3⟩
    · simp [Var.cell, hp] at hu
    · exact .inr (.inr ⟨ops, h1, op, h2, _, h3, hp⟩)
  wc i p hu hp := by
    rcases hu with hu | ⟨ops, h1, op, h2, h3⟩
    · simp [Var.cell, hp] at hu
    · exact ⟨.inr ⟨ops, h1, op, h2, _, h3, hp⟩, (s.reprs i p hp).2⟩

/-- What is claimed of goroutine `t` when it has returned. -/
def fpQ (m : Mem) (e : Env) (progs : List (Prog Op Out)) (t : Nat) (r : Env × List Out) (m' : Mem) : Prop :=
  EnvOk (fp m e progs t) (usesVar m e progs t) (changesVar m e progs t) m' r.1

theorem owner_start (t p : Nat) (h : p < m.nextCell) : (State.start m e progs).owner t p = 0 := if_pos h

/-- A goroutine, or an onlooker that reads only what was there at the start. -/
theorem start_view (s : Started m e) (t : Nat) (F : Fp) : View (State.start m e progs) t F m where
  cells _ _ := rfl
  frs f _ hl := by
    show (0, m.fr f) = _
    rw [owner_start t _ (s.ptr f hl)]
  next := rfl
  nextFr := rfl

theorem start_good (s : Started m e) (hq : ∀ prog ∈ progs, NoSqrt (made prog e m)) :
    Good (fp m e progs) (fpQ m e progs) m (progs.map fun prog => calls prog e) [] (State.start m e progs) where
  old := rfl
  oldFr := rfl
  len := rfl
  sim t x y hy hx := by
    obtain ⟨ops, ho, rfl⟩ : ∃ ops, progs[t]? = some ops ∧ calls ops e = y := by
      rw [List.getElem?_map] at hy
      cases h : progs[t]? with
      | none => rw [h] at hy; cases hy
      | some ops => rw [h] at hy; exact ⟨ops, rfl, Option.some.inj hy⟩
    have : x = calls ops e := by
      have := hx.symm.trans hy
      exact Option.some.inj this
    subst this
    refine ⟨m, ?_, rfl, rfl, start_view s t _, le_rfl, le_rfl⟩
    exact Ok_mono (fun _ _ h => h.2) _ _ (calls_ok ops (fp_base s t) (fp_env s t)
      (fun op h v hv => .inr ⟨ops, ho, op, h, hv⟩) (fun op h v hv => .inr ⟨ops, ho, op, h, hv⟩)
      (hq ops (List.mem_of_getElem? ho)))

/-- What an onlooker sees who reads only shared objects that no goroutine changes: the memory at the start. -/
theorem onlooker {F : Nat → Fp} {Q : Nat → Env × List Out → Mem → Prop} {x0 : List (M (Env × List Out))}
    (hd : ∀ t u, t ≠ u → Disj m.nextCell m.nextFr (F u) (F t)) {T : Nat} {G : Fp} (hT : x0.length ≤ T)
    (hG : ∀ u, Disj m.nextCell m.nextFr (F u) G) {st : State} (h : Good F Q m x0 [] st) (v : View st T G m)
    (schedule : List Nat) : View (st.run schedule) T G m := by
  suffices ∀ (s : List Nat) (sch : List Nat) (st : State), Good F Q m x0 sch st → View st T G m →
      View (st.run s) T G m from this schedule [] st h v
  intro s
  induction s with
  | nil => intro sch st _ v; exact v
  | cons u s ih =>
    intro sch st h v
    refine ih (sch ++ [u]) (st.step u) (h.step hd u) ?_
    unfold State.step
    cases hu : st.threads[u]? with
    | none => exact v
    | some z =>
      have hlt : u < st.threads.length := (List.getElem?_eq_some_iff.mp hu).1
      obtain ⟨w, hw⟩ : ∃ w, x0[u]? = some w := ⟨_, List.getElem?_eq_getElem (h.len ▸ hlt)⟩
      obtain ⟨B, hB⟩ := h.sim u z w hw hu
      have hTu : T ≠ u := by have := h.len; omega
      have := access_other hTu v hB.ok (h.old ▸ h.oldFr ▸ hG u)
      exact ⟨this.cells, this.frs, this.next, this.nextFr⟩

end
end Bls.HeapFR
