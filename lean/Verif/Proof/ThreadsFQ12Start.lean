import Verif.Proof.ThreadsFQ12Run
/-
Goroutines on `FQ12` after a first program: the objects that each may access, and the start of the simulation.
-/
namespace Bls.HeapFQ12
open Bls.Heap12 (Mem Op own memoryRun valuesRun aFQ6Zero aFQ12Zero aFQ12One)

theorem started {pre : List Op} {e : List Nat} {outs : List Bool} {m : Mem}
    (hpre : memoryRun pre Heap12.init [aFQ12Zero, aFQ12One] = some ((m, e), outs)) : Heap12.Sim m e (e.map m.read) := by
  rcases Heap12.run_agree pre Heap12.init_sim with ⟨a, _⟩ | ⟨m', e', s, o', a, _, hs, _⟩
  · rw [hpre] at a; cases a
  · rw [hpre] at a; cases a
    have : s = e.map m.read := hs.val.symm
    exact this ▸ hs

theorem receiver_vars (op : Op) {i : Nat} (h : op.receiver = some i) : i ∈ vars op := by
  cases op <;> simp only [Op.receiver, Option.some.injEq, reduceCtorEq] at h <;> simp [vars, h]

section
variable (m : Mem) (e : List Nat) (progs : List (List Op))

/-- Goroutine `t` uses variable `i`. -/
def Uses (t i : Nat) : Prop := ∃ ops, progs[t]? = some ops ∧ ∃ op ∈ ops, i ∈ vars op
/-- Goroutine `t` changes variable `i`. -/
def Changes (t i : Nat) : Prop := ∃ ops, progs[t]? = some ops ∧ ∃ op ∈ ops, op.receiver = some i
/-- Goroutine `t` uses the shared `FQ12` at `f`. -/
def UsesF (t f : Nat) : Prop := ∃ i, Uses progs t i ∧ e[i]? = some f
/-- Goroutine `t` changes the shared `FQ12` at `f`. -/
def ChangesF (t f : Nat) : Prop := ∃ i, 2 ≤ i ∧ Changes progs t i ∧ e[i]? = some f

/-- What goroutine `t` may access. -/
def fp (t : Nat) : Fp where
  RC p := p < 2 ∨ m.next6 ≤ p ∨ ∃ f, UsesF e progs t f ∧ (p = m.c0 f ∨ p = m.c1 f)
  WC p := m.next6 ≤ p ∨ ∃ f, ChangesF e progs t f ∧ (p = m.c0 f ∨ p = m.c1 f)
  RS f := f < 2 ∨ m.next12 ≤ f ∨ UsesF e progs t f
  WS f := m.next12 ≤ f ∨ ChangesF e progs t f

/-- The variables that the program of goroutine `t` uses or makes. -/
def usesVar (t i : Nat) : Prop := e.length ≤ i ∨ Uses progs t i
/-- The variables that the program of goroutine `t` changes or makes. -/
def changesVar (t i : Nat) : Prop := e.length ≤ i ∨ Changes progs t i
end

section
variable {m : Mem} {e : List Nat} {progs : List (List Op)} {s : List FQ12}

theorem Changes.uses {t i : Nat} (h : Changes progs t i) : Uses progs t i := by
  obtain ⟨ops, h1, op, h2, h3⟩ := h
  exact ⟨ops, h1, op, h2, receiver_vars op h3⟩

theorem ChangesF.uses {t f : Nat} (h : ChangesF e progs t f) : UsesF e progs t f := by
  obtain ⟨i, _, h1, h2⟩ := h
  exact ⟨i, h1.uses, h2⟩

theorem UsesF.lt (h0 : Heap12.Sim m e s) {t f : Nat} (h : UsesF e progs t f) : f < m.next12 := by
  obtain ⟨i, _, h⟩ := h
  exact h0.lt f (List.mem_of_getElem? h)

theorem ChangesF.ge (h0 : Heap12.Sim m e s) {t f : Nat} (h : ChangesF e progs t f) : 2 ≤ f := by
  obtain ⟨i, h2, _, h⟩ := h
  exact h0.ge i f h2 h

theorem sim_ptr (h0 : Heap12.Sim m e s) : ∀ f < m.next12, m.c0 f < m.next6 ∧ m.c1 f < m.next6 := by
  intro f hf
  by_cases h2 : 2 ≤ f
  · have := h0.inv.owns f h2 hf
    exact ⟨this.lt0, this.lt1⟩
  · have h6 := h0.inv.le6
    have hz := h0.inv.zero
    have ho := h0.inv.one
    have : f = aFQ12Zero ∨ f = aFQ12One := by unfold Heap12.aFQ12Zero Heap12.aFQ12One; omega
    rcases this with rfl | rfl
    · unfold Heap12.Mem.c0 Heap12.Mem.c1; rw [hz]; exact ⟨lt_of_lt_of_le (by decide) h6, lt_of_lt_of_le (by decide) h6⟩
    · unfold Heap12.Mem.c0 Heap12.Mem.c1; rw [ho]; exact ⟨lt_of_lt_of_le (by decide) h6, lt_of_lt_of_le (by decide) h6⟩

theorem sim_low (h0 : Heap12.Sim m e s) : ∀ f < 2, m.c0 f < 2 ∧ m.c1 f < 2 := by
  intro f hf
  have hz := h0.inv.zero
  have ho := h0.inv.one
  have : f = aFQ12Zero ∨ f = aFQ12One := by unfold Heap12.aFQ12Zero Heap12.aFQ12One; omega
  rcases this with rfl | rfl
  · unfold Heap12.Mem.c0 Heap12.Mem.c1; rw [hz]; decide
  · unfold Heap12.Mem.c0 Heap12.Mem.c1; rw [ho]; decide

/-- The objects of different shared elements are different. -/
theorem sim_sep (h0 : Heap12.Sim m e s) {f g p : Nat} (hf : f < m.next12) (hg : g < m.next12) (h2 : 2 ≤ f)
    (hp : p = m.c0 f ∨ p = m.c1 f) (hp' : p = m.c0 g ∨ p = m.c1 g) : f = g := by
  by_contra hne
  have o := h0.inv.owns f h2 hf
  by_cases hg2 : 2 ≤ g
  · have := o.sep g hg2 hg (Ne.symm hne)
    rcases hp with hp | hp <;> rcases hp' with hp' | hp'
    · exact this.1 (hp'.symm.trans hp)
    · exact this.2.2.1 (hp'.symm.trans hp)
    · exact this.2.1 (hp'.symm.trans hp)
    · exact this.2.2.2 (hp'.symm.trans hp)
  · have hl := sim_low h0 g (not_le.mp hg2)
    have h0' := o.ge0
    have h1' := o.ge1
    omega

/-- What the one changes, the other does not use. -/
theorem sep_F (h0 : Heap12.Sim m e s) (sep : Separate e.length progs) {t u f : Nat} (htu : t ≠ u) (hw : ChangesF e progs u f)
    (hr : UsesF e progs t f) : False := by
  obtain ⟨i, _, ⟨ops, h1, op, h2, h3⟩, hi⟩ := hw
  obtain ⟨j, ⟨ops', h1', op', h2', h3'⟩, hj⟩ := hr
  have hi' := List.getElem?_eq_some_iff.mp hi
  have hj' := List.getElem?_eq_some_iff.mp hj
  have : i = j := (List.Nodup.getElem_inj_iff h0.nodup).mp (hi'.2.trans hj'.2.symm)
  subst this
  exact sep u t ops ops' (Ne.symm htu) h1 h1' op h2 i hi'.1 h3 op' h2' h3'

theorem fp_disj (h0 : Heap12.Sim m e s) (sep : Separate e.length progs) {t u : Nat} (htu : t ≠ u) :
    Disj m.next6 m.next12 (fp m e progs u) (fp m e progs t) where
  sixes p hp hw hr := by
    rcases hw with hw | ⟨f, hw, hpf⟩
    · exact absurd hp (not_lt.mpr hw)
    · have o := h0.inv.owns f (hw.ge h0) (hw.uses.lt h0)
      rcases hr with hr | hr | ⟨g, hr, hpg⟩
      · have h0' := o.ge0
        have h1' := o.ge1
        omega
      · exact absurd hp (not_lt.mpr hr)
      · exact sep_F h0 sep htu hw (sim_sep h0 (hw.uses.lt h0) (hr.lt h0) (hw.ge h0) hpf hpg ▸ hr)
  twelves f hf hw hr := by
    rcases hw with hw | hw
    · exact absurd hf (not_lt.mpr hw)
    · rcases hr with hr | hr | hr
      · exact absurd hr (not_lt.mpr (hw.ge h0))
      · exact absurd hf (not_lt.mpr hr)
      · exact sep_F h0 sep htu hw hr

theorem fp_wide (t : Nat) : Wide (fp m e progs t) m.next6 m.next12 :=
  ⟨fun _ h => h.elim (fun h => .inr (.inl h)) fun ⟨f, h1, h2⟩ => .inr (.inr ⟨f, h1.uses, h2⟩),
    fun _ h => h.elim (fun h => .inr (.inl h)) fun h => .inr (.inr h.uses), .inl (by decide), fun _ h => .inl h,
    fun _ h => .inl h⟩

theorem fp_base (h0 : Heap12.Sim m e s) (t : Nat) : Base (fp m e progs t) m.next6 m.next12 m where
  wide := fp_wide t
  old := le_rfl
  old12 := le_rfl
  ptr := sim_ptr h0
  one := ⟨.inl (by decide), lt_of_lt_of_le (by decide) h0.inv.le12, .inl (sim_low h0 _ (by decide)).1,
    .inl (sim_low h0 _ (by decide)).2⟩

theorem fp_env (h0 : Heap12.Sim m e s) (t : Nat) :
    EnvOk (fp m e progs t) (usesVar e progs t) (changesVar e progs t) m e where
  rd i f hu hf := by
    have hi := (List.getElem?_eq_some_iff.mp hf).1
    have : UsesF e progs t f := ⟨i, hu.resolve_left (not_le.mpr hi), hf⟩
    exact ⟨.inr (.inr this), this.lt h0, .inr (.inr ⟨f, this, .inl rfl⟩), .inr (.inr ⟨f, this, .inr rfl⟩)⟩
  wr i f hu h2 hf := by
    have hi := (List.getElem?_eq_some_iff.mp hf).1
    have : ChangesF e progs t f := ⟨i, h2, hu.resolve_left (not_le.mpr hi), hf⟩
    have hl := sim_ptr h0 f (this.uses.lt h0)
    exact ⟨.inr this, this.uses.lt h0, ⟨.inr ⟨f, this, .inl rfl⟩, hl.1⟩, ⟨.inr ⟨f, this, .inr rfl⟩, hl.2⟩⟩
  len := h0.len

/-- What is claimed of goroutine `t` when it has returned. -/
def fpQ (m : Mem) (e : List Nat) (progs : List (List Op)) (t : Nat) (r : Res) (m' : Mem) : Prop :=
  EnvOk (fp m e progs t) (usesVar e progs t) (changesVar e progs t) m' r.1

variable {ps : List (Prog Op Bool)}

theorem owner_start (t p : Nat) (h : p < m.next6) : (State.start m e ps).owner t p = 0 := if_pos h

/-- A goroutine, or an onlooker that reads only what was there at the start. -/
theorem start_view (h0 : Heap12.Sim m e s) (t : Nat) (F : Fp) : View (State.start m e ps) t F m where
  sixes _ _ := rfl
  twelves f _ hl := by
    show ((0, m.c0 f), (0, m.c1 f)) = _
    rw [owner_start t _ (sim_ptr h0 f hl).1, owner_start t _ (sim_ptr h0 f hl).2]
  next := rfl
  next12 := rfl

theorem start_good (h0 : Heap12.Sim m e s) :
    Good (fp m e (ps.map (made s))) (fpQ m e (ps.map (made s))) m (ps.map fun prog => calls prog e) []
      (State.start m e ps) where
  old := rfl
  old12 := rfl
  len := rfl
  sim t x y hy hx := by
    obtain ⟨prog, ho, rfl⟩ : ∃ prog, ps[t]? = some prog ∧ calls prog e = y := by
      rw [List.getElem?_map] at hy
      cases h : ps[t]? with
      | none => rw [h] at hy; cases hy
      | some prog => rw [h] at hy; exact ⟨prog, rfl, Option.some.inj hy⟩
    have hm : (ps.map (made s))[t]? = some (madeMem prog m e) := by
      rw [List.getElem?_map, ho, madeMem_eq prog h0]; rfl
    have : x = calls prog e := by
      have := hx.symm.trans hy
      exact Option.some.inj this
    subst this
    refine ⟨m, ?_, rfl, rfl, start_view h0 t _, le_rfl, le_rfl⟩
    exact calls_ok prog (fp_base h0 t) (fp_env h0 t) (fun op h v hv => .inr ⟨_, hm, op, h, hv⟩)
      (fun op h v hv => .inr ⟨_, hm, op, h, hv⟩)

/-- What an onlooker sees who reads only shared objects that no goroutine changes: the memory at the start. -/
theorem onlooker {F : Nat → Fp} {Q : Nat → Res → Mem → Prop} {x0 : List (M Res)}
    (hd : ∀ t u, t ≠ u → Disj m.next6 m.next12 (F u) (F t)) {T : Nat} {G : Fp} (hT : x0.length ≤ T)
    (hG : ∀ u, Disj m.next6 m.next12 (F u) G) {st : State} (h : Good F Q m x0 [] st) (v : View st T G m)
    (schedule : List Nat) : View (st.run schedule) T G m := by
  suffices ∀ (s : List Nat) (sch : List Nat) (st : State), Good F Q m x0 sch st → View st T G m →
      View (st.run s) T G m from this schedule [] st h v
  intro s
  induction s with
  | nil => intro sch st _ v; exact v
  | cons u s ih =>
    intro sch st h v
    refine ih (sch ++ [u]) (st.step u) (h.step hd u) ?_
    unfold State.step
    cases hu : st.threads[u]? with
    | none => exact v
    | some z =>
      have hlt : u < st.threads.length := (List.getElem?_eq_some_iff.mp hu).1
      obtain ⟨w, hw⟩ : ∃ w, x0[u]? = some w := ⟨_, List.getElem?_eq_getElem (h.len ▸ hlt)⟩
      obtain ⟨B, hB⟩ := h.sim u z w hw hu
      have hTu : T ≠ u := by have := h.len; omega
      have := access_other hTu v hB.ok (h.old ▸ h.old12 ▸ hG u)
      exact ⟨this.sixes, this.twelves, this.next, this.next12⟩

end
end Bls.HeapFQ12
