import Verif.Proof.ThreadsFRStart
/-
C68: goroutines that use scalars. Programs, goroutines and schedules are in Verif/Spec/ThreadsFR.lean.
-/
set_option exponentiation.threshold 1000
namespace Bls.Props
open Bls.HeapFR

section
variable (pre : Prog Op Out) (progs : List (Prog Op Out)) (e : Env) (outs : List Out) (m : Heap.Mem)

/-- Several goroutines start after a program has run, and share its variables; what one of them changes through these, no
other uses through them. Under every schedule, a goroutine that has returned has got from its calls what its program
returns when it runs alone, and finds in the variables that it uses or has made the values that the program leaves there
alone; it panics only if the program does so alone. Missing: programs that call `Sqrt`, for which it is false
(`C68_results_false`). -/
theorem C68_results_partial (hpre : aloneRun pre Env.empty Heap.init = some ((e, outs), m)) (h0 : NoSqrt (made pre Env.empty Heap.init))
    (h : ∀ prog ∈ progs, NoSqrt (made prog e m)) (sep : Separate m e progs) (schedule : List Nat) (t : Nat)
    (prog : Prog Op Out) (ht : progs[t]? = some prog) :
    (∀ e' os, ((State.start m e progs).run schedule).threads[t]? = some (.ret (e', os)) →
      ∃ m', aloneRun prog e m = some ((e', os), m') ∧
        (∀ i, e.fr i = none ∨ (∃ op ∈ made prog e m, .fr i ∈ op.vars) →
          ((State.start m e progs).run schedule).scalar t e' i = (e'.fr i).map fun f => (m'.val f).n) ∧
        ∀ i : Nat, e.reprs[i]? = none ∨ (∃ op ∈ made prog e m, .repr i ∈ op.vars) →
          ((State.start m e progs).run schedule).repr t e' i = e'.reprs[i]?.map m'.cell) ∧
    (((State.start m e progs).run schedule).threads[t]? = some .panic → aloneRun prog e m = none) := by
  have s := started hpre h0
  have hG := (start_good s h).run (fun t u htu => fp_disj s sep htu) schedule
  have ht' : (progs.map fun prog => calls prog e)[t]? = some (calls prog e) := by rw [List.getElem?_map, ht]; rfl
  refine ⟨fun e' os hr => ?_, fun hr => ?_⟩
  · obtain ⟨A, hA⟩ := hG.sim t _ _ ht' hr
    refine ⟨A, by rw [← calls_run, ← hA.run]; rfl, fun i hi => ?_, fun i hi => ?_⟩
    · cases hf : e'.fr i with
      | none => simp only [State.scalar, hf, Option.map_none]
      | some f =>
        have hr := hA.ok.rd i f (hi.imp (fun h => by simp [Var.cell, h]) fun ⟨op, h1, h2⟩ => ⟨prog, ht, op, h1, h2⟩) hf
        simp only [State.scalar, hf, Option.map_some, hA.view.frs f hr.rs hr.lt, hA.view.cells _ hr.c]; rfl
    · cases hf : e'.reprs[i]? with
      | none => simp only [State.repr, hf, Option.map_none]
      | some p =>
        have hr := hA.ok.rc i p (hi.imp (fun h => by simp [Var.cell, h]) fun ⟨op, h1, h2⟩ => ⟨prog, ht, op, h1, h2⟩) hf
        simp only [State.repr, hf, Option.map_some, hA.view.cells p hr]
  · obtain ⟨A, hA⟩ := hG.sim t _ _ ht' hr
    rw [← calls_run, ← hA.run]; rfl

/-- A goroutine that the scheduler picks often enough finishes, whatever the others do. Missing as above. -/
theorem C68_finishes_partial (hpre : aloneRun pre Env.empty Heap.init = some ((e, outs), m)) (h0 : NoSqrt (made pre Env.empty Heap.init))
    (h : ∀ prog ∈ progs, NoSqrt (made prog e m)) (sep : Separate m e progs) (t : Nat) (ht : t < progs.length) :
    ∃ n, ∀ schedule : List Nat, n ≤ schedule.count t →
      ∃ x, ((State.start m e progs).run schedule).threads[t]? = some x ∧ x.Finished := by
  have s := started hpre h0
  refine ⟨(calls progs[t] e).steps m, fun schedule hc => ?_⟩
  have hG := (start_good s h).run (fun t u htu => fp_disj s sep htu) schedule
  have ht' : (progs.map fun prog => calls prog e)[t]? = some (calls progs[t] e) := by
    rw [List.getElem?_map, List.getElem?_eq_getElem ht]; rfl
  have hl : t < ((State.start m e progs).run schedule).threads.length := by rw [hG.len, List.length_map]; exact ht
  obtain ⟨A, hA⟩ := hG.sim t _ _ ht' (List.getElem?_eq_getElem hl)
  exact ⟨_, List.getElem?_eq_getElem hl, finished_of_steps _ A (by rw [hA.steps]; omega)⟩

/-- No data race: at no time are two goroutines about to access the same object, one of them to overwrite it. Missing
as above: it is false for `Sqrt` (`C68_noRace_false`). -/
theorem C68_noRace_partial (hpre : aloneRun pre Env.empty Heap.init = some ((e, outs), m)) (h0 : NoSqrt (made pre Env.empty Heap.init))
    (h : ∀ prog ∈ progs, NoSqrt (made prog e m)) (sep : Separate m e progs) (schedule : List Nat) :
    ¬ ((State.start m e progs).run schedule).Race := by
  have s := started hpre h0
  exact ((start_good s h).run (fun t u htu => fp_disj s sep htu) schedule).noRace (fun t u htu => fp_disj s sep htu)
    (fun t => (fp_wide t).sub) fun t => (fp_wide t).subS

/-- A shared scalar or `FRRepr` that no goroutine changes keeps its value at all times, and so do the package variables
`RFieldModulus`, `FRR`, `FRR2`, `frOne`, `frZero`, `rMinus1Over2`, `bigOneFR` and `bigZeroFR`. Missing as above. -/
theorem C68_unchanged_partial (hpre : aloneRun pre Env.empty Heap.init = some ((e, outs), m)) (h0 : NoSqrt (made pre Env.empty Heap.init))
    (h : ∀ prog ∈ progs, NoSqrt (made prog e m)) (sep : Separate m e progs) (schedule : List Nat) :
    (∀ i f, e.fr i = some f → (∀ t, ¬ Changes m e progs t (m.fr f)) →
      ((State.start m e progs).run schedule).fr 0 f = (0, m.fr f) ∧
      ((State.start m e progs).run schedule).cell 0 (m.fr f) = m.cell (m.fr f)) ∧
    (∀ (i p : Nat), e.reprs[i]? = some p → (∀ t, ¬ Changes m e progs t p) →
      ((State.start m e progs).run schedule).cell 0 p = m.cell p) ∧
    (∀ p < 6, ((State.start m e progs).run schedule).cell 0 p = Heap.init.cell p) ∧
    ((State.start m e progs).run schedule).fr 0 Heap.aBigOneFR = (0, Heap.aFrOne) ∧
    ((State.start m e progs).run schedule).fr 0 Heap.aBigZeroFR = (0, Heap.aFrZero) := by
  have s := started hpre h0
  have hcell : ∀ p < 6, m.cell p = Heap.init.cell p := started_cells hpre h0
  have hG := start_good s h
  have hrun := hG.run (fun t u htu => fp_disj s sep htu) schedule
  let G : Fp := ⟨fun p => p < m.nextCell ∧ ∀ t, ¬ Changes m e progs t p, fun _ => False,
    fun f => f < m.nextFr ∧ ∀ t, ¬ ChangesFr m e progs t f, fun _ => False⟩
  have v := onlooker (fun t u htu => fp_disj s sep htu) (T := progs.length) (G := G) (by rw [List.length_map])
    (fun u => ⟨fun p hp hw hr => hw.elim (fun h => absurd hp (not_lt.mpr h)) (hr.2 u),
      fun f hf hw hr => hw.elim (fun h => absurd hf (not_lt.mpr h)) (hr.2 u)⟩) hG (start_view s _ G) schedule
  have own : ∀ p < m.nextCell, ((State.start m e progs).run schedule).owner progs.length p = 0 := fun p hp =>
    if_pos (hrun.old ▸ hp)
  have ownF : ∀ f < m.nextFr, ((State.start m e progs).run schedule).ownerFr progs.length f = 0 := fun p hp =>
    if_pos (hrun.oldFr ▸ hp)
  have cells : ∀ p < m.nextCell, (∀ t, ¬ Changes m e progs t p) →
      ((State.start m e progs).run schedule).cell 0 p = m.cell p := fun p hp hc => by
    have := v.cells p ⟨hp, hc⟩
    rwa [own p hp] at this
  have frs : ∀ f < m.nextFr, (∀ t, ¬ ChangesFr m e progs t f) →
      ((State.start m e progs).run schedule).fr 0 f = (0, m.fr f) := fun f hf hc => by
    have := v.frs f ⟨hf, hc⟩ hf
    rwa [ownF f hf, own _ (s.ptr f hf)] at this
  refine ⟨fun i f hf hc => ?_, fun i p hp hc => cells p (s.reprs i p hp).2 hc, fun p hp => ?_, ?_, ?_⟩
  · have hlt := (s.frs i f hf).2
    exact ⟨frs f hlt fun t ht => hc t ht.changes, cells _ (s.ptr f hlt) hc⟩
  · rw [cells p (lt_of_lt_of_le hp s.six) fun t ht => absurd hp (not_lt.mpr (s.uses ht.uses).1), hcell p hp]
  · rw [frs _ (lt_of_lt_of_le (by decide) s.four) fun t ht => ?_, s.one]
    have := (s.uses (m := m) ht.usesFr.uses).1
    rw [s.one] at this; exact absurd this (by decide)
  · rw [frs _ (lt_of_lt_of_le (by decide) s.four) fun t ht => ?_, s.zero]
    have := (s.uses (m := m) ht.usesFr.uses).1
    rw [s.zero] at this; exact absurd this (by decide)

end

/-! ## A case -/

/-- `x`, `y` and the key `k` are the scalars 5, 7 and 11. -/
def scPre : Prog Op Out := .line [.newRepr ⟨5, 0, 0, 0⟩, .frReprToFR 0, .newRepr ⟨7, 0, 0, 0⟩, .frReprToFR 1,
  .newRepr ⟨11, 0, 0, 0⟩, .frReprToFR 2]
/-- `x.MulAssign(k); x.ToRepr()` and `y.AddAssign(k); z := y.Copy(); z.NegAssign(); z.AddAssign(k); z.AddAssign(y);
z.ToRepr(); if k.Equals(z) { z.SubAssign(k); z.IsZero() } else { k.NegAssign() }`, at the same time: both use `k`, which the second would
change if `z` were not `k`. -/
def scProgs : List (Prog Op Out) := [.line [.mulAssign 0 2, .toRepr 0, .readRepr 3],
  .call (.addAssign 1 2) fun _ => .call (.copy 1) fun _ => .call (.negAssign 3) fun _ => .call (.addAssign 3 2) fun _ =>
  .call (.addAssign 3 1) fun _ => .call (.toRepr 3) fun _ => .call (.readRepr 3) fun _ => .call (.equals 2 3) fun
    | [.bool true] => .line [.subAssign 3 2, .isZero 3]
    | _ => .line [.negAssign 2]]
/-- The schedule that picks the two in turn. -/
def scTurns : List Nat := (List.replicate 100 [0, 1]).flatten

/-- The variables and the memory when the goroutines start. -/
def scStart : Env × Heap.Mem := match aloneRun scPre Env.empty Heap.init with
  | some ((e, _), m) => (e, m)
  | none => (Env.empty, Heap.init)

theorem scPre_run : ∃ outs, aloneRun scPre Env.empty Heap.init = some ((scStart.1, outs), scStart.2) := by
  have h : (aloneRun scPre Env.empty Heap.init).isSome = true := by decide +kernel
  obtain ⟨⟨⟨e, outs⟩, m⟩, hs⟩ := Option.isSome_iff_exists.mp h
  exact ⟨outs, by rw [scStart, hs]⟩

/-- What a goroutine that has returned got to see. -/
def scReturned (st : State) (t : Nat) : Option (List (FRRepr ⊕ Bool)) :=
  match st.threads[t]? with
  | some (.ret (_, outs)) => some (outs.filterMap fun | .repr v => some (.inl v) | .bool b => some (.inr b) | _ => none)
  | _ => none

/-- The `FRRepr`s that goroutine `t` changes through shared variables, as a list. -/
def changesList (m : Heap.Mem) (e : Env) (progs : List (Prog Op Out)) (t : Nat) : List Nat :=
  ((made (progs[t]?.getD .stop) e m).flatMap Op.changed).filterMap (Var.cell e m)
/-- The `FRRepr`s that goroutine `t` uses through shared variables, as a list. -/
def usesList (m : Heap.Mem) (e : Env) (progs : List (Prog Op Out)) (t : Nat) : List Nat :=
  ((made (progs[t]?.getD .stop) e m).flatMap Op.vars).filterMap (Var.cell e m)

theorem separate_of {m : Heap.Mem} {e : Env} {progs : List (Prog Op Out)}
    (h : ∀ t < progs.length, ∀ t' < progs.length, t = t' ∨ ∀ p ∈ changesList m e progs t, ¬ p ∈ usesList m e progs t') :
    Separate m e progs := by
  rintro t t' p hne ⟨ops, h1, op, h2, v, h3, h4⟩ ⟨ops', h1', op', h2', v', h3', h4'⟩
  refine (h t (List.getElem?_eq_some_iff.mp h1).1 t' (List.getElem?_eq_some_iff.mp h1').1).resolve_left hne p ?_ ?_
  · exact List.mem_filterMap.mpr ⟨v, List.mem_flatMap.mpr ⟨op, by rw [h1]; exact h2, h3⟩, h4⟩
  · exact List.mem_filterMap.mpr ⟨v', List.mem_flatMap.mpr ⟨op', by rw [h1']; exact h2', h3'⟩, h4'⟩

/-- Is this a call of `Sqrt`? -/
def isSqrt : Op → Bool
  | .sqrt _ => true
  | _ => false

theorem noSqrt_of {ops : List Op} (h : ops.all fun op => !isSqrt op) : NoSqrt ops := fun op ho i hi => by
  have := List.all_eq_true.mp h op ho
  rw [hi] at this
  cases this

theorem sc_noSqrt : NoSqrt (made scPre Env.empty Heap.init) ∧ ∀ prog ∈ scProgs, NoSqrt (made prog scStart.1 scStart.2) := by
  have h : scProgs.all fun prog => (made prog scStart.1 scStart.2).all fun op => !isSqrt op := by decide +kernel
  exact ⟨noSqrt_of (by decide +kernel), fun prog hp => noSqrt_of (List.all_eq_true.mp h prog hp)⟩

theorem scProgs_separate : Separate scStart.2 scStart.1 scProgs := separate_of (by decide +kernel)

/-- The hypotheses are met by these goroutines, and both return, with what they return alone: `x` is 55, and `z`, which
is `-(y + k) + k + (y + k)`, is `k`. -/
example : (∃ outs, aloneRun scPre Env.empty Heap.init = some ((scStart.1, outs), scStart.2) ∧
      NoSqrt (made scPre Env.empty Heap.init) ∧ (∀ prog ∈ scProgs, NoSqrt (made prog scStart.1 scStart.2)) ∧ Separate scStart.2 scStart.1 scProgs) ∧
    scReturned ((State.start scStart.2 scStart.1 scProgs).run scTurns) 0 = some [.inl ⟨55, 0, 0, 0⟩] ∧
    scReturned ((State.start scStart.2 scStart.1 scProgs).run scTurns) 1 = some [.inl ⟨11, 0, 0, 0⟩, .inr true, .inr true] := by
  refine ⟨?_, by decide +kernel, by decide +kernel⟩
  obtain ⟨outs, h⟩ := scPre_run
  exact ⟨outs, h, sc_noSqrt.1, sc_noSqrt.2, scProgs_separate⟩

/-! ## What is false -/

/-- `x.Sqrt()`, and `y.Exp(NewFRRepr(1)).ToRepr()`, at the same time. -/
def sqrtProgs : List (Prog Op Out) := [.line [.sqrt 0], .line [.newRepr ⟨1, 0, 0, 0⟩, .exp 1 3, .toRepr 3, .readRepr 4]]

theorem sqrtProgs_separate : Separate scStart.2 scStart.1 sqrtProgs := separate_of (by decide +kernel)

/-- The `FRRepr` of the package, by its number, that the next access of goroutine `t` overwrites. -/
def scOverwrites (st : State) (t : Nat) : Option Nat := match st.threads[t]? with
  | some (.writeCell p _ _) => if p < st.old then some p else none
  | _ => none
/-- The `FRRepr` of the package, by its number, that the next access of goroutine `t` reads. -/
def scReads (st : State) (t : Nat) : Option Nat := match st.threads[t]? with
  | some (.readCell p _) => if p < st.old then some p else none
  | _ => none

theorem scRace_of {st : State} {p : Nat} (h : scOverwrites st 0 = some p) (h' : scReads st 1 = some p) : st.Race := by
  unfold scOverwrites at h; unfold scReads at h'
  split at h
  · next q v k h0 =>
    split at h'
    · next q' k' h1 =>
      split at h
      · next hq =>
        split at h'
        · next hq' =>
          cases h; cases h'
          refine ⟨0, 1, _, _, .cell 0 p, by decide, h0, h1, ?_, .inr ?_⟩
          · simp [State.writes, State.owner, hq]
          · simp [State.reads, State.owner, hq]
        · cases h'
      · cases h
    · cases h'
  · cases h

/-- The goroutines use different scalars, but there is a race: `Sqrt` overwrites the limbs of the package variable
`frOne`, which are also those of `bigOneFR`. -/
theorem C68_noRace_false : ¬ ∀ (pre : Prog Op Out) (progs : List (Prog Op Out)) (e : Env) (outs : List Out)
    (m : Heap.Mem), aloneRun pre Env.empty Heap.init = some ((e, outs), m) → NoSqrt (made pre Env.empty Heap.init) → Separate m e progs →
      ∀ schedule, ¬ ((State.start m e progs).run schedule).Race := by
  intro h
  obtain ⟨outs, hs⟩ := scPre_run
  have k : (fun st : State => (scOverwrites st 0, scReads st 1))
      ((State.start scStart.2 scStart.1 sqrtProgs).run (List.replicate 11 0 ++ List.replicate 8 1)) = (some 3, some 3) := by
    decide +kernel
  exact h scPre sqrtProgs _ outs _ hs sc_noSqrt.1 sqrtProgs_separate _ (scRace_of (congrArg Prod.fst k) (congrArg Prod.snd k))

/-- And what the second goroutine gets for `y` to the power one depends on the schedule: `y` if it runs first, something
else if the other does. -/
theorem C68_results_false : ¬ ∀ (pre : Prog Op Out) (progs : List (Prog Op Out)) (e : Env) (outs : List Out)
    (m : Heap.Mem), aloneRun pre Env.empty Heap.init = some ((e, outs), m) → NoSqrt (made pre Env.empty Heap.init) → Separate m e progs →
      ∀ schedule schedule' t v v', scReturned ((State.start m e progs).run schedule) t = some v →
        scReturned ((State.start m e progs).run schedule') t = some v' → v = v' := by
  intro h
  obtain ⟨outs, hs⟩ := scPre_run
  have k : scReturned ((State.start scStart.2 scStart.1 sqrtProgs).run (List.replicate 60 1)) 1 =
      some [.inl ⟨7, 0, 0, 0⟩] := by decide +kernel
  have k' : (scReturned ((State.start scStart.2 scStart.1 sqrtProgs).run (List.replicate 20 0 ++ List.replicate 60 1)) 1).isSome
      = true ∧ scReturned ((State.start scStart.2 scStart.1 sqrtProgs).run (List.replicate 20 0 ++ List.replicate 60 1)) 1 ≠
      some [.inl ⟨7, 0, 0, 0⟩] := by decide +kernel
  obtain ⟨v', hv'⟩ := Option.isSome_iff_exists.mp k'.1
  have := h scPre sqrtProgs _ outs _ hs sc_noSqrt.1 sqrtProgs_separate _ _ 1 _ v' k hv'
  exact k'.2 (by rw [hv', ← this])

end Bls.Props
