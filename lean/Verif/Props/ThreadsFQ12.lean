import Verif.Proof.ThreadsFQ12Start
import Verif.Props.Heap12
/-
C69: goroutines that use `FQ12` and the pairing. Programs, goroutines and schedules are in Verif/Spec/ThreadsFQ12.lean.
-/
set_option exponentiation.threshold 1000
namespace Bls.Props
open Bls.HeapFQ12
open Bls.Heap12 (Op memoryRun valuesRun aFQ12Zero aFQ12One)

section
variable (pre : List Op) (progs : List (Prog Op Bool)) (e : List Nat) (outs : List Bool) (m : Heap12.Mem)

/-- Several goroutines start after a program has run, and share its variables; a variable that one of them changes in
place, no other uses. Under every schedule, a goroutine that has returned has got from its calls what its program returns
on values, and finds in the variables that it uses or has made the values that the program gives them; it panics only if
the program does so on values. -/
theorem C69_results (hpre : memoryRun pre Heap12.init [aFQ12Zero, aFQ12One] = some ((m, e), outs))
    (sep : Separate e.length (progs.map (made (e.map m.read)))) (schedule : List Nat) (t : Nat) (prog : Prog Op Bool)
    (ht : progs[t]? = some prog) :
    (∀ e' os, ((State.start m e progs).run schedule).threads[t]? = some (.ret (e', os)) →
      ∃ s', valuesRun (made (e.map m.read) prog) (e.map m.read) = some (s', os) ∧
        ∀ i, e.length ≤ i ∨ (∃ op ∈ made (e.map m.read) prog, i ∈ vars op) →
          e'[i]?.map (((State.start m e progs).run schedule).value t) = s'[i]?) ∧
    (((State.start m e progs).run schedule).threads[t]? = some .panic →
      valuesRun (made (e.map m.read) prog) (e.map m.read) = none) := by
  have h0 := started hpre
  have hG := (start_good h0).run (fun t u htu => fp_disj h0 sep htu) schedule
  have ht' : (progs.map fun prog => calls prog e)[t]? = some (calls prog e) := by rw [List.getElem?_map, ht]; rfl
  have hm : (progs.map (made (e.map m.read)))[t]? = some (made (e.map m.read) prog) := by rw [List.getElem?_map, ht]; rfl
  refine ⟨fun e' os hr => ?_, fun hr => ?_⟩
  · obtain ⟨A, hA⟩ := hG.sim t _ _ ht' hr
    have hrun := hA.run
    rw [calls_run, madeMem_eq prog h0] at hrun
    rcases Heap12.run_agree (made (e.map m.read) prog) h0 with ⟨a, _⟩ | ⟨m', e2, s', o', a, b, hs, _⟩
    · rw [a] at hrun; cases hrun
    · rw [a] at hrun
      cases hrun
      refine ⟨s', b, fun i hi => ?_⟩
      dsimp only at hA ⊢
      rw [hs.get i]
      cases hf : e2[i]? with
      | none => rfl
      | some f =>
        have hr := hA.ok.rd i f (hi.imp id fun ⟨op, h1, h2⟩ => ⟨_, hm, op, h1, h2⟩) hf
        simp only [State.value, Option.map_some, hA.view.twelves f hr.rs hr.lt, hA.view.sixes _ hr.c0,
          hA.view.sixes _ hr.c1]; rfl
  · obtain ⟨A, hA⟩ := hG.sim t _ _ ht' hr
    have hrun := hA.run
    rw [calls_run, madeMem_eq prog h0] at hrun
    rcases Heap12.run_agree (made (e.map m.read) prog) h0 with ⟨_, b⟩ | ⟨m', e2, s', o', a, b, hs, _⟩
    · exact b
    · rw [a] at hrun; cases hrun

/-- A goroutine that the scheduler picks often enough finishes, whatever the others do. -/
theorem C69_finishes (hpre : memoryRun pre Heap12.init [aFQ12Zero, aFQ12One] = some ((m, e), outs))
    (sep : Separate e.length (progs.map (made (e.map m.read)))) (t : Nat) (ht : t < progs.length) :
    ∃ n, ∀ schedule : List Nat, n ≤ schedule.count t →
      ∃ x, ((State.start m e progs).run schedule).threads[t]? = some x ∧ x.Finished := by
  have h0 := started hpre
  refine ⟨(calls progs[t] e).steps m, fun schedule hc => ?_⟩
  have hG := (start_good h0).run (fun t u htu => fp_disj h0 sep htu) schedule
  have ht' : (progs.map fun prog => calls prog e)[t]? = some (calls progs[t] e) := by
    rw [List.getElem?_map, List.getElem?_eq_getElem ht]; rfl
  have hl : t < ((State.start m e progs).run schedule).threads.length := by rw [hG.len, List.length_map]; exact ht
  obtain ⟨A, hA⟩ := hG.sim t _ _ ht' (List.getElem?_eq_getElem hl)
  exact ⟨_, List.getElem?_eq_getElem hl, finished_of_steps _ A (by rw [hA.steps]; omega)⟩

/-- No data race: at no time are two goroutines about to access the same object, one of them to overwrite it. -/
theorem C69_noRace (hpre : memoryRun pre Heap12.init [aFQ12Zero, aFQ12One] = some ((m, e), outs))
    (sep : Separate e.length (progs.map (made (e.map m.read)))) (schedule : List Nat) : ¬ ((State.start m e progs).run schedule).Race := by
  have h0 := started hpre
  exact ((start_good h0).run (fun t u htu => fp_disj h0 sep htu) schedule).noRace (fun t u htu => fp_disj h0 sep htu)
    (fun t => (fp_wide t).sub) fun t => (fp_wide t).subS

/-- A shared variable that no goroutine changes in place has its value at all times, for every goroutine `t`, and so have
the package variables `FQ12Zero` and `FQ12One`. -/
theorem C69_unchanged (hpre : memoryRun pre Heap12.init [aFQ12Zero, aFQ12One] = some ((m, e), outs))
    (sep : Separate e.length (progs.map (made (e.map m.read)))) (schedule : List Nat) (t : Nat) :
    (∀ i f : Nat, e[i]? = some f → (∀ prog ∈ progs, ∀ op ∈ made (e.map m.read) prog, op.receiver ≠ some i) →
      ((State.start m e progs).run schedule).value t f = m.read f) ∧
    ((State.start m e progs).run schedule).value t aFQ12Zero = FQ12.zero ∧
    ((State.start m e progs).run schedule).value t aFQ12One = FQ12.one := by
  have h0 := started hpre
  have hG := start_good (ps := progs) h0
  have hrun := hG.run (fun t u htu => fp_disj h0 sep htu) schedule
  let G : Fp := ⟨fun p => ∀ u f, ChangesF e (progs.map (made (e.map m.read))) u f → p ≠ m.c0 f ∧ p ≠ m.c1 f, fun _ => False,
    fun f => ∀ u, ¬ ChangesF e (progs.map (made (e.map m.read))) u f, fun _ => False⟩
  have v := onlooker (fun t u htu => fp_disj h0 sep htu) (T := progs.length) (G := G) (by rw [List.length_map])
    (fun u => ⟨fun p hp hw hr => hw.elim (fun h => absurd hp (not_lt.mpr h)) fun ⟨f, h1, h2⟩ =>
        h2.elim (hr u f h1).1 (hr u f h1).2,
      fun f hf hw hr => hw.elim (fun h => absurd hf (not_lt.mpr h)) (hr u)⟩) hG (start_view h0 _ G) schedule
  have own : ∀ u, ∀ p < m.next6, ((State.start m e progs).run schedule).owner u p = 0 := fun u p hp =>
    if_pos (hrun.old ▸ hp)
  have own12 : ∀ u, ∀ f < m.next12, ((State.start m e progs).run schedule).owner12 u f = 0 := fun u p hp =>
    if_pos (hrun.old12 ▸ hp)
  have key : ∀ f < m.next12, (∀ u, ¬ ChangesF e (progs.map (made (e.map m.read))) u f) → ((State.start m e progs).run schedule).value t f = m.read f := by
    intro f hf hc
    have hne : ∀ p, (p = m.c0 f ∨ p = m.c1 f) → G.RC p := fun p hp u g hg => by
      have hgf : g ≠ f := fun h => hc u (h ▸ hg)
      exact ⟨fun h => hgf (sim_sep h0 (hg.uses.lt h0) hf (hg.ge h0) (.inl h) hp),
        fun h => hgf (sim_sep h0 (hg.uses.lt h0) hf (hg.ge h0) (.inr h) hp)⟩
    have h1 := v.twelves f hc hf
    have hp := sim_ptr h0 f hf
    rw [own12 _ f hf, own _ _ hp.1, own _ _ hp.2] at h1
    have h2 := v.sixes _ (hne _ (.inl rfl))
    have h3 := v.sixes _ (hne _ (.inr rfl))
    rw [own _ _ hp.1] at h2
    rw [own _ _ hp.2] at h3
    simp only [State.value, own12 t f hf, h1, h2, h3]; rfl
  refine ⟨fun i f hf hc => ?_, ?_, ?_⟩
  · refine key f (h0.lt f (List.mem_of_getElem? hf)) fun u hu => ?_
    obtain ⟨j, _, ⟨ops, h1, op, h2, h3⟩, hj⟩ := hu
    have hi' := List.getElem?_eq_some_iff.mp hf
    have hj' := List.getElem?_eq_some_iff.mp hj
    have : j = i := (List.Nodup.getElem_inj_iff h0.nodup).mp (hj'.2.trans hi'.2.symm)
    obtain ⟨prog, hp, rfl⟩ := List.mem_map.mp (List.mem_of_getElem? h1)
    exact hc prog hp op h2 (this ▸ h3)
  · rw [key _ (lt_of_lt_of_le (by decide) h0.inv.le12) fun u hu => absurd (hu.ge h0) (by decide)]
    exact Heap12.val_zero h0.inv
  · rw [key _ (lt_of_lt_of_le (by decide) h0.inv.le12) fun u hu => absurd (hu.ge h0) (by decide)]
    exact Heap12.val_one h0.inv

end

/-! ## A case -/

/-- `x`, `y` and `k` are elements. -/
def pcPre : List Op := [.rand ex12.c0 ex12.c1, .rand ex12.c1 ex12.c0, .rand ex12.c0 ex12.c0]
/-- `x.MulAssign(k); x.IsZero(); z := k.Copy(); z.SquareAssign(); x.Equals(z)` and
`y.AddAssign(k); z := y.Copy(); z.SubAssign(k); z.SubAssign(y); z.NegAssign();
if z.Equals(k) { k.Exp(1).Equals(k) } else { k.NegAssign() }`, at the same time: both use `k`, which the second would change
if `z` were not `k`. -/
def pcProgs : List (Prog Op Bool) := [.line [.mul 2 4, .isZero 2, .copy 4, .square 5, .equals 2 5],
  .call (.add 3 4) fun _ => .call (.copy 3) fun _ => .call (.sub 5 4) fun _ => .call (.sub 5 3) fun _ =>
  .call (.neg 5) fun _ => .call (.equals 5 4) fun
    | [true] => .line [.exp 4 ⟨1, 0, 0, 0, 0, 0⟩, .equals 6 4]
    | _ => .line [.neg 4]]
/-- The variables and the memory when the goroutines start. -/
def pcStart : List Nat × Heap12.Mem := match memoryRun pcPre Heap12.init [aFQ12Zero, aFQ12One] with
  | some ((m, e), _) => (e, m)
  | none => ([], Heap12.init)

theorem pcPre_run : ∃ outs, memoryRun pcPre Heap12.init [aFQ12Zero, aFQ12One] = some ((pcStart.2, pcStart.1), outs) :=
  ⟨[], rfl⟩

/-- What a goroutine that has returned got to see. -/
def pcReturned (st : State) (t : Nat) : Option (List Bool) := match st.threads[t]? with
  | some (.ret (_, outs)) => some outs
  | _ => none

theorem pcSeparate_of {n : Nat} {progs : List (List Op)}
    (h : ∀ t < progs.length, ∀ t' < progs.length, t = t' ∨ ∀ i ∈ ((progs[t]?.getD []).filterMap Op.receiver),
      n ≤ i ∨ ¬ i ∈ (progs[t']?.getD []).flatMap vars) : Separate n progs := by
  intro t t' ops ops' hne h1 h1' op h2 i hi h3 op' h2' h3'
  rcases (h t (List.getElem?_eq_some_iff.mp h1).1 t' (List.getElem?_eq_some_iff.mp h1').1).resolve_left hne i
    (List.mem_filterMap.mpr ⟨op, by rw [h1]; exact h2, h3⟩) with h4 | h4
  · exact absurd hi (not_lt.mpr h4)
  · exact h4 (List.mem_flatMap.mpr ⟨op', by rw [h1']; exact h2', h3'⟩)

theorem pcProgs_separate : Separate pcStart.1.length (pcProgs.map (made (pcStart.1.map pcStart.2.read))) := pcSeparate_of (by decide +kernel)

theorem pc_returns (schedule : List Nat) (t : Nat) (prog : Prog Op Bool) (ht : pcProgs[t]? = some prog) (s : List FQ12)
    (outs : List Bool) (hs : valuesRun (made (pcStart.1.map pcStart.2.read) prog) (pcStart.1.map pcStart.2.read) = some (s, outs)) (x : M Res)
    (hx : ((State.start pcStart.2 pcStart.1 pcProgs).run schedule).threads[t]? = some x) (hfin : x.Finished) :
    pcReturned ((State.start pcStart.2 pcStart.1 pcProgs).run schedule) t = some outs := by
  obtain ⟨o, hpre⟩ := pcPre_run
  have h := C69_results pcPre pcProgs _ o _ hpre pcProgs_separate schedule t prog ht
  unfold pcReturned
  rw [hx] at h ⊢
  cases x with
  | ret r =>
    obtain ⟨s', h1, _⟩ := h.1 r.1 r.2 rfl
    rw [hs] at h1
    cases h1
    rfl
  | panic => rw [hs] at h; cases h.2 rfl
  | _ => exact absurd hfin id

/-- The hypotheses are met by these goroutines, and under every schedule that picks both often enough, they return: the
first finds `x` not zero and not equal to the square of `k`, the second finds what it computes equal to `k`, twice. -/
example : (∃ outs, memoryRun pcPre Heap12.init [aFQ12Zero, aFQ12One] = some ((pcStart.2, pcStart.1), outs) ∧
      Separate pcStart.1.length (pcProgs.map (made (pcStart.1.map pcStart.2.read)))) ∧
    ∃ n n', ∀ schedule : List Nat, n ≤ schedule.count 0 → n' ≤ schedule.count 1 →
      pcReturned ((State.start pcStart.2 pcStart.1 pcProgs).run schedule) 0 = some [false, false] ∧
      pcReturned ((State.start pcStart.2 pcStart.1 pcProgs).run schedule) 1 = some [true, true] := by
  obtain ⟨o, hpre⟩ := pcPre_run
  obtain ⟨n, hn⟩ := C69_finishes pcPre pcProgs _ o _ hpre pcProgs_separate 0 (by decide)
  obtain ⟨n', hn'⟩ := C69_finishes pcPre pcProgs _ o _ hpre pcProgs_separate 1 (by decide)
  have v0 : (valuesRun (made (pcStart.1.map pcStart.2.read) pcProgs[0]) (pcStart.1.map pcStart.2.read)).map (·.2) =
      some [false, false] := by decide +kernel
  have v1 : (valuesRun (made (pcStart.1.map pcStart.2.read) pcProgs[1]) (pcStart.1.map pcStart.2.read)).map (·.2) =
      some [true, true] := by decide +kernel
  obtain ⟨⟨s0, o0⟩, h0, rfl⟩ := Option.map_eq_some_iff.mp v0
  obtain ⟨⟨s1, o1⟩, h1, rfl⟩ := Option.map_eq_some_iff.mp v1
  refine ⟨⟨o, hpre, pcProgs_separate⟩, n, n', fun schedule hs hs' => ⟨?_, ?_⟩⟩
  · obtain ⟨x, hx, hfin⟩ := hn schedule hs
    exact pc_returns schedule 0 _ rfl s0 _ h0 x hx hfin
  · obtain ⟨x, hx, hfin⟩ := hn' schedule hs'
    exact pc_returns schedule 1 _ rfl s1 _ h1 x hx hfin

end Bls.Props
