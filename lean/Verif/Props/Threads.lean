import Verif.Proof.ThreadsRun
import Verif.Props.HeapPoints
/-
C58: goroutines. Programs are in Verif/Spec/HistoryPoints.lean, goroutines and schedules in Verif/Spec/Threads.lean.
-/
set_option exponentiation.threshold 1000
namespace Bls.Props
open Bls.HeapPoints

section
variable (sha : List UInt8 → List UInt8) (pre : List Op) (progs : List (Prog Op Out)) (s0 : List Val) (o0 : List Out)

/-- Several goroutines start after a program has run, and share its variables; a variable that one of them changes in
place is used by no other. Under every schedule, a goroutine that has returned has got from its calls what its program
returns when it runs alone on plain values, and the variables that it uses or has made point at the values that the
program leaves; it panics only if the program does so alone. Missing: programs that call `SetRawBytes` on a `G2Affine`
that is infinity, for which it is false (`C58_results_false`). -/
theorem C58_results_partial (hpre : meaning sha pre = some (s0, o0)) (safe0 : Safe sha pre packageVals)
    (safe : ∀ prog ∈ progs, Safe sha (made sha s0 prog) s0) (sep : Separate s0.length (progs.map (made sha s0))) :
    ∃ st, start sha pre progs = some st ∧ ∀ (schedule : List Nat) (t : Nat) (prog : Prog Op Out),
      progs[t]? = some prog →
      (∀ e outs, (st.run schedule).threads[t]? = some (.ret (e, outs)) →
        ∃ vals, valuesRun sha (made sha s0 prog) s0 = some (vals, outs) ∧ st.shared <+: e ∧
          ∀ i, s0.length ≤ i ∨ Uses (progs.map (made sha s0)) t i → e[i]?.bind (st.run schedule).mem.view = vals[i]?) ∧
      ((st.run schedule).threads[t]? = some .panic → valuesRun sha (made sha s0 prog) s0 = none) := by
  obtain ⟨m0, e0, hI, hlen, hst, hG⟩ := start_good hpre safe0 rfl safe sep
  refine ⟨_, hst, fun schedule t prog ht => ?_⟩
  obtain ⟨W, m, x, h⟩ := hG schedule
  refine ⟨fun e outs hr => ?_, fun hr => result_panic hI rfl safe h ht hr⟩
  obtain ⟨vals, h1, h2, h3⟩ := result hI rfl safe h ht hr
  exact ⟨vals, h1, h2, fun i hi => h3 i (hlen ▸ hi)⟩

/-- A goroutine that the scheduler picks often enough finishes, whatever the others do. Missing as above. -/
theorem C58_finishes_partial (hpre : meaning sha pre = some (s0, o0)) (safe0 : Safe sha pre packageVals)
    (safe : ∀ prog ∈ progs, Safe sha (made sha s0 prog) s0) (sep : Separate s0.length (progs.map (made sha s0))) :
    ∃ st, start sha pre progs = some st ∧ ∀ t < progs.length, ∃ n, ∀ schedule : List Nat, n ≤ schedule.count t →
      ∃ x, (st.run schedule).threads[t]? = some x ∧ x.Finished := by
  obtain ⟨m0, e0, hI, hlen, hst, hG⟩ := start_good hpre safe0 rfl safe sep
  refine ⟨_, hst, fun t ht => ⟨(calls sha (progs[t]?.getD .stop) e0).steps m0, fun schedule hc => ?_⟩⟩
  obtain ⟨W, m, x, h⟩ := hG schedule
  have hl : t < (State.run ⟨m0, e0, progs.map fun prog => calls sha prog e0⟩ schedule).threads.length := by
    rw [run_length, List.length_map]; exact ht
  exact ⟨_, List.getElem?_eq_getElem hl, h.finished (List.getElem?_eq_getElem hl) hc⟩

/-- No data race: at no time are two goroutines about to access the same object, one of them to overwrite it. Missing
as above: it is false for `SetRawBytes` on a `G2Affine` that is infinity (`C58_noRace_false`). -/
theorem C58_noRace_partial (hpre : meaning sha pre = some (s0, o0)) (safe0 : Safe sha pre packageVals)
    (safe : ∀ prog ∈ progs, Safe sha (made sha s0 prog) s0) (sep : Separate s0.length (progs.map (made sha s0))) :
    ∃ st, start sha pre progs = some st ∧ ∀ schedule : List Nat, ¬ (st.run schedule).Race := by
  obtain ⟨m0, e0, hI, hlen, hst, hG⟩ := start_good hpre safe0 rfl safe sep
  refine ⟨_, hst, fun schedule => ?_⟩
  obtain ⟨W, m, x, h⟩ := hG schedule
  exact h.noRace

/-- A shared variable that no goroutine changes in place, such as a package variable, keeps its value at all times.
Missing as above. -/
theorem C58_unchanged_partial (hpre : meaning sha pre = some (s0, o0)) (safe0 : Safe sha pre packageVals)
    (safe : ∀ prog ∈ progs, Safe sha (made sha s0 prog) s0) (sep : Separate s0.length (progs.map (made sha s0))) :
    ∃ st, start sha pre progs = some st ∧ ∀ (schedule : List Nat) (i : Nat), (∀ t, ¬ Changes (progs.map (made sha s0)) t i) →
      st.shared[i]?.bind (st.run schedule).mem.view = s0[i]? := by
  obtain ⟨m0, e0, hI, hlen, hst, hG⟩ := start_good hpre safe0 rfl safe sep
  refine ⟨_, hst, fun schedule i hi => ?_⟩
  obtain ⟨W, m, x, h⟩ := hG schedule
  exact unchanged hI (by rw [run_length, List.length_map, List.length_map]) h hi

end

/-! ## A case -/

/-- `k := NewPublicKeyFromG1(G1AffineOne); a := NewAggregatePubkey(); b := NewAggregatePubkey()`. -/
def thrPre : List Op := [.newPublicKey .g1pubs 1, .newAggregatePubkey .g1pubs, .newAggregatePubkey .g1pubs]
/-- `a.Aggregate(k); c := a.Copy(); c.Equals(k)` and `b.Aggregate(k); b.Aggregate(k);
if b.Equals(k) { a.Aggregate(k) } else { p := k.GetPoint(); p.IsZero() }`, at the same time: the second would change `a`,
which the first uses, if `b` were `k`. -/
def thrProgs : List (Prog Op Out) := [.line [.aggregate 9 8, .copy 9, .equals 11 8],
  .call (.aggregate 10 8) fun _ => .call (.aggregate 10 8) fun _ => .call (.equals 10 8) fun
    | [.bool false] => .line [.getPoint 8, .isZero 11]
    | _ => .line [.aggregate 9 8]]
/-- The schedule that picks the two in turn. -/
def thrTurns : List Nat := (List.replicate 60 [0, 1]).flatten

theorem thrSeparate_of {n : Nat} {made : List (List Op)}
    (h : ∀ t < made.length, ∀ t' < made.length, t = t' ∨ ∀ i ∈ ((made[t]?.getD []).filterMap Op.receiver),
      n ≤ i ∨ ¬ i ∈ (made[t']?.getD []).flatMap Op.vars) : Separate n made := by
  rintro t t' i hne hi ⟨ops, h1, op, h2, h3⟩ ⟨ops', h1', op', h2', h3'⟩
  rcases (h t (List.getElem?_eq_some_iff.mp h1).1 t' (List.getElem?_eq_some_iff.mp h1').1).resolve_left hne i
    (List.mem_filterMap.mpr ⟨op, by rw [h1]; exact h2, h3⟩) with h4 | h4
  · exact absurd hi (not_lt.mpr h4)
  · exact h4 (List.mem_flatMap.mpr ⟨op', by rw [h1']; exact h2', h3'⟩)

/-- Is this a call of `SetRawBytes`? -/
def isSetRawBytes : Op → Bool
  | .setRawBytes _ _ => true
  | _ => false

theorem safe_of {sha : List UInt8 → List UInt8} : ∀ {ops : List Op} {s : List Val}, (ops.all fun op => !isSetRawBytes op) →
    Safe sha ops s
  | [], _, _ => trivial
  | op :: ops, s, h => by
    rw [List.all_cons, Bool.and_eq_true] at h
    refine ⟨?_, fun f _ => safe_of h.2⟩
    cases op with
    | setRawBytes i b => cases h.1
    | _ => trivial

/-- The values of the variables when the goroutines start. -/
def thrStart : List Val := ((meaning (fun _ => []) thrPre).map (·.1)).getD []

theorem thrPre_run : ∃ o0, meaning (fun _ => []) thrPre = some (thrStart, o0) := by
  have h : (meaning (fun _ => []) thrPre).isSome = true := by decide +kernel
  obtain ⟨⟨s0, o0⟩, hs⟩ := Option.isSome_iff_exists.mp h
  exact ⟨o0, by rw [thrStart, hs]; rfl⟩

theorem thrProgs_separate : Separate thrStart.length (thrProgs.map (made (fun _ => []) thrStart)) :=
  thrSeparate_of (by decide +kernel)

theorem thr_safe : Safe (fun _ => []) thrPre packageVals ∧
    ∀ prog ∈ thrProgs, Safe (fun _ => []) (made (fun _ => []) thrStart prog) thrStart := by
  have h : thrProgs.all fun prog => (made (fun _ => []) thrStart prog).all fun op => !isSetRawBytes op := by decide +kernel
  exact ⟨safe_of (by decide), fun prog hp => safe_of (List.all_eq_true.mp h prog hp)⟩

/-- What a goroutine that has returned got. -/
def returned (st : State) (t : Nat) : Option (List Bool) :=
  match st.threads[t]? with
  | some (.ret (_, outs)) => some (boolsOf outs)
  | _ => none

/-- The hypotheses are met by these goroutines, and both return, with what they return alone: the key `k` is 1·G, `c`
is 1·G, `b` is 2·G. -/
example : (∃ o0, meaning (fun _ => []) thrPre = some (thrStart, o0) ∧ Safe (fun _ => []) thrPre packageVals ∧
      (∀ prog ∈ thrProgs, Safe (fun _ => []) (made (fun _ => []) thrStart prog) thrStart) ∧
      Separate thrStart.length (thrProgs.map (made (fun _ => []) thrStart))) ∧
    (start (fun _ => []) thrPre thrProgs).map (fun st =>
      (returned (st.run thrTurns) 0, returned (st.run thrTurns) 1)) = some (some [true], some [false, false]) := by
  constructor
  · obtain ⟨o0, h⟩ := thrPre_run
    exact ⟨o0, h, thr_safe.1, thr_safe.2, thrProgs_separate⟩
  · decide +kernel

/-! ## What is false -/

/-- A goroutine that makes the point at infinity, converts it and sets its coordinates, and one that reads the package
variable `G2AffineZero`. -/
def raceProgs : List (Prog Op Out) := [.line progShared, .line [.serialize 4]]

theorem raceProgs_separate : Separate 8 (raceProgs.map (made (fun _ => []) packageVals)) := thrSeparate_of (by decide +kernel)

/-- The first byte that goroutine `t` got. -/
def firstByte (st : State) (t : Nat) : Option UInt8 :=
  match st.threads[t]? with
  | some (.ret (_, [.bytes (b :: _)])) => some b
  | _ => none

/-- The address that the next access of goroutine `t` overwrites. -/
def overwrites (st : State) (t : Nat) : Option Nat :=
  match st.threads[t]? with
  | some (.write p _ _) => some p
  | _ => none
/-- The address that the next access of goroutine `t` reads. -/
def reads (st : State) (t : Nat) : Option Nat :=
  match st.threads[t]? with
  | some (.read p _) => some p
  | _ => none

theorem race_of {st : State} {p : Nat} (h : overwrites st 0 = some p) (h' : reads st 1 = some p) : st.Race := by
  unfold overwrites at h; unfold reads at h'
  split at h
  · next q o k h0 =>
    split at h'
    · next q' k' h1 => cases h; cases h'; exact ⟨0, 1, _, _, p, by decide, h0, h1, rfl, .inr rfl⟩
    · cases h'
  · cases h

/-- The goroutines are separate, but there is a race: `ToAffine` returns `G2AffineZero` itself. -/
theorem C58_noRace_false : ¬ ∀ (sha : List UInt8 → List UInt8) (progs : List (Prog Op Out)) (st : State),
    Separate 8 (progs.map (made sha packageVals)) → start sha [] progs = some st → ∀ schedule, ¬ (st.run schedule).Race := by
  intro h
  have k : (start (fun _ => []) [] raceProgs).map (fun st =>
      let st' := st.run (List.replicate 8 0); (overwrites st' 0, reads st' 1)) = some (some 4, some 4) := by decide +kernel
  cases hs : start (fun _ => []) [] raceProgs with
  | none => rw [hs] at k; cases k
  | some st =>
    rw [hs] at k
    simp only [Option.map_some, Option.some.injEq, Prod.mk.injEq] at k
    exact h _ raceProgs st raceProgs_separate hs (List.replicate 8 0) (race_of k.1 k.2)

/-- And what the second goroutine reads depends on the schedule. -/
theorem C58_results_false : ¬ ∀ (sha : List UInt8 → List UInt8) (progs : List (Prog Op Out)) (st : State),
    Separate 8 (progs.map (made sha packageVals)) → start sha [] progs = some st → ∀ schedule schedule' t b b', firstByte (st.run schedule) t = some b →
      firstByte (st.run schedule') t = some b' → b = b' := by
  intro h
  have k : (start (fun _ => []) [] raceProgs).map (fun st =>
      (firstByte (st.run [1, 1]) 1, firstByte (st.run (List.replicate 9 0 ++ [1, 1])) 1)) = some (some 0, some 1) := by
    decide +kernel
  cases hs : start (fun _ => []) [] raceProgs with
  | none => rw [hs] at k; cases k
  | some st =>
    rw [hs] at k
    simp only [Option.map_some, Option.some.injEq, Prod.mk.injEq] at k
    exact absurd (h _ raceProgs st raceProgs_separate hs _ _ 1 0 1 k.1 k.2) (by decide)

end Bls.Props
