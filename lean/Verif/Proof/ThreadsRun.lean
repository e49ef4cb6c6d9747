import Verif.Proof.ThreadsStep
/-
Goroutines: whole programs, and the start.
-/
namespace Bls.HeapPoints

/-- What a goroutine that has returned holds. -/
def Post (V C : Nat → Prop) (e0 : List Nat) (W : World) (_ : Mem) (a b : List Nat × List Out) : Prop :=
  a.2 = b.2 ∧ EnvRel V C W a.1 b.1 ∧ e0 <+: b.1

theorem EnvRel.mono {V C : Nat → Prop} {W W' : World} {e e' : List Nat} (h : EnvRel V C W e e') (hW : W.Le W') :
    EnvRel V C W' e e' :=
  ⟨h.len, fun hi a b => hW.rel (h.use hi a b), fun hi h8 a => (h.own hi h8 a).imp hW.own id⟩

theorem set_of_getElem? {e : List Nat} {i p : Nat} (h : e[i]? = some p) : e.set i p = e := by
  obtain ⟨hl, rfl⟩ := List.getElem?_eq_some_iff.mp h
  exact List.set_getElem_self hl

theorem EnvRel.apply {V C : Nat → Prop} {W : World} {m : Mem} {e e' : List Nat} (h : EnvRel V C W e e')
    {f f' : Effect Nat} (hf : EffRel e e' W m f f') :
    EnvRel V C W (f.apply e) (f'.apply e') ∧ e' <+: f'.apply e' ∧ f.outs = f'.outs := by
  cases hf with
  | @new p p' hn =>
    refine ⟨⟨?_, ?_, ?_⟩, List.prefix_append _ _, rfl⟩
    · simp only [Effect.apply, List.length_append, h.len]; rfl
    · intro i a a' hi ha ha'
      simp only [Effect.apply] at ha ha'
      rcases Nat.lt_or_ge i e.length with hl | hl
      · rw [List.getElem?_append_left hl] at ha
        rw [List.getElem?_append_left (h.len ▸ hl)] at ha'
        exact h.use hi ha ha'
      · rw [List.getElem?_append_right hl] at ha
        rw [List.getElem?_append_right (h.len ▸ hl), ← h.len] at ha'
        cases hd : i - e.length with
        | zero => rw [hd] at ha ha'; cases ha; cases ha'; exact hn.rel
        | succ k => rw [hd] at ha; cases ha
    · intro i a' hi h8 ha'
      simp only [Effect.apply] at ha'
      rcases Nat.lt_or_ge i e'.length with hl | hl
      · rw [List.getElem?_append_left hl] at ha'
        exact h.own hi h8 ha'
      · rw [List.getElem?_append_right hl] at ha'
        cases hd : i - e'.length with
        | zero => rw [hd] at ha'; cases ha'; exact hn.own
        | succ k => rw [hd] at ha'; cases ha'
  | change hi hi' =>
    simp only [Effect.apply, set_of_getElem? hi, set_of_getElem? hi']
    exact ⟨h, List.prefix_refl _, rfl⟩
  | out o => exact ⟨h, List.prefix_refl _, rfl⟩

theorem made_call {sha : List UInt8 → List UInt8} {op : Op} {next : List Out → Prog Op Out} {s : List Val}
    {f : Effect Val} (h : op.effect sha s = some f) :
    made sha s (.call op next) = op :: made sha (f.apply s) (next f.outs) := by rw [made, h]

theorem calls_eq (sha : List UInt8 → List UInt8) : ∀ (prog : Prog Op Out) {m : Mem} {e : List Nat} {s : List Val},
    Inv m e s → Safe sha (made sha s prog) s → calls sha prog e m = memoryRun sha (made sha s prog) e m
  | .stop, _, _, _, _, _ => rfl
  | .call op next, m, e, s, hI, safe => by
    have safe1 : op.Safe s := by rw [made] at safe; exact safe.1
    have hstep := step hI sha op safe1
    cases hv : op.effect sha s with
    | none =>
      rw [hv] at hstep
      rw [calls, made, hv, memoryRun, bind_apply, bind_apply, show op.onMemory sha e m = none from hstep]; rfl
    | some fv =>
      rw [hv] at hstep
      obtain ⟨g, m1, hg, ho, hI'⟩ := hstep
      rw [made_call hv] at safe ⊢
      rw [calls, memoryRun, bind_apply, bind_apply, hg, Option.bind_some, Option.bind_some]
      dsimp only
      rw [bind_apply, bind_apply, ho, calls_eq sha (next fv.outs) hI' (safe.2 fv hv)]

theorem run_sim (sha : List UInt8 → List UInt8) {V C : Nat → Prop} : ∀ (prog : Prog Op Out) {W : World} {m : Mem}
    {e e' : List Nat} {s : List Val}, EnvRel V C W e e' → Inv m e s → Safe sha (made sha s prog) s →
    (∀ op ∈ made sha s prog, ∀ i ∈ op.vars, V i) → (∀ op ∈ made sha s prog, ∀ i, op.receiver = some i → C i) →
    Sim (Post V C e') W m (calls sha prog e) (calls sha prog e')
  | .stop, W, m, e, e', s, hE, _, _, _, _ => .ret ⟨rfl, hE, List.prefix_refl _⟩
  | .call op next, W, m, e, e', s, hE, hI, safe, hV, hC => by
    rw [calls, calls]
    have hop : op ∈ made sha s (.call op next) := by rw [made]; exact .head _
    have safe1 : op.Safe s := by rw [made] at safe; exact safe.1
    have h1 := Op.sim (m := m) sha hE op (hV op hop) (hC op hop)
      (fun i b p v hop hi hp => by
        obtain ⟨w, hw, hv⟩ := hI.get hi
        rw [view_g2a.mpr hp] at hv
        cases hv
        have := safe1
        rw [hop] at this
        exact this v hw)
    refine h1.withRun.bind fun W' m' f f' hW hf => ?_
    obtain ⟨hf, hrun⟩ := hf
    have hstep := step hI sha op safe1
    cases hv : op.effect sha s with
    | none => rw [hv] at hstep; rw [show op.onMemory sha e m = none from hstep] at hrun; cases hrun
    | some fv =>
      rw [hv] at hstep
      obtain ⟨g, m1, hg, hout, hI'⟩ := hstep
      rw [made_call hv] at safe hV hC
      rw [hg] at hrun
      cases hrun
      obtain ⟨hE', hp, ho⟩ := (hE.mono hW).apply hf
      rw [show f'.outs = fv.outs from ho.symm.trans hout, show f.outs = fv.outs from hout]
      refine (run_sim sha (next fv.outs) hE' hI' (safe.2 fv hv) (fun o h => hV o (List.mem_cons_of_mem _ h))
        (fun o h => hC o (List.mem_cons_of_mem _ h))).bind fun W'' m'' a b hW' hA => ?_
      refine .ret ⟨?_, hA.2.1, hp.trans hA.2.2⟩
      show fv.outs ++ a.2 = fv.outs ++ b.2
      rw [hA.1]

/-! ## The start -/

/-- The variables that goroutine `t` uses, with those that it makes; an observer sees those that nobody changes. -/
def VarsOf (n : Nat) (progs : List (List Op)) (t i : Nat) : Prop :=
  if t < progs.length then n ≤ i ∨ Uses progs t i else ∀ u, ¬ Changes progs u i
/-- The variables that goroutine `t` changes, with those that it makes. -/
def ChangedOf (n : Nat) (progs : List (List Op)) (t i : Nat) : Prop := t < progs.length ∧ (n ≤ i ∨ Changes progs t i)

/-- What goroutine `t` may access at the start. -/
def World.init (m0 : Mem) (e0 : List Nat) (progs : List (List Op)) (t : Nat) : World where
  rel p p' := p = p' ∧ (p < 8 ∨ ∃ i q : Nat, VarsOf e0.length progs t i ∧ e0[i]? = some q ∧ (p = q ∨ m0.ptr q = some p))
  own p' := 8 ≤ p' ∧ ∃ i : Nat, Changes progs t i ∧ e0[i]? = some p'
  pkg h := ⟨rfl, .inl h⟩

section
variable {m0 : Mem} {e0 : List Nat} {s0 : List Val} {progs : List (List Op)}

theorem receiver_mem {op : Op} {i : Nat} (h : op.receiver = some i) : i ∈ op.vars := by
  cases op with
  | neg => cases h; exact List.mem_cons_self
  | setRawBytes => cases h; exact List.mem_cons_self
  | aggregate => cases h; exact List.mem_cons_self
  | _ => cases h

theorem Changes.uses {t i : Nat} (h : Changes progs t i) : Uses progs t i := by
  obtain ⟨ops, ho, op, hop, hr⟩ := h
  exact ⟨ops, ho, op, hop, receiver_mem hr⟩

theorem Changes.lt {t i : Nat} (h : Changes progs t i) : t < progs.length := by
  obtain ⟨ops, ho, -⟩ := h
  exact (List.getElem?_eq_some_iff.mp ho).1

theorem World.init_var (t : Nat) {i p : Nat} (hV : VarsOf e0.length progs t i) (hi : e0[i]? = some p) :
    (World.init m0 e0 progs t).rel p p := ⟨rfl, .inr ⟨i, p, hV, hi, .inl rfl⟩⟩

theorem objRel_init (hI : Inv m0 e0 s0) (t : Nat) {p : Nat}
    (h : p < 8 ∨ ∃ i q : Nat, VarsOf e0.length progs t i ∧ e0[i]? = some q ∧ (p = q ∨ m0.ptr q = some p)) :
    ∃ o, m0[p]? = some o ∧ ObjRel (World.init m0 e0 progs t).rel o o := by
  rcases h with h | ⟨i, q, hV, hi, h⟩
  · have c := hI.consts
    have k : ∀ {v}, m0.view p = some v → (∀ w, v ≠ .sig1 w) → (∀ w, v ≠ .pub1 w) → (∀ w, v ≠ .sig2 w) →
        (∀ w, v ≠ .pub2 w) → ∃ o, m0[p]? = some o ∧ ObjRel (World.init m0 e0 progs t).rel o o := by
      intro v hv h1 h2 h3 h4
      obtain ⟨o, ho, hs⟩ := shape hv
      refine ⟨o, ho, ?_⟩
      cases hs with
      | g1a => exact .g1a _
      | g1p => exact .g1p _
      | g2a => exact .g2a _
      | g2p => exact .g2p _
      | msgs => exact .msgs _
      | sig1 => exact absurd rfl (h1 _)
      | pub1 => exact absurd rfl (h2 _)
      | sig2 => exact absurd rfl (h3 _)
      | pub2 => exact absurd rfl (h4 _)
    match p, h with
    | 0, _ => exact k c.v0 nofun nofun nofun nofun
    | 1, _ => exact k c.v1 nofun nofun nofun nofun
    | 2, _ => exact k c.v2 nofun nofun nofun nofun
    | 3, _ => exact k c.v3 nofun nofun nofun nofun
    | 4, _ => exact k c.v4 nofun nofun nofun nofun
    | 5, _ => exact k c.v5 nofun nofun nofun nofun
    | 6, _ => exact k c.v6 nofun nofun nofun nofun
    | 7, _ => exact k c.v7 nofun nofun nofun nofun
  · obtain ⟨v, -, hv⟩ := hI.get hi
    have inner : ∀ {x}, m0.ptr q = some x → (World.init m0 e0 progs t).rel x x :=
      fun hx => ⟨rfl, .inr ⟨i, q, hV, hi, .inr hx⟩⟩
    rcases h with rfl | h
    · obtain ⟨o, ho, hs⟩ := shape hv
      refine ⟨o, ho, ?_⟩
      cases hs with
      | g1a => exact .g1a _
      | g1p => exact .g1p _
      | g2a => exact .g2a _
      | g2p => exact .g2p _
      | msgs => exact .msgs _
      | sig1 => exact .sig1 (inner (by rw [Mem.ptr, ho]))
      | pub1 => exact .pub1 (inner (by rw [Mem.ptr, ho]))
      | sig2 => exact .sig2 (inner (by rw [Mem.ptr, ho]))
      | pub2 => exact .pub2 (inner (by rw [Mem.ptr, ho]))
    · cases v with
      | sig1 w => obtain ⟨x, h1, h2⟩ := view_sig1.mp hv; rw [Mem.ptr, h1] at h; cases h; exact ⟨_, h2, .g2p _⟩
      | pub1 w => obtain ⟨x, h1, h2⟩ := view_pub1.mp hv; rw [Mem.ptr, h1] at h; cases h; exact ⟨_, h2, .g1p _⟩
      | sig2 w => obtain ⟨x, h1, h2⟩ := view_sig2.mp hv; rw [Mem.ptr, h1] at h; cases h; exact ⟨_, h2, .g1p _⟩
      | pub2 w => obtain ⟨x, h1, h2⟩ := view_pub2.mp hv; rw [Mem.ptr, h1] at h; cases h; exact ⟨_, h2, .g2p _⟩
      | g1a w => rw [Mem.ptr, view_g1a.mp hv] at h; cases h
      | g1p w => rw [Mem.ptr, view_g1p.mp hv] at h; cases h
      | g2a w => rw [Mem.ptr, view_g2a.mp hv] at h; cases h
      | g2p w => rw [Mem.ptr, view_g2p.mp hv] at h; cases h
      | msgs w => rw [Mem.ptr, view_msgs.mp hv] at h; cases h

theorem match_init (hI : Inv m0 e0 s0) (t : Nat) : Match (World.init m0 e0 progs t) m0 m0 where
  obj h := by
    obtain ⟨rfl, h⟩ := h
    obtain ⟨o, ho, hr⟩ := objRel_init hI t h
    exact ⟨o, o, ho, ho, hr⟩
  inj h h' := by obtain ⟨rfl, -⟩ := h; obtain ⟨rfl, -⟩ := h'; exact Iff.rfl
  own h := by
    obtain ⟨h8, i, -, hi⟩ := h
    exact ⟨by omega, hI.lt (List.mem_of_getElem? hi)⟩

theorem sep_init (hI : Inv m0 e0 s0) (hs : Separate e0.length progs) {t t' p p' : Nat} (hne : t ≠ t')
    (ho : (World.init m0 e0 progs t).own p') : ¬ (World.init m0 e0 progs t').rel p p' := by
  rintro ⟨rfl, hr⟩
  obtain ⟨h8, j, hc, hj⟩ := ho
  rcases hr with hr | ⟨i, q, hV, hi, hq⟩
  · omega
  · have hj' := (List.getElem?_eq_some_iff.mp hj).1
    rcases hq with rfl | hq
    · rcases hI.inj i j p hi hj with rfl | rfl
      · rw [VarsOf] at hV
        split at hV
        · rcases hV with hV | hV
          · exact absurd hV (by omega)
          · exact hs t t' i hne hj' hc hV
        · exact hV t hc
      · omega
    · exact hI.inner q p (List.mem_of_getElem? hi) hq (List.mem_of_getElem? hj)

theorem env_init (hI : Inv m0 e0 s0) (t : Nat) : EnvRel (VarsOf e0.length progs t) (ChangedOf e0.length progs t)
    (World.init m0 e0 progs t) e0 e0 where
  len := rfl
  use hi h h' := by rw [h] at h'; cases h'; exact World.init_var t hi h
  own {i p'} hi h8 h := by
    rcases hi.2 with hi | hi
    · have := (List.getElem?_eq_some_iff.mp h).1; omega
    · exact (hI.own i p' h8 h).imp (fun h8 => ⟨h8, i, hi, h⟩) id

/-- The state in which the goroutines start. -/
theorem good_init (sha : List UInt8 → List UInt8) {ps : List (Prog Op Out)} (hI : Inv m0 e0 s0)
    (hp : progs = ps.map (made sha s0)) (hs : Separate e0.length progs)
    (safe : ∀ prog ∈ ps, Safe sha (made sha s0 prog) s0) :
    Good (fun t => Post (VarsOf e0.length progs t) (ChangedOf e0.length progs t) e0) (World.init m0 e0 progs)
      (fun t => calls sha (ps[t]?.getD .stop) e0) m0
      ⟨m0, e0, ps.map fun prog => calls sha prog e0⟩ [] (World.init m0 e0 progs) (fun _ => m0)
      (fun t => calls sha (ps[t]?.getD .stop) e0) where
  four := view_g2a.mp hI.consts.v4
  mtch t := match_init hI t
  sim t y h := by
    rw [List.getElem?_map] at h
    cases ht : ps[t]? with
    | none => rw [ht] at h; cases h
    | some prog =>
      rw [ht] at h
      cases h
      have ht' : progs[t]? = some (made sha s0 prog) := by rw [hp, List.getElem?_map, ht]; rfl
      have hlt := (List.getElem?_eq_some_iff.mp ht').1
      refine run_sim sha prog (env_init hI t) hI (safe prog (List.mem_of_getElem? ht)) (fun op ho i hi => ?_)
        (fun op ho i hi => ?_)
      · rw [VarsOf, if_pos hlt]; exact .inr ⟨_, ht', op, ho, hi⟩
      · exact ⟨hlt, .inr ⟨_, ht', op, ho, hi⟩⟩
  run _ := rfl
  steps _ _ := rfl
  sep _ _ _ _ hne ho := sep_init hI hs hne ho
  le _ := .refl _
  obs _ _ := rfl

end

/-! ## The results -/

theorem step_length (st : State) (t : Nat) : (st.step t).threads.length = st.threads.length := by
  rw [State.step]; split
  · rfl
  · exact List.length_set
theorem run_length (st : State) (sched : List Nat) : (st.run sched).threads.length = st.threads.length := by
  induction sched generalizing st with
  | nil => rfl
  | cons t l ih => exact (ih (st.step t)).trans (step_length st t)
theorem step_shared (st : State) (t : Nat) : (st.step t).shared = st.shared := by rw [State.step]; split <;> rfl
theorem run_shared (st : State) (sched : List Nat) : (st.run sched).shared = st.shared := by
  induction sched generalizing st with
  | nil => rfl
  | cons t l ih => exact (ih (st.step t)).trans (step_shared st t)

section
variable {sha : List UInt8 → List UInt8} {pre : List Op} {progs : List (List Op)}
  {ps : List (Prog Op Out)} {s0 : List Val} {o0 : List Out}

/-- The start, and all that can happen. -/
theorem start_good (hpre : meaning sha pre = some (s0, o0)) (safe0 : Safe sha pre packageVals)
    (hp : progs = ps.map (made sha s0)) (safe : ∀ prog ∈ ps, Safe sha (made sha s0 prog) s0) (hs : Separate s0.length progs) :
    ∃ m0 e0, Inv m0 e0 s0 ∧ e0.length = s0.length ∧
      start sha pre ps = some ⟨m0, e0, ps.map fun prog => calls sha prog e0⟩ ∧
      ∀ sched, ∃ W m x, Good (fun t => Post (VarsOf e0.length progs t) (ChangedOf e0.length progs t) e0) (World.init m0 e0 progs)
      (fun t => calls sha (ps[t]?.getD .stop) e0) m0
      (State.run ⟨m0, e0, ps.map fun prog => calls sha prog e0⟩ sched) sched W m x := by
  have h := run_correct sha pre inv_init safe0
  rw [meaning] at hpre
  rw [hpre] at h
  obtain ⟨e0, m0, hr, hI⟩ := h
  have hlen : e0.length = s0.length := by
    have := congrArg List.length hI.view
    rwa [List.length_map, List.length_map] at this
  refine ⟨m0, e0, hI, hlen, ?_, fun sched => ?_⟩
  · rw [start, hr]; rfl
  · rw [← hlen] at hs
    exact (good_init sha hI hp hs safe).run_sched sched

theorem result {m0 : Mem} {e0 : List Nat} {st : State} {sched : List Nat} {W : Nat → World} {m : Nat → Mem}
    {x : Nat → M (List Nat × List Out)} (hI : Inv m0 e0 s0) (hp : progs = ps.map (made sha s0))
    (safe : ∀ prog ∈ ps, Safe sha (made sha s0 prog) s0)
    (h : Good (fun t => Post (VarsOf e0.length progs t) (ChangedOf e0.length progs t) e0) (World.init m0 e0 progs)
      (fun t => calls sha (ps[t]?.getD .stop) e0) m0 st sched W m x)
    {t : Nat} {prog : Prog Op Out} (ht : ps[t]? = some prog) {e : List Nat} {outs : List Out}
    (hr : st.threads[t]? = some (.ret (e, outs))) :
    ∃ vals, valuesRun sha (made sha s0 prog) s0 = some (vals, outs) ∧ e0 <+: e ∧
      ∀ i, e0.length ≤ i ∨ Uses progs t i → e[i]?.bind st.mem.view = vals[i]? := by
  have hsim := h.sim t _ hr
  have hrun := h.run t
  have hm := h.mtch t
  have ht' : progs[t]? = some (made sha s0 prog) := by rw [hp, List.getElem?_map, ht]; rfl
  have hlt := (List.getElem?_eq_some_iff.mp ht').1
  simp only [ht, Option.getD_some] at hrun
  have hsafe := safe prog (List.mem_of_getElem? ht)
  have hc := run_correct sha _ hI hsafe
  rw [← calls_eq sha prog hI hsafe] at hc
  generalize x t = xt at hsim hrun
  cases hsim with
  | @ret _ _ a _ hA =>
    obtain ⟨hA1, hA2, hA3⟩ := hA
    rw [← hrun] at hc
    cases hv : valuesRun sha (made sha s0 prog) s0 with
    | none => rw [hv] at hc; cases hc
    | some u =>
      rw [hv] at hc
      obtain ⟨e', m', h1, h2⟩ := hc
      cases h1
      refine ⟨u.1, ?_, hA3, fun i hi => ?_⟩
      · rw [← show u.2 = outs from hA1]
      · have hV : VarsOf e0.length progs t i := by rw [VarsOf, if_pos hlt]; exact hi
        have hview := congrArg (·[i]?) h2.view
        simp only [List.getElem?_map] at hview
        cases h1 : e'[i]? with
        | none =>
          have h1' : e[i]? = none := by
            rw [List.getElem?_eq_none_iff] at h1 ⊢
            exact hA2.len ▸ h1
          rw [h1] at hview
          rw [h1']
          cases hu : u.1[i]? with
          | none => rfl
          | some v => rw [hu] at hview; cases hview
        | some p =>
          obtain ⟨p', h1'⟩ := hA2.get h1
          have h1' : e[i]? = some p' := h1'
          rw [h1] at hview
          rw [h1', Option.bind_some, hm.view (hA2.use hV h1 h1')]
          cases hu : u.1[i]? with
          | none => rw [hu] at hview; cases hview
          | some v => rw [hu] at hview; exact Option.some.inj hview

theorem result_panic {m0 : Mem} {e0 : List Nat} {st : State} {sched : List Nat} {W : Nat → World} {m : Nat → Mem}
    {x : Nat → M (List Nat × List Out)} (hI : Inv m0 e0 s0) (hp : progs = ps.map (made sha s0))
    (safe : ∀ prog ∈ ps, Safe sha (made sha s0 prog) s0)
    (h : Good (fun t => Post (VarsOf e0.length progs t) (ChangedOf e0.length progs t) e0) (World.init m0 e0 progs)
      (fun t => calls sha (ps[t]?.getD .stop) e0) m0 st sched W m x)
    {t : Nat} {prog : Prog Op Out} (ht : ps[t]? = some prog)
    (hr : st.threads[t]? = some .panic) : valuesRun sha (made sha s0 prog) s0 = none := by
  have hsim := h.sim t _ hr
  have hrun := h.run t
  simp only [ht, Option.getD_some] at hrun
  have hsafe := safe prog (List.mem_of_getElem? ht)
  have hc := run_correct sha _ hI hsafe
  rw [← calls_eq sha prog hI hsafe] at hc
  generalize x t = xt at hsim hrun
  cases hsim with
  | panic =>
    rw [← hrun] at hc
    cases hv : valuesRun sha (made sha s0 prog) s0 with
    | none => rfl
    | some u => rw [hv] at hc; obtain ⟨e', m', h1, h2⟩ := hc; cases h1

/-- What nobody changes keeps its value. -/
theorem unchanged {m0 : Mem} {e0 : List Nat} {st : State} {sched : List Nat} {W : Nat → World} {m : Nat → Mem}
    {x : Nat → M (List Nat × List Out)} (hI : Inv m0 e0 s0) (hl : st.threads.length = progs.length)
    (h : Good (fun t => Post (VarsOf e0.length progs t) (ChangedOf e0.length progs t) e0) (World.init m0 e0 progs)
      (fun t => calls sha (ps[t]?.getD .stop) e0) m0 st sched W m x)
    {i : Nat} (hi : ∀ t, ¬ Changes progs t i) : e0[i]?.bind st.mem.view = s0[i]? := by
  have hV : VarsOf e0.length progs progs.length i := by rw [VarsOf, if_neg (lt_irrefl _)]; exact hi
  have hview := congrArg (·[i]?) hI.view
  simp only [List.getElem?_map] at hview
  cases h1 : e0[i]? with
  | none =>
    rw [h1] at hview
    cases hu : s0[i]? with
    | none => rfl
    | some v => rw [hu] at hview; cases hview
  | some p =>
    rw [h1] at hview
    have := (h.mtch progs.length).view ((h.le progs.length).rel (World.init_var _ hV h1))
    rw [h.obs _ (by rw [hl])] at this
    rw [Option.bind_some, this]
    cases hu : s0[i]? with
    | none => rw [hu] at hview; cases hview
    | some v => rw [hu] at hview; exact Option.some.inj hview

end
end Bls.HeapPoints
