import Verif.Spec.Threads
import Verif.Proof.HistoryPoints
/-
Goroutines: a goroutine among others does, access by access, what it does alone, up to the addresses
of the objects it makes.
-/
namespace Bls.HeapPoints

/-- What one goroutine may access: `rel p p'` if its object `p`, when it runs alone, is `p'` among the
others; `own p'` if it may overwrite `p'`. The package variables are shared by all. -/
structure World where
  rel : Nat → Nat → Prop
  own : Nat → Prop
  pkg : ∀ {i}, i < 8 → rel i i

/-- More objects. -/
structure World.Le (W W' : World) : Prop where
  rel : ∀ {p p'}, W.rel p p' → W'.rel p p'
  own : ∀ {p'}, W.own p' → W'.own p'

theorem World.Le.refl (W : World) : W.Le W := ⟨id, id⟩
theorem World.Le.trans {W W' W'' : World} (h : W.Le W') (h' : W'.Le W'') : W.Le W'' :=
  ⟨fun x => h'.rel (h.rel x), fun x => h'.own (h.own x)⟩

/-- The same object, up to addresses. -/
inductive ObjRel (r : Nat → Nat → Prop) : Obj → Obj → Prop
  | g1a (v : G1Affine) : ObjRel r (.g1a v) (.g1a v)
  | g1p (v : G1Projective) : ObjRel r (.g1p v) (.g1p v)
  | g2a (v : G2Affine) : ObjRel r (.g2a v) (.g2a v)
  | g2p (v : G2Projective) : ObjRel r (.g2p v) (.g2p v)
  | msgs (v : List (List UInt8)) : ObjRel r (.msgs v) (.msgs v)
  | sig1 {p p' : Nat} (h : r p p') : ObjRel r (.sig1 p) (.sig1 p')
  | pub1 {p p' : Nat} (h : r p p') : ObjRel r (.pub1 p) (.pub1 p')
  | sig2 {p p' : Nat} (h : r p p') : ObjRel r (.sig2 p) (.sig2 p')
  | pub2 {p p' : Nat} (h : r p p') : ObjRel r (.pub2 p) (.pub2 p')

theorem ObjRel.mono {r r' : Nat → Nat → Prop} (h : ∀ {p p'}, r p p' → r' p p') {o o' : Obj} (ho : ObjRel r o o') :
    ObjRel r' o o' := by
  cases ho with
  | g1a v => exact .g1a v
  | g1p v => exact .g1p v
  | g2a v => exact .g2a v
  | g2p v => exact .g2p v
  | msgs v => exact .msgs v
  | sig1 hp => exact .sig1 (h hp)
  | pub1 hp => exact .pub1 (h hp)
  | sig2 hp => exact .sig2 (h hp)
  | pub2 hp => exact .pub2 (h hp)

/-- The call `x`, run alone in memory `m`, and the call `y` among others make the same accesses, only to
objects that are allowed, and then give results in the relation `A`. -/
inductive Sim {α β : Type} (A : World → Mem → α → β → Prop) : World → Mem → M α → M β → Prop
  | ret {W : World} {m : Mem} {a : α} {b : β} (h : A W m a b) : Sim A W m (.ret a) (.ret b)
  | panic {W : World} {m : Mem} : Sim A W m .panic .panic
  | read {W : World} {m : Mem} {p p' : Nat} {k : Obj → M α} {k' : Obj → M β} (hp : W.rel p p')
      (h : ∀ o o', m[p]? = some o → ObjRel W.rel o o' → (p' = 4 → o' = .g2a .zero) → Sim A W m (k o) (k' o')) :
      Sim A W m (.read p k) (.read p' k')
  | write {W : World} {m : Mem} {p p' : Nat} {o o' : Obj} {k : M α} {k' : M β} (hp : W.rel p p') (hw : W.own p')
      (ho : ObjRel W.rel o o') (h : Sim A W (m.set p o) k k') : Sim A W m (.write p o k) (.write p' o' k')
  | alloc {W : World} {m : Mem} {o o' : Obj} {k : Nat → M α} {k' : Nat → M β} (ho : ObjRel W.rel o o')
      (h : ∀ W', W.Le W' → ∀ p', W'.rel m.length p' → W'.own p' → Sim A W' (m ++ [o]) (k m.length) (k' p')) :
      Sim A W m (.alloc o k) (.alloc o' k')

theorem Sim.bind {α β γ δ : Type} {A : World → Mem → α → β → Prop} {B : World → Mem → γ → δ → Prop} {W : World} {m : Mem}
    {x : M α} {y : M β} {f : α → M γ} {g : β → M δ} (h : Sim A W m x y)
    (H : ∀ W' m' a b, W.Le W' → A W' m' a b → Sim B W' m' (f a) (g b)) : Sim B W m (x >>= f) (y >>= g) := by
  show Sim B W m (M.bind x f) (M.bind y g)
  induction h with
  | ret h => exact H _ _ _ _ (.refl _) h
  | panic => exact .panic
  | read hp h ih => exact .read hp fun o o' ho hr h4 => ih o o' ho hr h4 H
  | write hp hw ho h ih => exact .write hp hw ho (ih H)
  | alloc ho h ih =>
    exact .alloc ho fun W' hW p' hr hw => ih W' hW p' hr hw fun W'' m' a b hW' => H W'' m' a b (hW.trans hW')

theorem Sim.mono {α β : Type} {A B : World → Mem → α → β → Prop} {W : World} {m : Mem} {x : M α} {y : M β}
    (h : Sim A W m x y) (H : ∀ W' m' a b, A W' m' a b → B W' m' a b) : Sim B W m x y := by
  induction h with
  | ret h => exact .ret (H _ _ _ _ h)
  | panic => exact .panic
  | read hp h ih => exact .read hp ih
  | write hp hw ho h ih => exact .write hp hw ho ih
  | alloc ho h ih => exact .alloc ho ih

/-- The result is the one of running alone. -/
theorem Sim.withRun {α β : Type} {A : World → Mem → α → β → Prop} {W : World} {m : Mem} {x : M α} {y : M β}
    (h : Sim A W m x y) : Sim (fun W' m' a b => A W' m' a b ∧ x.run m = some (a, m')) W m x y := by
  induction h with
  | ret h => exact .ret ⟨h, rfl⟩
  | panic => exact .panic
  | read hp h ih =>
    exact .read hp fun o o' ho hr h4 => (ih o o' ho hr h4).mono fun _ _ _ _ hA => ⟨hA.1, (run_read ho).trans hA.2⟩
  | write hp hw ho h ih => exact .write hp hw ho ih
  | alloc ho h ih => exact .alloc ho ih

/-! ## One goroutine and the memory -/

/-- The memory of a goroutine that runs alone, `m`, and the memory of all, `M`. -/
structure Match (W : World) (m M' : Mem) : Prop where
  obj : ∀ {p p'}, W.rel p p' → ∃ o o', m[p]? = some o ∧ M'[p']? = some o' ∧ ObjRel W.rel o o'
  inj : ∀ {p p' q q'}, W.rel p p' → W.rel q q' → (p = q ↔ p' = q')
  own : ∀ {p'}, W.own p' → p' ≠ 4 ∧ p' < M'.length

theorem Match.lt {W : World} {m M' : Mem} (h : Match W m M') {p p' : Nat} (hr : W.rel p p') : p' < M'.length := by
  obtain ⟨o, o', -, h2, -⟩ := h.obj hr; exact lt_of_getElem? h2

/-- Another goroutine writes. -/
theorem Match.frame {W : World} {m M' : Mem} (h : Match W m M') {p' : Nat} (hp : ∀ p, ¬ W.rel p p') (o : Obj) :
    Match W m (M'.set p' o) where
  obj {q q'} hq := by
    obtain ⟨o1, o2, h1, h2, h3⟩ := h.obj hq
    refine ⟨o1, o2, h1, ?_, h3⟩
    rw [List.getElem?_set_ne (fun e => hp q (by rw [e]; exact hq)), h2]
  inj := h.inj
  own hq := by rw [List.length_set]; exact h.own hq

/-- Another goroutine makes an object. -/
theorem Match.append {W : World} {m M' : Mem} (h : Match W m M') (o : Obj) : Match W m (M' ++ [o]) where
  obj {q q'} hq := by
    obtain ⟨o1, o2, h1, h2, h3⟩ := h.obj hq
    exact ⟨o1, o2, h1, getElem?_append h2 _, h3⟩
  inj := h.inj
  own hq := ⟨(h.own hq).1, by rw [List.length_append]; exact Nat.lt_add_right _ (h.own hq).2⟩

theorem Match.write {W : World} {m M' : Mem} (h : Match W m M') {p p' : Nat} {o o' : Obj} (hp : W.rel p p')
    (ho : ObjRel W.rel o o') : Match W (m.set p o) (M'.set p' o') where
  obj {q q'} hq := by
    obtain ⟨o1, o2, h1, h2, h3⟩ := h.obj hq
    by_cases e : p = q
    · have e' := (h.inj hp hq).mp e
      subst e; subst e'
      exact ⟨o, o', List.getElem?_set_self (lt_of_getElem? h1), List.getElem?_set_self (lt_of_getElem? h2), ho⟩
    · exact ⟨o1, o2, by rw [List.getElem?_set_ne e, h1],
        by rw [List.getElem?_set_ne fun e' => e ((h.inj hp hq).mpr e'), h2], h3⟩
  inj := h.inj
  own hq := by rw [List.length_set]; exact h.own hq

/-- The new object `p`, which is `p'` among others. -/
def World.add (W : World) (p p' : Nat) : World :=
  ⟨fun q q' => W.rel q q' ∨ (q = p ∧ q' = p'), fun q' => W.own q' ∨ q' = p', fun h => .inl (W.pkg h)⟩

theorem World.le_add (W : World) (p p' : Nat) : W.Le (W.add p p') := ⟨.inl, .inl⟩

theorem Match.alloc {W : World} {m M' : Mem} (h : Match W m M') {o o' : Obj} (ho : ObjRel W.rel o o')
    (h4 : 4 < M'.length) : Match (W.add m.length M'.length) (m ++ [o]) (M' ++ [o']) where
  obj {q q'} hq := by
    rcases hq with hq | ⟨rfl, rfl⟩
    · obtain ⟨o1, o2, h1, h2, h3⟩ := h.obj hq
      exact ⟨o1, o2, getElem?_append h1 _, getElem?_append h2 _, h3.mono (W.le_add _ _).rel⟩
    · exact ⟨o, o', getElem?_last _ _, getElem?_last _ _, ho.mono (W.le_add _ _).rel⟩
  inj {p p' q q'} hp hq := by
    have lt : ∀ {a a'}, W.rel a a' → a < m.length ∧ a' < M'.length := fun {a a'} ha => by
      obtain ⟨o1, o2, h1, h2, -⟩ := h.obj ha
      exact ⟨lt_of_getElem? h1, lt_of_getElem? h2⟩
    rcases hp with hp | ⟨rfl, rfl⟩ <;> rcases hq with hq | ⟨rfl, rfl⟩
    · exact h.inj hp hq
    · exact ⟨fun e => absurd (lt hp).1 (by omega), fun e => absurd (lt hp).2 (by omega)⟩
    · exact ⟨fun e => absurd (lt hq).1 (by omega), fun e => absurd (lt hq).2 (by omega)⟩
    · exact ⟨fun _ => rfl, fun _ => rfl⟩
  own {q'} hq := by
    rw [List.length_append, List.length_singleton]
    rcases hq with hq | rfl
    · exact ⟨(h.own hq).1, by have := (h.own hq).2; omega⟩
    · exact ⟨by omega, by omega⟩

theorem Match.view {W : World} {m M' : Mem} (h : Match W m M') {p p' : Nat} (hr : W.rel p p') : M'.view p' = m.view p := by
  obtain ⟨o, o', h1, h2, h3⟩ := h.obj hr
  rw [Mem.view, Mem.view, h1, h2]
  cases h3 with
  | g1a v => rfl
  | g1p v => rfl
  | g2a v => rfl
  | g2p v => rfl
  | msgs v => rfl
  | sig1 hq | pub1 hq | sig2 hq | pub2 hq =>
    obtain ⟨o, o', h1, h2, h3⟩ := h.obj hq
    simp only [h1, h2]
    cases h3 <;> rfl

/-- The number of accesses of a call that runs alone. -/
def M.steps {α : Type} : M α → Mem → Nat
  | .ret _, _ => 0
  | .panic, _ => 0
  | .read p k, m => (match m[p]? with | some o => (k o).steps m | none => 0) + 1
  | .write p o k, m => k.steps (m.set p o) + 1
  | .alloc o k, m => (k m.length).steps (m ++ [o]) + 1

/-! ## All goroutines -/

/-- What holds after the schedule `sched`: every goroutine is where it would be alone, after as many
accesses. The numbers that belong to no goroutine stand for observers. -/
structure Good (A : Nat → World → Mem → List Nat × List Out → List Nat × List Out → Prop)
    (W0 : Nat → World) (x0 : Nat → M (List Nat × List Out)) (m0 : Mem) (st : State) (sched : List Nat)
    (W : Nat → World) (m : Nat → Mem) (x : Nat → M (List Nat × List Out)) : Prop where
  four : st.mem[4]? = some (.g2a .zero)
  mtch : ∀ t, Match (W t) (m t) st.mem
  sim : ∀ t y, st.threads[t]? = some y → Sim (A t) (W t) (m t) (x t) y
  run : ∀ t, (x t).run (m t) = (x0 t).run m0
  steps : ∀ t, t < st.threads.length → (x t).steps (m t) = (x0 t).steps m0 - sched.count t
  sep : ∀ t t' p p', t ≠ t' → (W t).own p' → ¬ (W t').rel p p'
  le : ∀ t, (W0 t).Le (W t)
  obs : ∀ t, st.threads.length ≤ t → m t = m0

section
variable {A : Nat → World → Mem → List Nat × List Out → List Nat × List Out → Prop}
  {W0 : Nat → World} {x0 : Nat → M (List Nat × List Out)} {m0 : Mem}

theorem Good.step {st : State} {sched : List Nat} {W : Nat → World} {m : Nat → Mem} {x : Nat → M (List Nat × List Out)}
    (h : Good A W0 x0 m0 st sched W m x) (t : Nat) :
    ∃ W' m' x', Good A W0 x0 m0 (st.step t) (sched ++ [t]) W' m' x' := by
  rw [State.step]
  cases ht : st.threads[t]? with
  | none =>
    have hge : st.threads.length ≤ t := List.getElem?_eq_none_iff.mp ht
    refine ⟨W, m, x, h.four, h.mtch, h.sim, h.run, fun u hu => ?_, h.sep, h.le, h.obs⟩
    rw [List.count_append, List.count_singleton, if_neg (by rw [beq_iff_eq]; have hu' : u < st.threads.length := hu; omega), Nat.add_zero]; exact h.steps u hu
  | some y =>
    have hlt := (List.getElem?_eq_some_iff.mp ht).1
    have hs := h.sim t y ht
    have hst := h.steps t hlt
    have hcount : ∀ u, u ≠ t → (sched ++ [t]).count u = sched.count u := fun u hu => by
      rw [List.count_append, List.count_singleton, if_neg (by rw [beq_iff_eq]; exact fun e => hu e.symm), Nat.add_zero]
    have hcountt : (sched ++ [t]).count t = sched.count t + 1 := by
      rw [List.count_append, List.count_singleton_self]
    -- the general form of a step
    have fin : ∀ (W1 : World) (m1 : Mem) (x1 y1 : M (List Nat × List Out)) (M1 : Mem),
        M1[4]? = some (.g2a .zero) → Match W1 m1 M1 →
        (∀ u, u ≠ t → Match (W u) (m u) M1) →
        Sim (A t) W1 m1 x1 y1 → x1.run m1 = (x t).run (m t) → x1.steps m1 = (x t).steps (m t) - 1 →
        (∀ u p p', u ≠ t → W1.own p' → ¬ (W u).rel p p') →
        (∀ u p p', u ≠ t → (W u).own p' → ¬ W1.rel p p') → (W t).Le W1 →
        ∃ W' m' x', Good A W0 x0 m0 ⟨M1, st.shared, st.threads.set t y1⟩ (sched ++ [t]) W' m' x' := by
      intro W1 m1 x1 y1 M1 c4 hm hmo hsim hrun hsteps hs1 hs2 hle
      refine ⟨Function.update W t W1, Function.update m t m1, Function.update x t x1, c4, ?_, ?_, ?_, ?_, ?_, ?_, ?_⟩
      · intro u
        by_cases e : u = t
        · subst e; rw [Function.update_self, Function.update_self]; exact hm
        · rw [Function.update_of_ne e, Function.update_of_ne e]; exact hmo u e
      · intro u z hz
        by_cases e : u = t
        · subst e
          rw [List.getElem?_set_self hlt] at hz
          cases hz
          rw [Function.update_self, Function.update_self, Function.update_self]; exact hsim
        · rw [List.getElem?_set_ne (fun e' => e e'.symm)] at hz
          rw [Function.update_of_ne e, Function.update_of_ne e, Function.update_of_ne e]; exact h.sim u z hz
      · intro u
        by_cases e : u = t
        · subst e; rw [Function.update_self, Function.update_self, hrun]; exact h.run u
        · rw [Function.update_of_ne e, Function.update_of_ne e]; exact h.run u
      · intro u hu
        rw [List.length_set] at hu
        by_cases e : u = t
        · subst e; rw [Function.update_self, Function.update_self, hsteps, hcountt, h.steps u hu]; omega
        · rw [Function.update_of_ne e, Function.update_of_ne e, hcount u e]; exact h.steps u hu
      · intro u u' p p' hne
        by_cases e : u = t
        · subst e
          rw [Function.update_self, Function.update_of_ne hne.symm]
          exact hs1 u' p p' hne.symm
        · rw [Function.update_of_ne e]
          by_cases e' : u' = t
          · subst e'; rw [Function.update_self]; exact hs2 u p p' e
          · rw [Function.update_of_ne e']; exact h.sep u u' p p' hne
      · intro u
        by_cases e : u = t
        · subst e; rw [Function.update_self]; exact (h.le u).trans hle
        · rw [Function.update_of_ne e]; exact h.le u
      · intro u hu
        rw [List.length_set] at hu
        rw [Function.update_of_ne (by omega)]; exact h.obs u hu
    have hm := h.mtch t
    have h1 : ∀ u p p', u ≠ t → (W t).own p' → ¬ (W u).rel p p' :=
      fun u p p' hne => h.sep t u p p' hne.symm
    have h2 : ∀ u p p', u ≠ t → (W u).own p' → ¬ (W t).rel p p' :=
      fun u p p' hne => h.sep u t p p' hne
    generalize hWt : W t = Wt at *
    generalize hmt : m t = mt at *
    generalize hxt : x t = xt at *
    cases hs with
    | ret hA =>
      refine fin Wt mt _ _ st.mem h.four hm (fun u _ => h.mtch u) (.ret hA) rfl rfl h1 h2 (.refl _)
    | panic => exact fin Wt mt _ _ st.mem h.four hm (fun u _ => h.mtch u) .panic rfl rfl h1 h2 (.refl _)
    | @read _ _ p p' k k' hp hk =>
      obtain ⟨o, o', e1, e2, hr⟩ := hm.obj hp
      have hn : (M.read p' k').next st.mem = (k' o', st.mem) := by rw [M.next, e2]
      simp only [hn]
      refine fin Wt mt (k o) (k' o') st.mem h.four hm (fun u _ => h.mtch u)
        (hk o o' e1 hr fun e => ?_) (run_read e1).symm ?_ h1 h2 (.refl _)
      · rw [e, h.four] at e2; exact (Option.some.inj e2).symm
      · rw [M.steps, e1]; rfl
    | @write _ _ p p' o o' k k' hp hw ho hk =>
      refine fin Wt (mt.set p o) k k' (st.mem.set p' o') ?_ (hm.write hp ho)
        (fun u e => (h.mtch u).frame (fun q => h1 u q p' e hw) o') hk rfl ?_ h1 h2 (.refl _)
      · rw [List.getElem?_set_ne (hm.own hw).1]; exact h.four
      · rw [M.steps]; rfl
    | @alloc _ _ o o' k k' ho hk =>
      have hlen := lt_of_getElem? h.four
      refine fin (Wt.add mt.length st.mem.length) (mt ++ [o]) (k mt.length) (k' st.mem.length) (st.mem ++ [o'])
        (getElem?_append h.four _) (hm.alloc ho hlen) (fun u e => (h.mtch u).append o')
        (hk _ (Wt.le_add _ _) _ (.inr ⟨rfl, rfl⟩) (.inr rfl)) rfl ?_ ?_ ?_ (Wt.le_add _ _)
      · rw [M.steps]; rfl
      · intro u q q' hne hq hr
        rcases hq with hq | rfl
        · exact h1 u q q' hne hq hr
        · exact absurd ((h.mtch u).lt hr) (lt_irrefl _)
      · intro u q q' hne hq hr
        rcases hr with hr | ⟨-, rfl⟩
        · exact h2 u q q' hne hq hr
        · exact absurd ((h.mtch u).own hq).2 (lt_irrefl _)

theorem Good.run_sched {st : State} {sched : List Nat} {W : Nat → World} {m : Nat → Mem} {x : Nat → M (List Nat × List Out)}
    (h : Good A W0 x0 m0 st sched W m x) (more : List Nat) :
    ∃ W' m' x', Good A W0 x0 m0 (st.run more) (sched ++ more) W' m' x' := by
  induction more generalizing st sched W m x with
  | nil => rw [List.append_nil]; exact ⟨W, m, x, h⟩
  | cons t more ih =>
    obtain ⟨W1, m1, x1, h1⟩ := h.step t
    obtain ⟨W2, m2, x2, h2⟩ := ih h1
    rw [List.append_assoc] at h2
    exact ⟨W2, m2, x2, h2⟩

theorem Good.noRace {st : State} {sched : List Nat} {W : Nat → World} {m : Nat → Mem} {x : Nat → M (List Nat × List Out)}
    (h : Good A W0 x0 m0 st sched W m x) : ¬ st.Race := by
  rintro ⟨t, t', y, y', p, hne, ht, ht', hw, ha⟩
  have h1 : (W t).own p := by
    have hs := h.sim t y ht
    generalize x t = xt at hs
    cases hs with
    | write hp hw' ho hk => cases hw; exact hw'
    | _ => exact hw.elim
  have h2 : ∃ q, (W t').rel q p := by
    have hs := h.sim t' y' ht'
    generalize x t' = xt at hs
    cases hs with
    | read hp hk => rcases ha with ha | ha; exact ha.elim; cases ha; exact ⟨_, hp⟩
    | write hp hw' ho hk => rcases ha with ha | ha; cases ha; exact ⟨_, hp⟩; exact ha.elim
    | _ => rcases ha with ha | ha <;> exact ha.elim
  obtain ⟨q, hq⟩ := h2
  exact h.sep t t' q p hne h1 hq

theorem Good.finished {st : State} {sched : List Nat} {W : Nat → World} {m : Nat → Mem} {x : Nat → M (List Nat × List Out)}
    (h : Good A W0 x0 m0 st sched W m x) {t : Nat} {y : M (List Nat × List Out)} (ht : st.threads[t]? = some y)
    (hc : (x0 t).steps m0 ≤ sched.count t) : y.Finished := by
  have hs := h.steps t (List.getElem?_eq_some_iff.mp ht).1
  rw [Nat.sub_eq_zero_of_le hc] at hs
  have hsim := h.sim t y ht
  generalize x t = xt at hs hsim
  cases hsim with
  | ret => trivial
  | panic => trivial
  | read => rw [M.steps] at hs; cases hs
  | write => rw [M.steps] at hs; cases hs
  | alloc => rw [M.steps] at hs; cases hs

end

end Bls.HeapPoints
