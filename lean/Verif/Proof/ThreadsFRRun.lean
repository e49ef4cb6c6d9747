import Verif.Proof.ThreadsFR
/-
Programs on scalars: what they access, and goroutines that run them.
-/
namespace Bls.HeapFR
open Bls.Heap (Mem aRFieldModulus aFrZero aBigOneFR aBigZeroFR aFRR2 aFrOne aRMinus1Over2)

/-! ## The programs, access by access, are the programs -/

theorem pointer_run (o : Option Nat) (m : Mem) : (pointer o).run m = o.map fun p => (p, m) := by cases o <;> rfl

theorem opCalls_run (e : Env) (m : Mem) (op : Op) : (opCalls e op).run m = op.alone e m := by
  cases op
  case isNil i => rw [opCalls, Op.alone]; cases e.frs[i]? <;> rfl
  all_goals simp only [opCalls, Op.alone, run_bind, pointer_run, run_newCell, Option.bind_some, run_pure,
    Option.bind_map, Function.comp_def, run_setCell, run_cell, frReprToFR_run, copy_run, addAssign_run, subAssign_run,
    mulAssign_run, negAssign_run, doubleAssign_run, squareAssign_run, exp_run, inverse_run, mulBits_run, mulBytes_run,
    hashFR_run, toRepr_run, cmp_run, isZero_run, equals_run, parity_run, legendre_run, serialize_run, sqrt_run] <;> rfl

theorem calls_run : ∀ (prog : Prog Op Out) (e : Env) (m : Mem), (calls prog e).run m = aloneRun prog e m
  | .stop, _, _ => rfl
  | .call op next, e, m => by
    simp only [calls, aloneRun, run_bind, opCalls_run, fun x => calls_run (next x), run_pure]; rfl

theorem made_call {op : Op} {next : List Out → Prog Op Out} {e : Env} {m : Mem} {r : (Env × List Out) × Mem}
    (h : op.alone e m = some r) : made (.call op next) e m = op :: made (next r.1.2) r.1.1 r.2 := by
  rw [made, h]

/-! ## What a program accesses -/

/-- The variables for which `U` may be read, those for which `C` may be changed. -/
structure EnvOk (F : Fp) (U C : Var → Prop) (m : Mem) (e : Env) : Prop where
  rd : ∀ i f, U (.fr i) → e.fr i = some f → Rd F m f
  wr : ∀ i f, C (.fr i) → e.fr i = some f → Wr F m f
  rc : ∀ i p, U (.repr i) → e.reprs[i]? = some p → F.RC p
  wc : ∀ i p, C (.repr i) → e.reprs[i]? = some p → F.WC p ∧ p < m.nextCell

section
variable {F : Fp} {n nf : Nat} {m m' : Mem} {U C : Var → Prop} {e : Env}

theorem EnvOk.stable (w : Wide F n nf) (h : EnvOk F U C m e) (hs : Stable F m m') : EnvOk F U C m' e :=
  ⟨fun i f hu hf => (h.rd i f hu hf).stable w hs, fun i f hu hf => (h.wr i f hu hf).stable hs, h.rc,
    fun i p hu hp => ⟨(h.wc i p hu hp).1, (h.wc i p hu hp).2.trans_le hs.cells⟩⟩

theorem addFr_fr {e : Env} {r : Option Nat} {i f : Nat} (h : (e.addFr r).fr i = some f) : e.fr i = some f ∨ r = some f := by
  unfold Env.addFr Env.fr at h
  by_cases hi : i < e.frs.length
  · rw [List.getElem?_append_left hi] at h; exact .inl h
  · rw [List.getElem?_append_right (not_lt.mp hi)] at h
    match i - e.frs.length, h with
    | 0, h => exact .inr h

theorem addRepr_repr {e : Env} {q i p : Nat} (h : (e.addRepr q).reprs[i]? = some p) : e.reprs[i]? = some p ∨ q = p := by
  unfold Env.addRepr at h
  by_cases hi : i < e.reprs.length
  · rw [List.getElem?_append_left hi] at h; exact .inl h
  · rw [List.getElem?_append_right (not_lt.mp hi)] at h
    match i - e.reprs.length, h with
    | 0, h => exact .inr (Option.some.inj h)

theorem EnvOk.addFr (w : Wide F n nf) (h : EnvOk F U C m e) {r : Option Nat} (hr : ∀ g, r = some g → Wr F m g) :
    EnvOk F U C m (e.addFr r) :=
  ⟨fun i f hu hf => (addFr_fr hf).elim (h.rd i f hu) (fun hh => (hr f hh).rd w),
    fun i f hu hf => (addFr_fr hf).elim (h.wr i f hu) (hr f), h.rc, h.wc⟩

theorem EnvOk.addRepr (w : Wide F n nf) (h : EnvOk F U C m e) {p : Nat} (hp : F.WC p ∧ p < m.nextCell) :
    EnvOk F U C m (e.addRepr p) :=
  ⟨h.rd, h.wr, fun i q hu hq => (addRepr_repr hq).elim (h.rc i q hu) (fun hh => hh ▸ w.sub _ hp.1),
    fun i q hu hq => (addRepr_repr hq).elim (h.wc i q hu) (fun hh => hh ▸ hp)⟩

theorem Ok_pointer {β : Type} {Q : β → Mem → Prop} {o : Option Nat} {k : Nat → M β}
    (hk : ∀ p, o = some p → (k p).Ok F Q m) : (pointer o >>= k).Ok F Q m := by
  cases o with
  | none => trivial
  | some p => exact hk p rfl

theorem op_ok (hb : Base F n nf m) (h : EnvOk F U C m e) {op : Op} (hU : ∀ v ∈ op.vars, U v) (hC : ∀ v ∈ op.changed, C v)
    (hq : ∀ i, op ≠ .sqrt i) : (opCalls e op).Ok F (fun r m' => EnvOk F U C m' r.1) m := by
  have keep : ∀ {α : Type} {x : M α} {P : α → Mem → Prop} {k : α → M (Env × List Out)} , x.Ok F P m →
      (∀ a m', P a m' → EnvOk F U C m' e → (k a).Ok F (fun r m' => EnvOk F U C m' r.1) m') →
      (x >>= k).Ok F (fun r m' => EnvOk F U C m' r.1) m := fun hx hk =>
    Ok_seq hb hx fun a m' hP hs _ => hk a m' hP (h.stable hb.wide hs)
  cases op with
  | newRepr v => exact keep (newCell_ok hb v) fun p m' hp he => he.addRepr hb.wide hp
  | writeRepr i v =>
    refine Ok_pointer fun p hp => ?_
    have := h.wc i p (hC _ (by simp [Op.changed])) hp
    exact keep (P := Any) ⟨this.1, trivial⟩ fun _ _ _ he => he
  | readRepr i =>
    refine Ok_pointer fun p hp => ?_
    exact Ok_cell (h.rc i p (hU _ (by simp [Op.vars])) hp) h
  | frReprToFR i =>
    refine Ok_pointer fun p hp => ?_
    have := h.wc i p (hC _ (by simp [Op.changed])) hp
    exact keep (frReprToFR_ok hb this.1 this.2) fun r m' hr he => he.addFr hb.wide hr
  | copy i =>
    refine Ok_pointer fun f hf => ?_
    exact keep (copy_ok hb (h.rd i f (hU _ (by simp [Op.vars])) hf)) fun r m' hr he =>
      he.addFr hb.wide fun g hg => by cases hg; exact hr
  | addAssign i j =>
    refine Ok_pointer fun f hf => Ok_pointer fun g hg => ?_
    exact keep (addAssign_ok hb (h.wr i f (hC _ (by simp [Op.changed])) hf) (h.rd j g (hU _ (by simp [Op.vars])) hg))
      fun _ _ _ he => he
  | subAssign i j =>
    refine Ok_pointer fun f hf => Ok_pointer fun g hg => ?_
    exact keep (subAssign_ok hb (h.wr i f (hC _ (by simp [Op.changed])) hf) (h.rd j g (hU _ (by simp [Op.vars])) hg))
      fun _ _ _ he => he
  | mulAssign i j =>
    refine Ok_pointer fun f hf => Ok_pointer fun g hg => ?_
    exact keep (mulAssign_ok hb (h.wr i f (hC _ (by simp [Op.changed])) hf) (h.rd j g (hU _ (by simp [Op.vars])) hg))
      fun _ _ _ he => he
  | negAssign i =>
    refine Ok_pointer fun f hf => ?_
    exact keep (negAssign_ok hb (h.wr i f (hC _ (by simp [Op.changed])) hf)) fun _ _ _ he => he
  | doubleAssign i =>
    refine Ok_pointer fun f hf => ?_
    exact keep (doubleAssign_ok hb (h.wr i f (hC _ (by simp [Op.changed])) hf)) fun _ _ _ he => he
  | squareAssign i =>
    refine Ok_pointer fun f hf => ?_
    exact keep (squareAssign_ok hb (h.wr i f (hC _ (by simp [Op.changed])) hf)) fun _ _ _ he => he
  | exp i k =>
    refine Ok_pointer fun f hf => Ok_pointer fun p hp => ?_
    exact keep (exp_ok hb (h.rd i f (hU _ (by simp [Op.vars])) hf) (h.rc k p (hU _ (by simp [Op.vars])) hp))
      fun r m' hr he => he.addFr hb.wide fun g hg => by cases hg; exact hr
  | inverse i =>
    refine Ok_pointer fun f hf => ?_
    exact keep (inverse_ok hb (h.rd i f (hU _ (by simp [Op.vars])) hf)) fun r m' hr he => he.addFr hb.wide hr
  | mulBits i k =>
    refine Ok_pointer fun f hf => Ok_pointer fun p hp => ?_
    exact keep (mulBits_ok hb (h.rd i f (hU _ (by simp [Op.vars])) hf) (h.rc k p (hU _ (by simp [Op.vars])) hp))
      fun r m' hr he => he.addFr hb.wide fun g hg => by cases hg; exact hr
  | mulBytes i b =>
    refine Ok_pointer fun f hf => ?_
    exact keep (mulBytes_ok hb (h.rd i f (hU _ (by simp [Op.vars])) hf) b)
      fun r m' hr he => he.addFr hb.wide fun g hg => by cases hg; exact hr
  | hashFR d =>
    exact keep (mulBytes_ok hb hb.one d) fun r m' hr he => he.addFr hb.wide fun g hg => by cases hg; exact hr
  | toRepr i =>
    refine Ok_pointer fun f hf => ?_
    exact keep (toRepr_ok hb (h.rd i f (hU _ (by simp [Op.vars])) hf)) fun p m' hp he => he.addRepr hb.wide hp
  | cmp i j =>
    refine Ok_pointer fun f hf => Ok_pointer fun g hg => ?_
    exact keep (cmp_ok hb (h.rd i f (hU _ (by simp [Op.vars])) hf) (h.rd j g (hU _ (by simp [Op.vars])) hg))
      fun _ _ _ he => he
  | isZero i =>
    refine Ok_pointer fun f hf => ?_
    exact keep (isZero_ok hb (h.rd i f (hU _ (by simp [Op.vars])) hf)) fun _ _ _ he => he
  | equals i j =>
    refine Ok_pointer fun f hf => Ok_pointer fun g hg => ?_
    exact keep (equals_ok (h.rd i f (hU _ (by simp [Op.vars])) hf) (h.rd j g (hU _ (by simp [Op.vars])) hg))
      fun _ _ _ he => he
  | parity i =>
    refine Ok_pointer fun f hf => ?_
    exact keep (parity_ok hb (h.rd i f (hU _ (by simp [Op.vars])) hf)) fun _ _ _ he => he
  | legendre i =>
    refine Ok_pointer fun f hf => ?_
    exact keep (legendre_ok hb (h.rd i f (hU _ (by simp [Op.vars])) hf)) fun _ _ _ he => he
  | serialize i =>
    refine Ok_pointer fun f hf => ?_
    exact keep (serialize_ok hb (h.rd i f (hU _ (by simp [Op.vars])) hf)) fun _ _ _ he => he
  | sqrt i => exact absurd rfl (hq i)
  | isNil i =>
    rw [opCalls]
    cases e.frs[i]? with
    | none => trivial
    | some f => exact h

theorem calls_ok : ∀ (prog : Prog Op Out) {m : Mem} {e : Env}, Base F n nf m → EnvOk F U C m e →
    (∀ op ∈ made prog e m, ∀ v ∈ op.vars, U v) → (∀ op ∈ made prog e m, ∀ v ∈ op.changed, C v) →
    NoSqrt (made prog e m) → (calls prog e).Ok F (fun r m' => Base F n nf m' ∧ EnvOk F U C m' r.1) m
  | .stop, _, _, hb, h, _, _, _ => ⟨hb, h⟩
  | .call op next, m, e, hb, h, hU, hC, hq => by
    have ho : op ∈ made (.call op next) e m := by rw [made]; exact .head _
    refine Ok_seq hb (Ok_ran _ _ (op_ok hb h (hU op ho) (hC op ho) (hq op ho)))
      fun r m1 h1 hs1 hb1 => ?_
    have hm := made_call (next := next) ((opCalls_run e m op).symm.trans h1.2)
    rw [hm] at hU hC hq
    refine Ok_seq hb1 (calls_ok (next r.2) hb1 h1.1 (fun o ho => hU o (.tail _ ho)) (fun o ho => hC o (.tail _ ho))
      fun o ho => hq o (.tail _ ho)) fun r' m2 h2 _ _ => h2

end

theorem Ok_run {α : Type} {F : Fp} {Q : α → Mem → Prop} : ∀ (x : M α) (m : Mem), x.Ok F Q m → ∀ r, x.run m = some r → Q r.1 r.2 := by
  intro x
  induction x with
  | ret a => intro m h r hr; cases hr; exact h
  | panic => intro m h r hr; cases hr
  | readCell p k ih => exact fun m h => ih _ m h.2
  | writeCell p v k ih => exact fun m h => ih _ h.2
  | readFr p k ih => exact fun m h => ih _ m h.2
  | writeFr p v k ih => exact fun m h => ih _ h.2
  | newCell v k ih => exact fun m h => ih _ _ h
  | newFr v k ih => exact fun m h => ih _ _ h.2

/-! ## One access -/

/-- The next access of a call that runs alone: what is left of it, and the memory after it. -/
def M.next {α : Type} : M α → Mem → M α × Mem
  | .ret a, m => (.ret a, m)
  | .panic, m => (.panic, m)
  | .readCell p k, m => (k (m.cell p), m)
  | .writeCell p v k, m => (k, m.set p v)
  | .readFr f k, m => (k (m.fr f), m)
  | .writeFr f p k, m => (k, m.setN f p)
  | .newCell v k, m => (k (m.alloc v).1, (m.alloc v).2)
  | .newFr p k, m => (k (m.allocFr p).1, (m.allocFr p).2)

/-- The number of accesses of a call that runs alone. -/
def M.steps {α : Type} : M α → Mem → Nat
  | .ret _, _ => 0
  | .panic, _ => 0
  | .readCell p k, m => (k (m.cell p)).steps m + 1
  | .writeCell p v k, m => k.steps (m.set p v) + 1
  | .readFr f k, m => (k (m.fr f)).steps m + 1
  | .writeFr f p k, m => k.steps (m.setN f p) + 1
  | .newCell v k, m => (k (m.alloc v).1).steps (m.alloc v).2 + 1
  | .newFr p k, m => (k (m.allocFr p).1).steps (m.allocFr p).2 + 1

section
variable {α : Type} {F : Fp} {Q : α → Mem → Prop}

theorem next_ok (x : M α) (m : Mem) (h : x.Ok F Q m) : (x.next m).1.Ok F Q (x.next m).2 := by
  cases x with
  | ret a => exact h
  | panic => exact h
  | readCell p k => exact h.2
  | writeCell p v k => exact h.2
  | readFr f k => exact h.2
  | writeFr f p k => exact h.2
  | newCell v k => exact h
  | newFr p k => exact h.2

theorem next_run (x : M α) (m : Mem) : (x.next m).1.run (x.next m).2 = x.run m := by cases x <;> rfl

theorem next_steps (x : M α) (m : Mem) : (x.next m).1.steps (x.next m).2 = x.steps m - 1 := by cases x <;> rfl

theorem finished_of_steps (x : M α) (m : Mem) (h : x.steps m = 0) : x.Finished := by
  cases x with
  | ret a => trivial
  | panic => trivial
  | _ => exact absurd h (Nat.succ_ne_zero _)

theorem next_old (x : M α) (m : Mem) : m.nextCell ≤ (x.next m).2.nextCell ∧ m.nextFr ≤ (x.next m).2.nextFr := by
  cases x <;> first | exact ⟨le_rfl, le_rfl⟩ | exact ⟨Nat.le_succ _, le_rfl⟩ | exact ⟨le_rfl, Nat.le_succ _⟩

end

/-! ## Many goroutines -/

theorem setCell_cell (st : State) (o p : Nat) (v : FRRepr) (o' p' : Nat) :
    (st.setCell o p v).cell o' p' = if o' = o ∧ p' = p then v else st.cell o' p' := by
  show Function.update st.cell o (Function.update (st.cell o) p v) o' p' = _
  by_cases ho : o' = o
  · subst ho
    rw [Function.update_self]
    by_cases hp : p' = p
    · subst hp; rw [Function.update_self, if_pos ⟨rfl, rfl⟩]
    · rw [Function.update_of_ne hp, if_neg fun h => hp h.2]
  · rw [Function.update_of_ne ho, if_neg fun h => ho h.1]

theorem setFr_fr (st : State) (o f : Nat) (v : Nat × Nat) (o' f' : Nat) :
    (st.setFr o f v).fr o' f' = if o' = o ∧ f' = f then v else st.fr o' f' := by
  show Function.update st.fr o (Function.update (st.fr o) f v) o' f' = _
  by_cases ho : o' = o
  · subst ho
    rw [Function.update_self]
    by_cases hp : f' = f
    · subst hp; rw [Function.update_self, if_pos ⟨rfl, rfl⟩]
    · rw [Function.update_of_ne hp, if_neg fun h => hp h.2]
  · rw [Function.update_of_ne ho, if_neg fun h => ho h.1]

/-- What goroutine `t` may read is as in the memory `A`. -/
structure View (st : State) (t : Nat) (F : Fp) (A : Mem) : Prop where
  cells : ∀ p, F.RC p → st.cell (st.owner t p) p = A.cell p
  frs : ∀ f, F.RS f → f < A.nextFr → st.fr (st.ownerFr t f) f = (st.owner t (A.fr f), A.fr f)
  next : st.next t = A.nextCell
  nextFr : st.nextFr t = A.nextFr

/-- What one may write, the other may not read. -/
structure Disj (old oldFr : Nat) (F G : Fp) : Prop where
  cells : ∀ p < old, F.WC p → ¬ G.RC p
  frs : ∀ f < oldFr, F.WS f → ¬ G.RS f

theorem access_old (st : State) (t : Nat) (x : M (Env × List Out)) :
    (st.access t x).2.old = st.old ∧ (st.access t x).2.oldFr = st.oldFr := by cases x <;> exact ⟨rfl, rfl⟩

section
variable {st : State} {t : Nat} {F : Fp} {A : Mem} {Q : Env × List Out → Mem → Prop}

theorem access_self {x : M (Env × List Out)} (v : View st t F A) (hx : x.Ok F Q A) (ho : st.old ≤ A.nextCell)
    (hf : st.oldFr ≤ A.nextFr) : (st.access t x).1 = (x.next A).1 ∧ View (st.access t x).2 t F (x.next A).2 := by
  cases x with
  | ret a => exact ⟨rfl, v⟩
  | panic => exact ⟨rfl, v⟩
  | readCell p k =>
    refine ⟨?_, v⟩
    show k (st.cell (st.owner t p) p) = k (A.cell p)
    rw [v.cells p hx.1]
  | writeCell p w k =>
    refine ⟨rfl, fun p' hp' => ?_, v.frs, v.next, v.nextFr⟩
    show (st.setCell (st.owner t p) p w).cell (st.owner t p') p' = Function.update A.cell p w p'
    rw [setCell_cell, Function.update_apply]
    by_cases h : p' = p
    · subst h; rw [if_pos ⟨rfl, rfl⟩, if_pos rfl]
    · rw [if_neg fun hh => h hh.2, if_neg h]; exact v.cells p' hp'
  | readFr f k =>
    refine ⟨?_, v⟩
    show (if (st.fr (st.ownerFr t f) f).1 = st.owner t (st.fr (st.ownerFr t f) f).2 then
      k (st.fr (st.ownerFr t f) f).2 else .panic) = k (A.fr f)
    rw [v.frs f hx.1.1 hx.1.2, if_pos rfl]
  | writeFr f p k =>
    refine ⟨rfl, v.cells, fun f' hf' hl' => ?_, v.next, v.nextFr⟩
    show (st.setFr (st.ownerFr t f) f (st.owner t p, p)).fr (st.ownerFr t f') f' =
      (st.owner t (Function.update A.fr f p f'), Function.update A.fr f p f')
    rw [setFr_fr, Function.update_apply]
    by_cases h : f' = f
    · subst h; rw [if_pos ⟨rfl, rfl⟩, if_pos rfl]
    · rw [if_neg fun hh => h hh.2, if_neg h]; exact v.frs f' hf' hl'
  | newCell w k =>
    refine ⟨?_, fun p' hp' => ?_, v.frs, ?_, v.nextFr⟩
    · show k (st.next t) = k A.nextCell
      rw [v.next]
    · show (st.setCell (t + 1) (st.next t) w).cell (st.owner t p') p' = Function.update A.cell A.nextCell w p'
      rw [setCell_cell, Function.update_apply, v.next]
      by_cases h : p' = A.nextCell
      · subst h; rw [if_pos ⟨if_neg (not_lt.mpr ho), rfl⟩, if_pos rfl]
      · rw [if_neg fun hh => h hh.2, if_neg h]; exact v.cells p' hp'
    · show Function.update st.next t (st.next t + 1) t = A.nextCell + 1
      rw [Function.update_self, v.next]
  | newFr p k =>
    refine ⟨?_, v.cells, fun f' hf' hl' => ?_, v.next, ?_⟩
    · show k (st.nextFr t) = k A.nextFr
      rw [v.nextFr]
    · show (st.setFr (t + 1) (st.nextFr t) (st.owner t p, p)).fr (st.ownerFr t f') f' =
        (st.owner t (Function.update A.fr A.nextFr p f'), Function.update A.fr A.nextFr p f')
      rw [setFr_fr, Function.update_apply, v.nextFr]
      by_cases h : f' = A.nextFr
      · subst h; rw [if_pos ⟨if_neg (not_lt.mpr hf), rfl⟩, if_pos rfl]
      · rw [if_neg fun hh => h hh.2, if_neg h]
        exact v.frs f' hf' (lt_of_le_of_ne (Nat.lt_succ_iff.mp hl') h)
    · show Function.update st.nextFr t (st.nextFr t + 1) t = A.nextFr + 1
      rw [Function.update_self, v.nextFr]

theorem owner_eq {t u p : Nat} (htu : t ≠ u) (h : st.owner t p = st.owner u p) : p < st.old := by
  by_contra hp
  rw [State.owner, State.owner, if_neg hp, if_neg hp] at h
  exact htu (Nat.succ.inj h)

theorem ownerFr_eq {t u f : Nat} (htu : t ≠ u) (h : st.ownerFr t f = st.ownerFr u f) : f < st.oldFr := by
  by_contra hp
  rw [State.ownerFr, State.ownerFr, if_neg hp, if_neg hp] at h
  exact htu (Nat.succ.inj h)

theorem owner_ne {t u p : Nat} (htu : t ≠ u) : st.owner t p ≠ u + 1 := by
  unfold State.owner; split
  · exact (Nat.succ_ne_zero u).symm
  · exact fun h => htu (Nat.succ.inj h)

theorem ownerFr_ne {t u f : Nat} (htu : t ≠ u) : st.ownerFr t f ≠ u + 1 := by
  unfold State.ownerFr; split
  · exact (Nat.succ_ne_zero u).symm
  · exact fun h => htu (Nat.succ.inj h)

theorem access_other {u : Nat} {G : Fp} {B : Mem} {P : Env × List Out → Mem → Prop} {x : M (Env × List Out)}
    (htu : t ≠ u) (v : View st t F A) (hx : x.Ok G P B) (hd : Disj st.old st.oldFr G F) :
    View (st.access u x).2 t F A := by
  cases x with
  | ret a => exact v
  | panic => exact v
  | readCell p k => exact v
  | writeCell p w k =>
    refine ⟨fun p' hp' => ?_, v.frs, v.next, v.nextFr⟩
    show (st.setCell (st.owner u p) p w).cell (st.owner t p') p' = A.cell p'
    rw [setCell_cell, if_neg, v.cells p' hp']
    rintro ⟨h1, rfl⟩
    exact hd.cells _ (owner_eq htu h1) hx.1 hp'
  | readFr f k => exact v
  | writeFr f p k =>
    refine ⟨v.cells, fun f' hf' hl' => ?_, v.next, v.nextFr⟩
    show (st.setFr (st.ownerFr u f) f (st.owner u p, p)).fr (st.ownerFr t f') f' = _
    rw [setFr_fr, if_neg, v.frs f' hf' hl']; rfl
    rintro ⟨h1, rfl⟩
    exact hd.frs _ (ownerFr_eq htu h1) hx.1.1 hf'
  | newCell w k =>
    refine ⟨fun p' hp' => ?_, v.frs, ?_, v.nextFr⟩
    · show (st.setCell (u + 1) (st.next u) w).cell (st.owner t p') p' = A.cell p'
      rw [setCell_cell, if_neg fun h => owner_ne htu h.1, v.cells p' hp']
    · show Function.update st.next u (st.next u + 1) t = _
      rw [Function.update_of_ne htu, v.next]
  | newFr p k =>
    refine ⟨v.cells, fun f' hf' hl' => ?_, v.next, ?_⟩
    · show (st.setFr (u + 1) (st.nextFr u) (st.owner u p, p)).fr (st.ownerFr t f') f' = _
      rw [setFr_fr, if_neg fun h => ownerFr_ne htu h.1, v.frs f' hf' hl']; rfl
    · show Function.update st.nextFr u (st.nextFr u + 1) t = _
      rw [Function.update_of_ne htu, v.nextFr]

end

/-- Goroutine `t`, started as `x0` on `m0`, has `x` left and is where it would be alone with the memory `A`, after `c`
accesses. -/
structure Sim (F : Nat → Fp) (Q : Nat → Env × List Out → Mem → Prop) (m0 : Mem) (st : State) (t : Nat)
    (x0 x : M (Env × List Out)) (A : Mem) (c : Nat) : Prop where
  ok : x.Ok (F t) (Q t) A
  run : x.run A = x0.run m0
  steps : x.steps A = x0.steps m0 - c
  view : View st t (F t) A
  old : m0.nextCell ≤ A.nextCell
  oldFr : m0.nextFr ≤ A.nextFr

/-- All goroutines are where they would be alone. -/
structure Good (F : Nat → Fp) (Q : Nat → Env × List Out → Mem → Prop) (m0 : Mem) (x0 : List (M (Env × List Out)))
    (sch : List Nat) (st : State) : Prop where
  old : st.old = m0.nextCell
  oldFr : st.oldFr = m0.nextFr
  len : st.threads.length = x0.length
  sim : ∀ t x y, x0[t]? = some y → st.threads[t]? = some x → ∃ A, Sim F Q m0 st t y x A (sch.count t)

section
variable {F : Nat → Fp} {Q : Nat → Env × List Out → Mem → Prop} {m0 : Mem} {x0 : List (M (Env × List Out))}
  {sch : List Nat} {st : State}

theorem Good.step (hd : ∀ t u, t ≠ u → Disj m0.nextCell m0.nextFr (F u) (F t)) (h : Good F Q m0 x0 sch st) (u : Nat) :
    Good F Q m0 x0 (sch ++ [u]) (st.step u) := by
  unfold State.step
  cases hu : st.threads[u]? with
  | none =>
    refine ⟨h.old, h.oldFr, h.len, fun t x y hy hx => ?_⟩
    have htu : u ≠ t := by rintro rfl; rw [hu] at hx; cases hx
    rw [List.count_append, List.count_singleton, if_neg (by simpa using htu), Nat.add_zero]
    exact h.sim t x y hy hx
  | some z =>
    have hlt : u < st.threads.length := (List.getElem?_eq_some_iff.mp hu).1
    have hao := access_old st u z
    refine ⟨hao.1.trans h.old, hao.2.trans h.oldFr, by rw [List.length_set]; exact h.len, fun t x y hy hx => ?_⟩
    rw [List.count_append, List.count_singleton]
    dsimp only at hx
    obtain ⟨w, hw⟩ : ∃ w, x0[u]? = some w := ⟨_, List.getElem?_eq_getElem (h.len ▸ hlt)⟩
    obtain ⟨B, hB⟩ := h.sim u z w hw hu
    by_cases htu : t = u
    · subst htu
      rw [List.getElem?_set_self hlt] at hx
      cases hw.symm.trans hy
      obtain ⟨e1, e2⟩ := access_self hB.view hB.ok (h.old ▸ hB.old) (h.oldFr ▸ hB.oldFr)
      cases hx
      refine ⟨(z.next B).2, e1 ▸ next_ok z B hB.ok, by rw [e1, next_run]; exact hB.run, ?_, ?_,
        hB.old.trans (next_old z B).1, hB.oldFr.trans (next_old z B).2⟩
      · rw [e1, next_steps, hB.steps, if_pos (by simp)]; omega
      · exact ⟨e2.cells, e2.frs, e2.next, e2.nextFr⟩
    · rw [List.getElem?_set_ne (Ne.symm htu)] at hx
      obtain ⟨A, hA⟩ := h.sim t x y hy hx
      have hv := access_other htu hA.view hB.ok (h.old ▸ h.oldFr ▸ hd t u htu)
      rw [if_neg (by simpa using Ne.symm htu), Nat.add_zero]
      exact ⟨A, hA.ok, hA.run, hA.steps, ⟨hv.cells, hv.frs, hv.next, hv.nextFr⟩, hA.old, hA.oldFr⟩

theorem Good.run (hd : ∀ t u, t ≠ u → Disj m0.nextCell m0.nextFr (F u) (F t)) (h : Good F Q m0 x0 [] st)
    (schedule : List Nat) : Good F Q m0 x0 schedule (st.run schedule) := by
  suffices ∀ (s : List Nat) (sch : List Nat) (st : State), Good F Q m0 x0 sch st → Good F Q m0 x0 (sch ++ s) (st.run s) from
    this schedule [] st h
  intro s
  induction s with
  | nil => intro sch st h; rw [List.append_nil]; exact h
  | cons u s ih =>
    intro sch st h
    have := ih (sch ++ [u]) (st.step u) (h.step hd u)
    rwa [List.append_assoc] at this

theorem Good.noRace (hd : ∀ t u, t ≠ u → Disj m0.nextCell m0.nextFr (F u) (F t))
    (hw : ∀ t p, (F t).WC p → (F t).RC p) (hws : ∀ t f, (F t).WS f → (F t).RS f)
    (h : Good F Q m0 x0 sch st) : ¬ st.Race := by
  rintro ⟨t, u, x, y, a, htu, hx, hy, h1, h2⟩
  obtain ⟨x', hx'⟩ : ∃ w, x0[t]? = some w := ⟨_, List.getElem?_eq_getElem (h.len ▸ (List.getElem?_eq_some_iff.mp hx).1)⟩
  obtain ⟨y', hy'⟩ : ∃ w, x0[u]? = some w := ⟨_, List.getElem?_eq_getElem (h.len ▸ (List.getElem?_eq_some_iff.mp hy).1)⟩
  obtain ⟨A, hA⟩ := h.sim t x x' hx' hx
  obtain ⟨B, hB⟩ := h.sim u y y' hy' hy
  have hdis := hd u t (Ne.symm htu)
  rw [← h.old, ← h.oldFr] at hdis
  have okA := hA.ok
  have okB := hB.ok
  cases x with
  | writeCell p v k =>
    cases h1
    cases y with
    | writeCell q w l =>
      rcases h2 with h2 | h2
      · injection h2 with h2; injection h2 with h2 h3; subst h3
        exact hdis.cells _ (owner_eq htu h2.symm) okA.1 (hw _ _ okB.1)
      · cases h2
    | readCell q l =>
      rcases h2 with h2 | h2
      · cases h2
      · injection h2 with h2; injection h2 with h2 h3; subst h3
        exact hdis.cells _ (owner_eq htu h2.symm) okA.1 okB.1
    | writeFr q w l => rcases h2 with h2 | h2 <;> simp [State.writes, State.reads] at h2
    | readFr q l => rcases h2 with h2 | h2 <;> simp [State.writes, State.reads] at h2
    | _ => rcases h2 with h2 | h2 <;> cases h2
  | writeFr f p k =>
    cases h1
    cases y with
    | writeFr q w l =>
      rcases h2 with h2 | h2
      · injection h2 with h2; injection h2 with h2 h3; subst h3
        exact hdis.frs _ (ownerFr_eq htu h2.symm) okA.1.1 (hws _ _ okB.1.1)
      · cases h2
    | readFr q l =>
      rcases h2 with h2 | h2
      · cases h2
      · injection h2 with h2; injection h2 with h2 h3; subst h3
        exact hdis.frs _ (ownerFr_eq htu h2.symm) okA.1.1 okB.1.1
    | writeCell q w l => rcases h2 with h2 | h2 <;> simp [State.writes, State.reads] at h2
    | readCell q l => rcases h2 with h2 | h2 <;> simp [State.writes, State.reads] at h2
    | _ => rcases h2 with h2 | h2 <;> cases h2
  | _ => cases h1

end

end Bls.HeapFR
