import Verif.Proof.ThreadsFQ12
import Verif.Proof.History12
/-
Programs on `FQ12`: what they access, and goroutines that run them.
-/
namespace Bls.HeapFQ12
open Bls.Heap12 (Mem Op own memoryRun aFQ6Zero aFQ12One)

/-! ## The programs, access by access, are the programs -/

theorem pointer_run (o : Option Nat) (m : Mem) : (pointer o).run m = o.map fun p => (p, m) := by cases o <;> rfl

/-- What a program returns, in the order of `M.run`. -/
def swap (t : (Mem × List Nat) × List Bool) : Res × Mem := ((t.1.2, t.2), t.1.1)

theorem swap_mk (t : Bool × Mem) (e : List Nat) : swap ((t.2, e), [t.1]) = ((e, [t.1]), t.2) := rfl

section
variable {α : Type} {m : Mem} {o o' : Option Nat}

theorem run_one {x : Nat → M α} {k : Nat → α → Res} (y : Nat → α × Mem) {z : Nat → (Mem × List Nat) × List Bool}
    (hx : ∀ f, (x f).run m = some (y f)) (hz : ∀ f, swap (z f) = (k f (y f).1, (y f).2)) :
    (pointer o >>= fun f => x f >>= fun a => pure (k f a)).run m = (o.map z).map swap := by
  cases o with
  | none => rfl
  | some f =>
    show (x f >>= fun a => pure (k f a)).run m = some (swap (z f))
    rw [run_bind, hx, hz]; rfl

theorem run_two {x : Nat → Nat → M α} {k : α → Res} (y : Nat → Nat → α × Mem)
    {z : Nat → Nat → (Mem × List Nat) × List Bool} (hx : ∀ f g, (x f g).run m = some (y f g))
    (hz : ∀ f g, swap (z f g) = (k (y f g).1, (y f g).2)) :
    (pointer o >>= fun f => pointer o' >>= fun g => x f g >>= fun a => pure (k a)).run m =
      (o.bind fun f => o'.map (z f)).map swap := by
  cases o with
  | none => rfl
  | some f => exact run_one (y f) (k := fun _ => k) (hx f) (hz f)

theorem run_opt {x : M α} {k : α → Res} {y : Option (α × Mem)} {z : α × Mem → (Mem × List Nat) × List Bool}
    (hx : x.run m = y) (hz : ∀ a, swap (z a) = (k a.1, a.2)) :
    (x >>= fun a => pure (k a)).run m = (y.map z).map swap := by
  rw [run_bind, hx]
  cases y with
  | none => rfl
  | some a => show some (k a.1, a.2) = some (swap (z a)); rw [hz]

theorem run_oneOpt {x : Nat → M α} {k : α → Res} {y : Nat → Option (α × Mem)}
    {z : α × Mem → (Mem × List Nat) × List Bool} (hx : ∀ f, (x f).run m = y f) (hz : ∀ a, swap (z a) = (k a.1, a.2)) :
    (pointer o >>= fun f => x f >>= fun a => pure (k a)).run m = (o.bind fun f => (y f).map z).map swap := by
  cases o with
  | none => rfl
  | some f => exact run_opt (hx f) hz
end

theorem opCalls_run (e : List Nat) (m : Mem) (op : Op) : (opCalls e op).run m = (op.onMemory m e).map swap := by
  cases op with
  | conjugate i => rw [opCalls, Op.onMemory]; exact run_one _ (conjugate_run m) fun _ => rfl
  | double i => rw [opCalls, Op.onMemory]; exact run_one _ (double_run m) fun _ => rfl
  | neg i => rw [opCalls, Op.onMemory]; exact run_one _ (neg_run m) fun _ => rfl
  | square i => rw [opCalls, Op.onMemory]; exact run_one _ (square_run m) fun _ => rfl
  | frobenius i k => rw [opCalls, Op.onMemory]; exact run_one _ (fun f => frobeniusMap_run m f k) fun _ => rfl
  | inverse i => rw [opCalls, Op.onMemory]; exact run_one (Heap12.inverse m) (inverse_run m) fun f => swap_mk _ e
  | mulBy014 i c0 c1 c4 => rw [opCalls, Op.onMemory]; exact run_one _ (fun f => mulBy014_run m f c0 c1 c4) fun _ => rfl
  | add i j => rw [opCalls, Op.onMemory]; exact run_two _ (add_run m) fun _ _ => rfl
  | sub i j => rw [opCalls, Op.onMemory]; exact run_two _ (sub_run m) fun _ _ => rfl
  | mul i j => rw [opCalls, Op.onMemory]; exact run_two _ (mul_run m) fun _ _ => rfl
  | equals i j => rw [opCalls, Op.onMemory]; exact run_two _ (equals_run m) fun _ _ => rfl
  | isZero i => rw [opCalls, Op.onMemory]; exact run_one _ (isZero_run m) fun _ => rfl
  | rand a b => rw [opCalls, Op.onMemory]; exact run_opt (y := some (Heap12.rand m a b)) (z := fun t => ((t.2, e ++ [t.1]), [])) rfl fun _ => rfl
  | copy i => rw [opCalls, Op.onMemory]; exact run_one _ (copy_run m) fun _ => rfl
  | exp i k => rw [opCalls, Op.onMemory]; exact run_oneOpt (fun f => exp_run m f k) fun _ => rfl
  | millerLoop items => rw [opCalls, Op.onMemory]; exact run_opt (millerLoop_run m items) fun _ => rfl
  | finalExponentiation i => rw [opCalls, Op.onMemory]; exact run_oneOpt (finalExponentiation_run m) fun _ => rfl
  | pairing p q => rw [opCalls, Op.onMemory]; exact run_opt (pairing_run m p q) fun _ => rfl
  | compareTwoPairings p1 q1 p2 q2 => rw [opCalls, Op.onMemory]; exact run_opt (compareTwoPairings_run m p1 q1 p2 q2) fun _ => rfl

/-- The calls that the program makes in this memory. -/
def madeMem : Prog Op Bool → Mem → List Nat → List Op
  | .stop, _, _ => []
  | .call op next, m, e => op :: match op.onMemory m e with
    | none => []
    | some t => madeMem (next t.2) t.1.1 t.1.2

theorem madeMem_call {op : Op} {next : List Bool → Prog Op Bool} {m : Mem} {e : List Nat}
    {t : (Mem × List Nat) × List Bool} (h : op.onMemory m e = some t) :
    madeMem (.call op next) m e = op :: madeMem (next t.2) t.1.1 t.1.2 := by
  rw [madeMem, h]

theorem madeMem_eq : ∀ (prog : Prog Op Bool) {m : Mem} {e : List Nat} {s : List FQ12}, Heap12.Sim m e s →
    madeMem prog m e = made s prog
  | .stop, _, _, _, _ => rfl
  | .call op next, m, e, s, h => by
    rw [madeMem, made]
    rcases Heap12.op_agree h op with ⟨a, b⟩ | ⟨m', e', s', o, a, b, h', _⟩
    · rw [a, b]
    · rw [a, b]
      dsimp only
      rw [madeMem_eq (next o) h']

theorem calls_run : ∀ (prog : Prog Op Bool) (e : List Nat) (m : Mem),
    (calls prog e).run m = (memoryRun (madeMem prog m e) m e).map swap
  | .stop, _, _ => rfl
  | .call op next, e, m => by
    rw [calls, run_bind, opCalls_run]
    cases h : op.onMemory m e with
    | none => rw [madeMem, h, memoryRun, h]; rfl
    | some t =>
      rw [madeMem_call h, memoryRun, h, Option.map_some, Option.bind_some, Option.bind_some, run_bind]
      show ((calls (next t.2) t.1.2).run t.1.1).bind _ = _
      rw [calls_run (next t.2)]
      cases memoryRun (madeMem (next t.2) t.1.1 t.1.2) t.1.1 t.1.2 <;> rfl

/-! ## What a program accesses -/

/-- The variables for which `U` may be read, those for which `C` may be changed. -/
structure EnvOk (F : Fp) (U C : Nat → Prop) (m : Mem) (e : List Nat) : Prop where
  rd : ∀ i f, U i → e[i]? = some f → Rd F m f
  wr : ∀ i f, C i → 2 ≤ i → e[i]? = some f → Wr F m f
  len : 2 ≤ e.length

section
variable {F : Fp} {n nf : Nat} {m m' : Mem} {U C : Nat → Prop} {e : List Nat}

theorem EnvOk.stable (w : Wide F n nf) (h : EnvOk F U C m e) (hs : Stable F m m') : EnvOk F U C m' e :=
  ⟨fun i f hu hf => (h.rd i f hu hf).stable w hs, fun i f hu h2 hf => (h.wr i f hu h2 hf).stable hs, h.len⟩

theorem append_get {e e' : List Nat} {i f : Nat} (h : (e ++ e')[i]? = some f) : e[i]? = some f ∨ f ∈ e' := by
  by_cases hi : i < e.length
  · rw [List.getElem?_append_left hi] at h; exact .inl h
  · rw [List.getElem?_append_right (not_lt.mp hi)] at h; exact .inr (List.mem_of_getElem? h)

theorem EnvOk.append (w : Wide F n nf) (h : EnvOk F U C m e) {e' : List Nat} (hr : ∀ g ∈ e', Wr F m g) :
    EnvOk F U C m (e ++ e') :=
  ⟨fun i f hu hf => (append_get hf).elim (h.rd i f hu) (fun hh => (hr f hh).rd w),
    fun i f hu h2 hf => (append_get hf).elim (h.wr i f hu h2) (hr f),
    by rw [List.length_append]; exact h.len.trans (Nat.le_add_right _ _)⟩

theorem Ok_pointer {β : Type} {Q : β → Mem → Prop} {o : Option Nat} {k : Nat → M β}
    (hk : ∀ p, o = some p → (k p).Ok F Q m) : (pointer o >>= k).Ok F Q m := by
  cases o with
  | none => trivial
  | some p => exact hk p rfl

theorem op_ok (hb : Base F n nf m) (h : EnvOk F U C m e) {op : Op} (hU : ∀ v ∈ vars op, U v)
    (hC : ∀ v, op.receiver = some v → C v) : (opCalls e op).Ok F (fun r m' => EnvOk F U C m' r.1) m := by
  have keep : ∀ {α : Type} {x : M α} {P : α → Mem → Prop} {k : α → M Res} , x.Ok F P m →
      (∀ a m', P a m' → EnvOk F U C m' e → (k a).Ok F (fun r m' => EnvOk F U C m' r.1) m') →
      (x >>= k).Ok F (fun r m' => EnvOk F U C m' r.1) m := fun hx hk =>
    Ok_seq hb hx fun a m' hP hs _ => hk a m' hP (h.stable hb.wide hs)
  have W : ∀ {i f : Nat}, C i → own e i = some f → Wr F m f := fun hc hf =>
    h.wr _ _ hc (Bls.Heap12.own_some hf).1 (Bls.Heap12.own_some hf).2
  have R : ∀ {j f : Nat}, j ∈ vars op → e[j]? = some f → Rd F m f := fun hj hf => h.rd _ _ (hU _ hj) hf
  cases op with
  | conjugate i => exact Ok_pointer fun f hf => keep (conjugate_ok hb (W (hC _ rfl) hf)) fun _ _ _ he => he
  | double i => exact Ok_pointer fun f hf => keep (double_ok hb (W (hC _ rfl) hf)) fun _ _ _ he => he
  | neg i => exact Ok_pointer fun f hf => keep (neg_ok hb (W (hC _ rfl) hf)) fun _ _ _ he => he
  | square i => exact Ok_pointer fun f hf => keep (square_ok hb (W (hC _ rfl) hf)) fun _ _ _ he => he
  | frobenius i k => exact Ok_pointer fun f hf => keep (frobeniusMap_ok hb (W (hC _ rfl) hf) k) fun _ _ _ he => he
  | inverse i => exact Ok_pointer fun f hf => keep (inverse_ok hb (W (hC _ rfl) hf)) fun _ _ _ he => he
  | mulBy014 i c0 c1 c4 =>
    exact Ok_pointer fun f hf => keep (mulBy014_ok hb (W (hC _ rfl) hf) _ _ _) fun _ _ _ he => he
  | add i j =>
    exact Ok_pointer fun f hf => Ok_pointer fun g hg =>
      keep (add_ok hb (W (hC _ rfl) hf) (R (by simp [vars]) hg)) fun _ _ _ he => he
  | sub i j =>
    exact Ok_pointer fun f hf => Ok_pointer fun g hg =>
      keep (sub_ok hb (W (hC _ rfl) hf) (R (by simp [vars]) hg)) fun _ _ _ he => he
  | mul i j =>
    exact Ok_pointer fun f hf => Ok_pointer fun g hg =>
      keep (mul_ok hb (W (hC _ rfl) hf) (R (by simp [vars]) hg)) fun _ _ _ he => he
  | equals i j =>
    exact Ok_pointer fun f hf => Ok_pointer fun g hg =>
      keep (equals_ok hb (R (by simp [vars]) hf) (R (by simp [vars]) hg)) fun _ _ _ he => he
  | isZero i => exact Ok_pointer fun f hf => keep (isZero_ok hb (R (by simp [vars]) hf)) fun _ _ _ he => he
  | rand a b => exact keep (rand_ok hb a b) fun r m' hr he => he.append hb.wide (by simpa using hr)
  | copy i =>
    exact Ok_pointer fun f hf => keep (copy_ok hb (R (by simp [vars]) hf)) fun r m' hr he =>
      he.append hb.wide (by simpa using hr)
  | exp i k =>
    exact Ok_pointer fun f hf => keep (exp_ok hb (R (by simp [vars]) hf) k) fun r m' hr he =>
      he.append hb.wide (by simpa using hr)
  | millerLoop items => exact keep (millerLoop_ok hb items) fun r m' hr he => he.append hb.wide (by simpa using hr)
  | finalExponentiation i =>
    exact Ok_pointer fun f hf => keep (finalExponentiation_ok hb (R (by simp [vars]) hf)) fun r m' hr he =>
      he.append hb.wide fun g hg => hr g (Option.mem_toList.mp hg)
  | pairing p q =>
    exact keep (pairing_ok hb p q) fun r m' hr he => he.append hb.wide fun g hg => hr g (Option.mem_toList.mp hg)
  | compareTwoPairings p1 q1 p2 q2 => exact keep (compareTwoPairings_ok hb p1 q1 p2 q2) fun _ _ _ he => he

theorem calls_ok : ∀ (prog : Prog Op Bool) {m : Mem} {e : List Nat}, Base F n nf m → EnvOk F U C m e →
    (∀ op ∈ madeMem prog m e, ∀ v ∈ vars op, U v) → (∀ op ∈ madeMem prog m e, ∀ v, op.receiver = some v → C v) →
    (calls prog e).Ok F (fun r m' => EnvOk F U C m' r.1) m
  | .stop, _, _, _, h, _, _ => h
  | .call op next, m, e, hb, h, hU, hC => by
    have ho : op ∈ madeMem (.call op next) m e := by rw [madeMem]; exact .head _
    refine Ok_seq hb (Ok_ran _ _ (op_ok hb h (hU op ho) (hC op ho))) fun r m1 h1 hs1 hb1 => ?_
    obtain ⟨t, ht, hr⟩ := Option.map_eq_some_iff.mp ((opCalls_run e m op).symm.trans h1.2)
    rw [madeMem_call ht] at hU hC
    cases hr
    exact Ok_seq hb1 (calls_ok (next t.2) hb1 h1.1 (fun o ho => hU o (.tail _ ho)) (fun o ho => hC o (.tail _ ho)))
      fun r' m2 h2 _ _ => h2

end

theorem Ok_run {α : Type} {F : Fp} {Q : α → Mem → Prop} : ∀ (x : M α) (m : Mem), x.Ok F Q m → ∀ r, x.run m = some r → Q r.1 r.2 := by
  intro x
  induction x with
  | ret a => intro m h r hr; cases hr; exact h
  | panic => intro m h r hr; cases hr
  | readSix p k ih => exact fun m h => ih _ m h.2
  | writeSix p v k ih => exact fun m h => ih _ h.2
  | readTwelve p k ih => exact fun m h => ih _ m h.2
  | writeTwelve f p q k ih => exact fun m h => ih _ h.2
  | newSix v k ih => exact fun m h => ih _ _ h
  | newTwelve p q k ih => exact fun m h => ih _ _ h.2

/-! ## One access -/

/-- The next access of a call that runs alone: what is left of it, and the memory after it. -/
def M.next {α : Type} : M α → Mem → M α × Mem
  | .ret a, m => (.ret a, m)
  | .panic, m => (.panic, m)
  | .readSix p k, m => (k (m.six p), m)
  | .writeSix p v k, m => (k, m.set6 p v)
  | .readTwelve f k, m => (k (m.twelve f), m)
  | .writeTwelve f p q k, m => (k, put m f p q)
  | .newSix v k, m => (k (m.new6 v).1, (m.new6 v).2)
  | .newTwelve p q k, m => (k (m.new12 p q).1, (m.new12 p q).2)

/-- The number of accesses of a call that runs alone. -/
def M.steps {α : Type} : M α → Mem → Nat
  | .ret _, _ => 0
  | .panic, _ => 0
  | .readSix p k, m => (k (m.six p)).steps m + 1
  | .writeSix p v k, m => k.steps (m.set6 p v) + 1
  | .readTwelve f k, m => (k (m.twelve f)).steps m + 1
  | .writeTwelve f p q k, m => k.steps (put m f p q) + 1
  | .newSix v k, m => (k (m.new6 v).1).steps (m.new6 v).2 + 1
  | .newTwelve p q k, m => (k (m.new12 p q).1).steps (m.new12 p q).2 + 1

section
variable {α : Type} {F : Fp} {Q : α → Mem → Prop}

theorem next_ok (x : M α) (m : Mem) (h : x.Ok F Q m) : (x.next m).1.Ok F Q (x.next m).2 := by
  cases x with
  | ret a => exact h
  | panic => exact h
  | readSix p k => exact h.2
  | writeSix p v k => exact h.2
  | readTwelve f k => exact h.2
  | writeTwelve f p q k => exact h.2
  | newSix v k => exact h
  | newTwelve p q k => exact h.2

theorem next_run (x : M α) (m : Mem) : (x.next m).1.run (x.next m).2 = x.run m := by cases x <;> rfl

theorem next_steps (x : M α) (m : Mem) : (x.next m).1.steps (x.next m).2 = x.steps m - 1 := by cases x <;> rfl

theorem finished_of_steps (x : M α) (m : Mem) (h : x.steps m = 0) : x.Finished := by
  cases x with
  | ret a => trivial
  | panic => trivial
  | _ => exact absurd h (Nat.succ_ne_zero _)

theorem next_old (x : M α) (m : Mem) : m.next6 ≤ (x.next m).2.next6 ∧ m.next12 ≤ (x.next m).2.next12 := by
  cases x <;> first | exact ⟨le_rfl, le_rfl⟩ | exact ⟨Nat.le_succ _, le_rfl⟩ | exact ⟨le_rfl, Nat.le_succ _⟩

end

/-! ## Many goroutines -/

theorem setSix_six (st : State) (o p : Nat) (v : FQ6) (o' p' : Nat) :
    (st.setSix o p v).six o' p' = if o' = o ∧ p' = p then v else st.six o' p' := by
  show Function.update st.six o (Function.update (st.six o) p v) o' p' = _
  by_cases ho : o' = o
  · subst ho
    rw [Function.update_self]
    by_cases hp : p' = p
    · subst hp; rw [Function.update_self, if_pos ⟨rfl, rfl⟩]
    · rw [Function.update_of_ne hp, if_neg fun h => hp h.2]
  · rw [Function.update_of_ne ho, if_neg fun h => ho h.1]

theorem setTwelve_twelve (st : State) (o f : Nat) (v : (Nat × Nat) × (Nat × Nat)) (o' f' : Nat) :
    (st.setTwelve o f v).twelve o' f' = if o' = o ∧ f' = f then v else st.twelve o' f' := by
  show Function.update st.twelve o (Function.update (st.twelve o) f v) o' f' = _
  by_cases ho : o' = o
  · subst ho
    rw [Function.update_self]
    by_cases hp : f' = f
    · subst hp; rw [Function.update_self, if_pos ⟨rfl, rfl⟩]
    · rw [Function.update_of_ne hp, if_neg fun h => hp h.2]
  · rw [Function.update_of_ne ho, if_neg fun h => ho h.1]

/-- What goroutine `t` may read is as in the memory `A`. -/
structure View (st : State) (t : Nat) (F : Fp) (A : Mem) : Prop where
  sixes : ∀ p, F.RC p → st.six (st.owner t p) p = A.six p
  twelves : ∀ f, F.RS f → f < A.next12 → st.twelve (st.owner12 t f) f = ((st.owner t (A.c0 f), A.c0 f), (st.owner t (A.c1 f), A.c1 f))
  next : st.next t = A.next6
  next12 : st.next12 t = A.next12

/-- What one may write, the other may not read. -/
structure Disj (old old12 : Nat) (F G : Fp) : Prop where
  sixes : ∀ p < old, F.WC p → ¬ G.RC p
  twelves : ∀ f < old12, F.WS f → ¬ G.RS f

theorem access_old (st : State) (t : Nat) (x : M Res) :
    (st.access t x).2.old = st.old ∧ (st.access t x).2.old12 = st.old12 := by cases x <;> exact ⟨rfl, rfl⟩

section
variable {st : State} {t : Nat} {F : Fp} {A : Mem} {Q : Res → Mem → Prop}

theorem access_self {x : M Res} (v : View st t F A) (hx : x.Ok F Q A) (ho : st.old ≤ A.next6)
    (hf : st.old12 ≤ A.next12) : (st.access t x).1 = (x.next A).1 ∧ View (st.access t x).2 t F (x.next A).2 := by
  cases x with
  | ret a => exact ⟨rfl, v⟩
  | panic => exact ⟨rfl, v⟩
  | readSix p k =>
    refine ⟨?_, v⟩
    show k (st.six (st.owner t p) p) = k (A.six p)
    rw [v.sixes p hx.1]
  | writeSix p w k =>
    refine ⟨rfl, fun p' hp' => ?_, v.twelves, v.next, v.next12⟩
    show (st.setSix (st.owner t p) p w).six (st.owner t p') p' = Function.update A.six p w p'
    rw [setSix_six, Function.update_apply]
    by_cases h : p' = p
    · subst h; rw [if_pos ⟨rfl, rfl⟩, if_pos rfl]
    · rw [if_neg fun hh => h hh.2, if_neg h]; exact v.sixes p' hp'
  | readTwelve f k =>
    refine ⟨?_, v⟩
    show (if (st.twelve (st.owner12 t f) f).1.1 = st.owner t (st.twelve (st.owner12 t f) f).1.2 ∧
      (st.twelve (st.owner12 t f) f).2.1 = st.owner t (st.twelve (st.owner12 t f) f).2.2 then
      k ((st.twelve (st.owner12 t f) f).1.2, (st.twelve (st.owner12 t f) f).2.2) else .panic) = k (A.twelve f)
    rw [v.twelves f hx.1.1 hx.1.2, if_pos ⟨rfl, rfl⟩]; rfl
  | writeTwelve f p q k =>
    refine ⟨rfl, v.sixes, fun f' hf' hl' => ?_, v.next, v.next12⟩
    show (st.setTwelve (st.owner12 t f) f ((st.owner t p, p), (st.owner t q, q))).twelve (st.owner12 t f') f' =
      ((st.owner t (Function.update A.twelve f (p, q) f').1, (Function.update A.twelve f (p, q) f').1),
        (st.owner t (Function.update A.twelve f (p, q) f').2, (Function.update A.twelve f (p, q) f').2))
    rw [setTwelve_twelve, Function.update_apply]
    by_cases h : f' = f
    · subst h; rw [if_pos ⟨rfl, rfl⟩, if_pos rfl]
    · rw [if_neg fun hh => h hh.2, if_neg h]; exact v.twelves f' hf' hl'
  | newSix w k =>
    refine ⟨?_, fun p' hp' => ?_, v.twelves, ?_, v.next12⟩
    · show k (st.next t) = k A.next6
      rw [v.next]
    · show (st.setSix (t + 1) (st.next t) w).six (st.owner t p') p' = Function.update A.six A.next6 w p'
      rw [setSix_six, Function.update_apply, v.next]
      by_cases h : p' = A.next6
      · subst h; rw [if_pos ⟨if_neg (not_lt.mpr ho), rfl⟩, if_pos rfl]
      · rw [if_neg fun hh => h hh.2, if_neg h]; exact v.sixes p' hp'
    · show Function.update st.next t (st.next t + 1) t = A.next6 + 1
      rw [Function.update_self, v.next]
  | newTwelve p q k =>
    refine ⟨?_, v.sixes, fun f' hf' hl' => ?_, v.next, ?_⟩
    · show k (st.next12 t) = k A.next12
      rw [v.next12]
    · show (st.setTwelve (t + 1) (st.next12 t) ((st.owner t p, p), (st.owner t q, q))).twelve (st.owner12 t f') f' =
        ((st.owner t (Function.update A.twelve A.next12 (p, q) f').1, (Function.update A.twelve A.next12 (p, q) f').1),
          (st.owner t (Function.update A.twelve A.next12 (p, q) f').2, (Function.update A.twelve A.next12 (p, q) f').2))
      rw [setTwelve_twelve, Function.update_apply, v.next12]
      by_cases h : f' = A.next12
      · subst h; rw [if_pos ⟨if_neg (not_lt.mpr hf), rfl⟩, if_pos rfl]
      · rw [if_neg fun hh => h hh.2, if_neg h]
        exact v.twelves f' hf' (lt_of_le_of_ne (Nat.lt_succ_iff.mp hl') h)
    · show Function.update st.next12 t (st.next12 t + 1) t = A.next12 + 1
      rw [Function.update_self, v.next12]

theorem owner_eq {t u p : Nat} (htu : t ≠ u) (h : st.owner t p = st.owner u p) : p < st.old := by
  by_contra hp
  rw [State.owner, State.owner, if_neg hp, if_neg hp] at h
  exact htu (Nat.succ.inj h)

theorem owner12_eq {t u f : Nat} (htu : t ≠ u) (h : st.owner12 t f = st.owner12 u f) : f < st.old12 := by
  by_contra hp
  rw [State.owner12, State.owner12, if_neg hp, if_neg hp] at h
  exact htu (Nat.succ.inj h)

theorem owner_ne {t u p : Nat} (htu : t ≠ u) : st.owner t p ≠ u + 1 := by
  unfold State.owner; split
  · exact (Nat.succ_ne_zero u).symm
  · exact fun h => htu (Nat.succ.inj h)

theorem owner12_ne {t u f : Nat} (htu : t ≠ u) : st.owner12 t f ≠ u + 1 := by
  unfold State.owner12; split
  · exact (Nat.succ_ne_zero u).symm
  · exact fun h => htu (Nat.succ.inj h)

theorem access_other {u : Nat} {G : Fp} {B : Mem} {P : Res → Mem → Prop} {x : M Res}
    (htu : t ≠ u) (v : View st t F A) (hx : x.Ok G P B) (hd : Disj st.old st.old12 G F) :
    View (st.access u x).2 t F A := by
  cases x with
  | ret a => exact v
  | panic => exact v
  | readSix p k => exact v
  | writeSix p w k =>
    refine ⟨fun p' hp' => ?_, v.twelves, v.next, v.next12⟩
    show (st.setSix (st.owner u p) p w).six (st.owner t p') p' = A.six p'
    rw [setSix_six, if_neg, v.sixes p' hp']
    rintro ⟨h1, rfl⟩
    exact hd.sixes _ (owner_eq htu h1) hx.1 hp'
  | readTwelve f k => exact v
  | writeTwelve f p q k =>
    refine ⟨v.sixes, fun f' hf' hl' => ?_, v.next, v.next12⟩
    show (st.setTwelve (st.owner12 u f) f ((st.owner u p, p), (st.owner u q, q))).twelve (st.owner12 t f') f' = _
    rw [setTwelve_twelve, if_neg, v.twelves f' hf' hl']; rfl
    rintro ⟨h1, rfl⟩
    exact hd.twelves _ (owner12_eq htu h1) hx.1.1 hf'
  | newSix w k =>
    refine ⟨fun p' hp' => ?_, v.twelves, ?_, v.next12⟩
    · show (st.setSix (u + 1) (st.next u) w).six (st.owner t p') p' = A.six p'
      rw [setSix_six, if_neg fun h => owner_ne htu h.1, v.sixes p' hp']
    · show Function.update st.next u (st.next u + 1) t = _
      rw [Function.update_of_ne htu, v.next]
  | newTwelve p q k =>
    refine ⟨v.sixes, fun f' hf' hl' => ?_, v.next, ?_⟩
    · show (st.setTwelve (u + 1) (st.next12 u) ((st.owner u p, p), (st.owner u q, q))).twelve (st.owner12 t f') f' = _
      rw [setTwelve_twelve, if_neg fun h => owner12_ne htu h.1, v.twelves f' hf' hl']; rfl
    · show Function.update st.next12 u (st.next12 u + 1) t = _
      rw [Function.update_of_ne htu, v.next12]

end

/-- Goroutine `t`, started as `x0` on `m0`, has `x` left and is where it would be alone with the memory `A`, after `c`
accesses. -/
structure Sim (F : Nat → Fp) (Q : Nat → Res → Mem → Prop) (m0 : Mem) (st : State) (t : Nat)
    (x0 x : M Res) (A : Mem) (c : Nat) : Prop where
  ok : x.Ok (F t) (Q t) A
  run : x.run A = x0.run m0
  steps : x.steps A = x0.steps m0 - c
  view : View st t (F t) A
  old : m0.next6 ≤ A.next6
  old12 : m0.next12 ≤ A.next12

/-- All goroutines are where they would be alone. -/
structure Good (F : Nat → Fp) (Q : Nat → Res → Mem → Prop) (m0 : Mem) (x0 : List (M Res))
    (sch : List Nat) (st : State) : Prop where
  old : st.old = m0.next6
  old12 : st.old12 = m0.next12
  len : st.threads.length = x0.length
  sim : ∀ t x y, x0[t]? = some y → st.threads[t]? = some x → ∃ A, Sim F Q m0 st t y x A (sch.count t)

section
variable {F : Nat → Fp} {Q : Nat → Res → Mem → Prop} {m0 : Mem} {x0 : List (M Res)}
  {sch : List Nat} {st : State}

theorem Good.step (hd : ∀ t u, t ≠ u → Disj m0.next6 m0.next12 (F u) (F t)) (h : Good F Q m0 x0 sch st) (u : Nat) :
    Good F Q m0 x0 (sch ++ [u]) (st.step u) := by
  unfold State.step
  cases hu : st.threads[u]? with
  | none =>
    refine ⟨h.old, h.old12, h.len, fun t x y hy hx => ?_⟩
    have htu : u ≠ t := by rintro rfl; rw [hu] at hx; cases hx
    rw [List.count_append, List.count_singleton, if_neg (by simpa using htu), Nat.add_zero]
    exact h.sim t x y hy hx
  | some z =>
    have hlt : u < st.threads.length := (List.getElem?_eq_some_iff.mp hu).1
    have hao := access_old st u z
    refine ⟨hao.1.trans h.old, hao.2.trans h.old12, by rw [List.length_set]; exact h.len, fun t x y hy hx => ?_⟩
    rw [List.count_append, List.count_singleton]
    dsimp only at hx
    obtain ⟨w, hw⟩ : ∃ w, x0[u]? = some w := ⟨_, List.getElem?_eq_getElem (h.len ▸ hlt)⟩
    obtain ⟨B, hB⟩ := h.sim u z w hw hu
    by_cases htu : t = u
    · subst htu
      rw [List.getElem?_set_self hlt] at hx
      cases hw.symm.trans hy
      obtain ⟨e1, e2⟩ := access_self hB.view hB.ok (h.old ▸ hB.old) (h.old12 ▸ hB.old12)
      cases hx
      refine ⟨(z.next B).2, e1 ▸ next_ok z B hB.ok, by rw [e1, next_run]; exact hB.run, ?_, ?_,
        hB.old.trans (next_old z B).1, hB.old12.trans (next_old z B).2⟩
      · rw [e1, next_steps, hB.steps, if_pos (by simp)]; omega
      · exact ⟨e2.sixes, e2.twelves, e2.next, e2.next12⟩
    · rw [List.getElem?_set_ne (Ne.symm htu)] at hx
      obtain ⟨A, hA⟩ := h.sim t x y hy hx
      have hv := access_other htu hA.view hB.ok (h.old ▸ h.old12 ▸ hd t u htu)
      rw [if_neg (by simpa using Ne.symm htu), Nat.add_zero]
      exact ⟨A, hA.ok, hA.run, hA.steps, ⟨hv.sixes, hv.twelves, hv.next, hv.next12⟩, hA.old, hA.old12⟩

theorem Good.run (hd : ∀ t u, t ≠ u → Disj m0.next6 m0.next12 (F u) (F t)) (h : Good F Q m0 x0 [] st)
    (schedule : List Nat) : Good F Q m0 x0 schedule (st.run schedule) := by
  suffices ∀ (s : List Nat) (sch : List Nat) (st : State), Good F Q m0 x0 sch st → Good F Q m0 x0 (sch ++ s) (st.run s) from
    this schedule [] st h
  intro s
  induction s with
  | nil => intro sch st h; rw [List.append_nil]; exact h
  | cons u s ih =>
    intro sch st h
    have := ih (sch ++ [u]) (st.step u) (h.step hd u)
    rwa [List.append_assoc] at this

theorem Good.noRace (hd : ∀ t u, t ≠ u → Disj m0.next6 m0.next12 (F u) (F t))
    (hw : ∀ t p, (F t).WC p → (F t).RC p) (hws : ∀ t f, (F t).WS f → (F t).RS f)
    (h : Good F Q m0 x0 sch st) : ¬ st.Race := by
  rintro ⟨t, u, x, y, a, htu, hx, hy, h1, h2⟩
  obtain ⟨x', hx'⟩ : ∃ w, x0[t]? = some w := ⟨_, List.getElem?_eq_getElem (h.len ▸ (List.getElem?_eq_some_iff.mp hx).1)⟩
  obtain ⟨y', hy'⟩ : ∃ w, x0[u]? = some w := ⟨_, List.getElem?_eq_getElem (h.len ▸ (List.getElem?_eq_some_iff.mp hy).1)⟩
  obtain ⟨A, hA⟩ := h.sim t x x' hx' hx
  obtain ⟨B, hB⟩ := h.sim u y y' hy' hy
  have hdis := hd u t (Ne.symm htu)
  rw [← h.old, ← h.old12] at hdis
  have okA := hA.ok
  have okB := hB.ok
  cases x with
  | writeSix p v k =>
    cases h1
    cases y with
    | writeSix q w l =>
      rcases h2 with h2 | h2
      · injection h2 with h2; injection h2 with h2 h3; subst h3
        exact hdis.sixes _ (owner_eq htu h2.symm) okA.1 (hw _ _ okB.1)
      · cases h2
    | readSix q l =>
      rcases h2 with h2 | h2
      · cases h2
      · injection h2 with h2; injection h2 with h2 h3; subst h3
        exact hdis.sixes _ (owner_eq htu h2.symm) okA.1 okB.1
    | writeTwelve q w w' l => rcases h2 with h2 | h2 <;> simp [State.writes, State.reads] at h2
    | readTwelve q l => rcases h2 with h2 | h2 <;> simp [State.writes, State.reads] at h2
    | _ => rcases h2 with h2 | h2 <;> cases h2
  | writeTwelve f p q k =>
    cases h1
    cases y with
    | writeTwelve q w w' l =>
      rcases h2 with h2 | h2
      · injection h2 with h2; injection h2 with h2 h3; subst h3
        exact hdis.twelves _ (owner12_eq htu h2.symm) okA.1.1 (hws _ _ okB.1.1)
      · cases h2
    | readTwelve q l =>
      rcases h2 with h2 | h2
      · cases h2
      · injection h2 with h2; injection h2 with h2 h3; subst h3
        exact hdis.twelves _ (owner12_eq htu h2.symm) okA.1.1 okB.1.1
    | writeSix q w l => rcases h2 with h2 | h2 <;> simp [State.writes, State.reads] at h2
    | readSix q l => rcases h2 with h2 | h2 <;> simp [State.writes, State.reads] at h2
    | _ => rcases h2 with h2 | h2 <;> cases h2
  | _ => cases h1

end

end Bls.HeapFQ12
