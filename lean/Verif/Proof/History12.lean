import Verif.Proof.Heap12Pairing
import Verif.Spec.History12
/-
Programs on the memory of `FQ12` values do what they do on plain values.
-/
namespace Bls.Heap12
open Function

/-! ### Pairings -/

theorem run_none {α β : Type} {x : Run α} {k : α → Run β} {m : Mem} (h : x m = none) : (x >>= k) m = none := by
  change (x m).bind _ = _
  rw [h]; rfl

theorem lift_some {α : Type} {x : Option α} {a : α} (h : x = some a) (m : Mem) :
    (StateT.lift x : Run α) m = some (a, m) := by
  subst h; rfl
theorem lift_none {α : Type} {x : Option α} (h : x = none) (m : Mem) : (StateT.lift x : Run α) m = none := by
  subst h; rfl

theorem finalExponentiation_spec {m : Mem} (h : Inv m) {r0 : Nat} {v : FQ12} (a : At m r0 v) :
    (Bls.finalExponentiation v = none ∧ ∃ m', finalExponentiation r0 m = some (none, m') ∧ Keeps m m') ∨
    ∃ w, Bls.finalExponentiation v = some w ∧ ∃ f m', finalExponentiation r0 m = some (some f, m') ∧ Out m m' f w := by
  rcases hv : v.inverse.2 with _ | _
  · exact .inl ⟨fe_none hv, finalExponentiation_none h a hv⟩
  · obtain ⟨f, m', w, e1, e2, o⟩ := finalExponentiation_some h a hv
    exact .inr ⟨w, e2, f, m', e1, o⟩

theorem Out.of_keeps {m m' m'' : Mem} {f : Nat} {v : FQ12} (k : Keeps m m') (o : Out m' m'' f v) : Out m m'' f v :=
  ⟨k.trans o.keeps, k.next.trans o.fresh, o.lt, o.val⟩

theorem New.out {m m' : Mem} {f : Nat} {v : FQ12} (n : New m m' f v) : Out m m' f v :=
  ⟨n.keeps, le_of_eq n.addr.symm, n.lt, n.val⟩

theorem pairing_spec {m : Mem} (h : Inv m) (p : G1Projective) (q : G2Projective) :
    (Bls.pairing p q = none ∧ pairing p q m = none) ∨
    (Bls.pairing p q = some none ∧ ∃ m', pairing p q m = some (none, m') ∧ Keeps m m') ∨
    ∃ w, Bls.pairing p q = some (some w) ∧ ∃ f m', pairing p q m = some (some f, m') ∧ Out m m' f w := by
  unfold Bls.pairing pairing
  rcases hq : q.toAffine.toPrepared with _ | prep
  · exact .inl ⟨rfl, run_none (lift_none rfl m)⟩
  rw [run_bind (lift_some rfl m)]
  have ml := millerLoop_new h [(p.toAffine, prep)]
  rcases hm : Bls.millerLoop [(p.toAffine, prep)] with _ | v
  · rw [hm] at ml
    exact .inl ⟨by dsimp only; rw [hm]; rfl, run_none ml⟩
  rw [hm] at ml
  obtain ⟨f, m1, e, n⟩ := ml
  right
  rw [run_bind e]
  dsimp only
  rw [hm, Option.map_some]
  rcases finalExponentiation_spec n.inv n.self with ⟨e1, m', e2, k⟩ | ⟨w, e1, g, m', e2, o⟩
  · exact .inl ⟨by rw [e1], m', e2, n.keeps.trans k⟩
  · exact .inr ⟨w, by rw [e1], g, m', e2, o.of_keeps n.keeps⟩

theorem equals_eq {m : Mem} {f g : Nat} : equals m f g = (val m f).equals (val m g) := by
  unfold equals equals6 FQ12.equals val; rfl

theorem isZero_eq {m : Mem} (h : Inv m) {f : Nat} : isZero m f = (val m f).isZero := by
  unfold isZero isZero6 equals6 FQ12.isZero val
  rw [h.six0]
  unfold FQ6.isZero
  rfl

theorem compareTwoPairings_spec {m : Mem} (h : Inv m) (p1 : G1Projective) (q1 : G2Projective) (p2 : G1Projective)
    (q2 : G2Projective) :
    (Bls.compareTwoPairings p1 q1 p2 q2 = none ∧ compareTwoPairings p1 q1 p2 q2 m = none) ∨
    ∃ b, Bls.compareTwoPairings p1 q1 p2 q2 = some b ∧ ∃ m', compareTwoPairings p1 q1 p2 q2 m = some (b, m') ∧
      Keeps m m' := by
  unfold Bls.compareTwoPairings compareTwoPairings
  dsimp only
  rcases hq1 : q1.toAffine.toPrepared with _ | prep1
  · exact .inl ⟨rfl, run_none (lift_none rfl m)⟩
  rw [run_bind (lift_some rfl m), Option.bind_some]
  rcases hq2 : q2.toAffine.toPrepared with _ | prep2
  · exact .inl ⟨rfl, run_none (lift_none rfl m)⟩
  rw [run_bind (lift_some rfl m), Option.bind_some]
  have ml := millerLoop_new h [(p1.toAffine, prep1), (p2.neg.toAffine, prep2)]
  rcases hm : Bls.millerLoop [(p1.toAffine, prep1), (p2.neg.toAffine, prep2)] with _ | v
  · rw [hm] at ml
    exact .inl ⟨rfl, run_none ml⟩
  rw [hm] at ml
  obtain ⟨f, m1, e, n⟩ := ml
  rw [run_bind e, Option.bind_some]
  rcases finalExponentiation_spec n.inv n.self with ⟨e1, m', e2, k⟩ | ⟨w, e1, g, m', e2, o⟩
  · exact .inl ⟨by rw [e1]; rfl, by rw [run_bind e2]⟩
  · refine .inr ⟨w.equals FQ12.one, by rw [e1]; rfl, m', ?_, n.keeps.trans o.keeps⟩
    rw [run_bind e2]
    change some (equals m' g aFQ12One, m') = _
    rw [equals_eq, o.val, val_one o.keeps.inv]

/-! ### Programs -/

/-- The variables of a program: the two package variables, then objects of its own, no two the same. -/
structure Sim (m : Mem) (e : List Nat) (s : List FQ12) : Prop where
  inv : Inv m
  nodup : e.Nodup
  lt : ∀ a ∈ e, a < m.next12
  ge : ∀ i a, 2 ≤ i → e[i]? = some a → 2 ≤ a
  len : 2 ≤ e.length
  val : e.map (val m) = s

theorem Sim.get {m : Mem} {e : List Nat} {s : List FQ12} (h : Sim m e s) (i : Nat) : s[i]? = e[i]?.map (Heap12.val m) := by
  rw [← h.val, List.getElem?_map]

theorem Sim.own {m : Mem} {e : List Nat} {s : List FQ12} (h : Sim m e s) (i : Nat) :
    own s i = (own e i).map (Heap12.val m) := by
  unfold Heap12.own
  split
  · exact h.get i
  · rfl

theorem own_some {e : List Nat} {i a : Nat} (h : own e i = some a) : 2 ≤ i ∧ e[i]? = some a := by
  unfold own at h
  split at h
  · exact ⟨‹_›, h⟩
  · cases h

theorem Sim.upd {m m' : Mem} {e : List Nat} {s : List FQ12} (h : Sim m e s) {i f : Nat} (hi : e[i]? = some f) {v : FQ12}
    (u : Upd m m' f v) : Sim m' e (s.set i v) := by
  refine ⟨u.inv, h.nodup, fun a ha => by rw [u.next]; exact h.lt a ha, h.ge, h.len, ?_⟩
  apply List.ext_getElem?
  intro j
  rw [List.getElem?_map, List.getElem?_set, ← h.val, List.length_map]
  obtain ⟨hl, he⟩ := List.getElem?_eq_some_iff.mp hi
  by_cases hj : i = j
  · subst hj
    rw [if_pos rfl, if_pos hl, hi, Option.map_some, u.val]
  · rw [if_neg hj, List.getElem?_map]
    rcases hg : e[j]? with _ | g
    · rfl
    · rw [Option.map_some, Option.map_some]
      obtain ⟨hl', he'⟩ := List.getElem?_eq_some_iff.mp hg
      rw [u.others g (h.lt g (he' ▸ List.getElem_mem hl'))]
      intro hgf
      exact hj ((h.nodup.getElem_inj_iff).mp (by rw [he, he', hgf]))

theorem Sim.keeps {m m' : Mem} {e : List Nat} {s : List FQ12} (h : Sim m e s) (k : Keeps m m') : Sim m' e s := by
  refine ⟨k.inv, h.nodup, fun a ha => lt_of_lt_of_le (h.lt a ha) k.next, h.ge, h.len, ?_⟩
  rw [← h.val]
  exact List.map_congr_left fun a ha => k.val a (h.lt a ha)

theorem Sim.out {m m' : Mem} {e : List Nat} {s : List FQ12} (h : Sim m e s) {f : Nat} {v : FQ12} (o : Out m m' f v) :
    Sim m' (e ++ [f]) (s ++ [v]) := by
  have h' := h.keeps o.keeps
  refine ⟨o.keeps.inv, ?_, ?_, ?_, by rw [List.length_append]; have := h.len; omega, ?_⟩
  · rw [List.nodup_append]
    refine ⟨h.nodup, List.nodup_singleton f, ?_⟩
    intro a ha b hb
    rw [List.mem_singleton] at hb
    have := h.lt a ha
    have := o.fresh
    omega
  · intro a ha
    rw [List.mem_append, List.mem_singleton] at ha
    rcases ha with ha | rfl
    · exact h'.lt a ha
    · exact o.lt
  · intro i a hi ha
    by_cases hl : i < e.length
    · rw [List.getElem?_append_left hl] at ha; exact h.ge i a hi ha
    · rw [List.getElem?_append_right (by omega)] at ha
      have hm := List.mem_of_getElem? ha
      rw [List.mem_singleton] at hm
      have := h.inv.le12
      have := o.fresh
      omega
  · rw [List.map_append, h'.val, List.map_singleton, o.val]

/-- The two results agree: both fail, or both succeed in states that correspond and return the same booleans; the
`FQ6` of `m0` outside all objects are as they were. -/
def Agree (m0 : Mem) (a : Option ((Mem × List Nat) × List Bool)) (b : Option (List FQ12 × List Bool)) : Prop :=
  (a = none ∧ b = none) ∨ ∃ m e s o, a = some ((m, e), o) ∧ b = some (s, o) ∧ Sim m e s ∧ Frees m0 m

theorem op_agree {m : Mem} {e : List Nat} {s : List FQ12} (h : Sim m e s) (op : Op) :
    Agree m (op.onMemory m e) (op.onValues s) := by
  -- a call with one receiver
  have one : ∀ (i : Nat) (g : Nat → Mem) (v : FQ12 → FQ12),
      (∀ f, 2 ≤ f → f < m.next12 → Upd m (g f) f (v (val m f))) →
      Agree m ((own e i).map fun f => ((g f, e), [])) ((own s i).map fun x => (s.set i (v x), [])) := by
    intro i g v hu
    rw [h.own]
    rcases ho : own e i with _ | f
    · exact .inl ⟨rfl, rfl⟩
    · obtain ⟨h2, hi⟩ := own_some ho
      have u := hu f (h.ge i f h2 hi) (h.lt f (List.mem_of_getElem? hi))
      exact .inr ⟨_, _, _, _, rfl, rfl, h.upd hi u, u.free⟩
  have two : ∀ (i j : Nat) (g : Nat → Nat → Mem) (v : FQ12 → FQ12 → FQ12),
      (∀ f k, 2 ≤ f → f < m.next12 → k < m.next12 → Upd m (g f k) f (v (val m f) (val m k))) →
      Agree m ((own e i).bind fun f => e[j]?.map fun k => ((g f k, e), []))
        ((own s i).bind fun x => s[j]?.map fun y => (s.set i (v x y), [])) := by
    intro i j g v hu
    rw [h.own, h.get]
    rcases ho : own e i with _ | f
    · exact .inl ⟨rfl, rfl⟩
    rcases hj : e[j]? with _ | k
    · exact .inl ⟨rfl, rfl⟩
    obtain ⟨h2, hi⟩ := own_some ho
    have u := hu f k (h.ge i f h2 hi) (h.lt f (List.mem_of_getElem? hi)) (h.lt k (List.mem_of_getElem? hj))
    exact .inr ⟨_, _, _, _, rfl, rfl, h.upd hi u, u.free⟩
  have hi := h.inv
  cases op with
  | conjugate i => exact one i _ _ fun f a b => conjugate_upd hi a b
  | double i => exact one i _ _ fun f a b => double_upd hi a b
  | neg i => exact one i _ _ fun f a b => neg_upd hi a b
  | square i => exact one i _ _ fun f a b => square_upd hi a b
  | frobenius i k => exact one i _ (fun x => x.frobeniusMap k) fun f a b => frobeniusMap_upd hi a b k
  | mulBy014 i c0 c1 c4 => exact one i _ (fun x => x.mulBy014 c0 c1 c4) fun f a b => mulBy014_upd hi a b c0 c1 c4
  | add i j => exact two i j _ FQ12.add fun f k a b c => add_upd hi a b c
  | sub i j => exact two i j _ FQ12.sub fun f k a b c => sub_upd hi a b c
  | mul i j => exact two i j _ FQ12.mul fun f k a b c => mul_upd hi a b c
  | inverse i =>
    simp only [Op.onMemory, Op.onValues]
    rw [h.own]
    rcases ho : own e i with _ | f
    · exact .inl ⟨rfl, rfl⟩
    obtain ⟨h2, hf⟩ := own_some ho
    have u := inverse_upd hi (h.ge i f h2 hf) (h.lt f (List.mem_of_getElem? hf))
    rw [Option.map_some, Option.map_some, Option.map_some]
    generalize inverse m f = x at u ⊢
    generalize (val m f).inverse = y at u ⊢
    exact .inr ⟨_, _, _, [y.2], by rw [u.1], rfl, h.upd hf u.2, u.2.free⟩
  | equals i j =>
    simp only [Op.onMemory, Op.onValues]
    rw [h.get, h.get]
    rcases hi : e[i]? with _ | f
    · exact .inl ⟨rfl, rfl⟩
    rcases hj : e[j]? with _ | k
    · exact .inl ⟨rfl, rfl⟩
    exact .inr ⟨m, e, s, [(val m f).equals (val m k)], by rw [Option.bind_some, Option.map_some, equals_eq], rfl, h, .refl m⟩
  | isZero i =>
    simp only [Op.onMemory, Op.onValues]
    rw [h.get]
    rcases hj : e[i]? with _ | f
    · exact .inl ⟨rfl, rfl⟩
    exact .inr ⟨m, e, s, [(val m f).isZero], by rw [Option.map_some, isZero_eq hi], rfl, h, .refl m⟩
  | rand a b => exact .inr ⟨_, _, _, _, rfl, rfl, h.out (rand_new hi a b).out, (rand_new hi a b).free⟩
  | copy i =>
    simp only [Op.onMemory, Op.onValues]
    rw [h.get]
    rcases hj : e[i]? with _ | f
    · exact .inl ⟨rfl, rfl⟩
    have n := copy_new hi (h.lt f (List.mem_of_getElem? hj))
    exact .inr ⟨_, _, _, _, rfl, rfl, h.out n.out, n.free⟩
  | exp i n =>
    simp only [Op.onMemory, Op.onValues]
    rw [h.get]
    rcases hj : e[i]? with _ | f
    · exact .inl ⟨rfl, rfl⟩
    obtain ⟨g, m', e1, o⟩ := exp_new hi (h.lt f (List.mem_of_getElem? hj)) n
    rw [Option.bind_some, Option.map_some, Option.map_some, e1, Option.map_some]
    exact .inr ⟨_, _, _, _, rfl, rfl, h.out o.out, o.free⟩
  | millerLoop items =>
    simp only [Op.onMemory, Op.onValues]
    have ml := millerLoop_new hi items
    rcases hm : Bls.millerLoop items with _ | v
    · rw [hm] at ml
      exact .inl ⟨by rw [ml]; rfl, rfl⟩
    rw [hm] at ml
    obtain ⟨f, m1, e1, n⟩ := ml
    rw [e1, Option.map_some, Option.map_some]
    exact .inr ⟨_, _, _, _, rfl, rfl, h.out n.out, n.free⟩
  | finalExponentiation i =>
    simp only [Op.onMemory, Op.onValues]
    rw [h.get]
    rcases hj : e[i]? with _ | f
    · exact .inl ⟨rfl, rfl⟩
    rw [Option.bind_some, Option.map_some, Option.map_some]
    rcases finalExponentiation_spec (v := val m f) hi ⟨h.lt f (List.mem_of_getElem? hj), rfl⟩ with
      ⟨e1, m', e2, k⟩ | ⟨w, e1, g, m', e2, o⟩
    · rw [e1, e2, Option.map_some]
      refine .inr ⟨_, _, _, _, rfl, rfl, ?_, k.free⟩
      change Sim m' (e ++ []) (s ++ [])
      rw [List.append_nil, List.append_nil]
      exact h.keeps k
    · rw [e1, e2, Option.map_some]
      exact .inr ⟨_, _, _, _, rfl, rfl, h.out o, o.keeps.free⟩
  | pairing p q =>
    simp only [Op.onMemory, Op.onValues]
    rcases pairing_spec hi p q with ⟨e1, e2⟩ | ⟨e1, m', e2, k⟩ | ⟨w, e1, g, m', e2, o⟩
    · rw [e1, e2]; exact .inl ⟨rfl, rfl⟩
    · rw [e1, e2, Option.map_some, Option.map_some]
      refine .inr ⟨_, _, _, _, rfl, rfl, ?_, k.free⟩
      change Sim m' (e ++ []) (s ++ [])
      rw [List.append_nil, List.append_nil]
      exact h.keeps k
    · rw [e1, e2, Option.map_some, Option.map_some]
      exact .inr ⟨_, _, _, _, rfl, rfl, h.out o, o.keeps.free⟩
  | compareTwoPairings p1 q1 p2 q2 =>
    simp only [Op.onMemory, Op.onValues]
    rcases compareTwoPairings_spec hi p1 q1 p2 q2 with ⟨e1, e2⟩ | ⟨b, e1, m', e2, k⟩
    · rw [e1, e2]; exact .inl ⟨rfl, rfl⟩
    · rw [e1, e2, Option.map_some, Option.map_some]
      exact .inr ⟨_, _, _, _, rfl, rfl, h.keeps k, k.free⟩

theorem run_agree (ops : List Op) : ∀ {m : Mem} {e : List Nat} {s : List FQ12}, Sim m e s →
    Agree m (memoryRun ops m e) (valuesRun ops s) := by
  induction ops with
  | nil => intro m e s h; exact .inr ⟨m, e, s, [], rfl, rfl, h, .refl m⟩
  | cons op ops ih =>
    intro m e s h
    unfold memoryRun valuesRun
    rcases op_agree h op with ⟨a, b⟩ | ⟨m', e', s', o, a, b, h', f⟩
    · rw [a, b]; exact .inl ⟨rfl, rfl⟩
    · rw [a, b, Option.bind_some, Option.bind_some]
      dsimp only
      rcases ih h' with ⟨a, b⟩ | ⟨m2, e2, s2, o2, a, b, h2, f2⟩
      · rw [a, b]; exact .inl ⟨rfl, rfl⟩
      · rw [a, b]; exact .inr ⟨m2, e2, s2, o ++ o2, rfl, rfl, h2, f.trans f2⟩

theorem init_inv : Inv init := by
  refine ⟨by decide, by decide, rfl, rfl, ?_, ?_, ?_⟩
  · unfold FQ6.zero; rfl
  · unfold FQ6.one; rfl
  · intro f h1 h2
    have : init.next12 = 2 := rfl
    omega

theorem init_sim : Sim init [aFQ12Zero, aFQ12One] [FQ12.zero, FQ12.one] := by
  refine ⟨init_inv, by decide, by decide, ?_, by decide, ?_⟩
  · intro i a hi h
    rw [List.getElem?_eq_none (by simpa using hi)] at h
    cases h
  · rw [List.map_cons, List.map_singleton, val_zero init_inv, val_one init_inv]

theorem execute_eq (ops : List Op) : execute ops = valuesRun ops [FQ12.zero, FQ12.one] := by
  unfold execute
  rcases run_agree ops init_sim with ⟨a, b⟩ | ⟨m, e, s, o, a, b, h, _⟩
  · rw [a, b]; rfl
  · rw [a, b, Option.map_some]
    exact congrArg some (Prod.ext h.val rfl)

theorem valuesRun_append (ops : List Op) (op : Op) : ∀ s : List FQ12, valuesRun (ops ++ [op]) s =
    (valuesRun ops s).bind fun t => (op.onValues t.1).map fun u => (u.1, t.2 ++ u.2) := by
  induction ops with
  | nil =>
    intro s
    rw [List.nil_append, valuesRun, valuesRun, Option.bind_some]
    rcases op.onValues s with _ | u
    · rfl
    · rw [Option.bind_some, valuesRun, Option.map_some, Option.map_some, List.append_nil, List.nil_append]
  | cons o ops ih =>
    intro s
    rw [List.cons_append, valuesRun, valuesRun]
    rcases o.onValues s with _ | u
    · rfl
    · rw [Option.bind_some, Option.bind_some, ih]
      rcases valuesRun ops u.1 with _ | v
      · rfl
      · rw [Option.bind_some, Option.map_some, Option.bind_some]
        rcases op.onValues v.1 with _ | w
        · rfl
        · rw [Option.map_some, Option.map_some, Option.map_some, List.append_assoc]

theorem onValues_others {s t : List FQ12} {o : List Bool} {op : Op} (h : op.onValues s = some (t, o)) {j : Nat}
    (hj : j < s.length) (hr : op.receiver ≠ some j) : t[j]? = s[j]? := by
  have app : ∀ l : List FQ12, (s ++ l)[j]? = s[j]? := fun l => List.getElem?_append_left hj
  cases op <;> simp only [Op.onValues, Op.receiver, Option.map_eq_some_iff, Option.bind_eq_some_iff, Option.some.injEq,
    Prod.mk.injEq, ne_eq] at h hr
  case conjugate | double | neg | square | frobenius | inverse | mulBy014 =>
    obtain ⟨x, _, e, _⟩ := h
    rw [← e, List.getElem?_set_ne hr]
  case add | sub | mul =>
    obtain ⟨x, _, y, _, e, _⟩ := h
    rw [← e, List.getElem?_set_ne hr]
  case equals => obtain ⟨x, _, y, _, e, _⟩ := h; rw [e]
  case isZero | compareTwoPairings => obtain ⟨x, _, e, _⟩ := h; rw [e]
  case rand => rw [← h.1, app]
  case copy | exp | millerLoop | finalExponentiation | pairing =>
    obtain ⟨x, _, e, _⟩ := h
    rw [← e, app]

theorem execute_others {ops : List Op} {op : Op} {s t : List FQ12} {o p : List Bool}
    (h : execute ops = some (s, o)) (h' : execute (ops ++ [op]) = some (t, p)) {j : Nat}
    (hj : j < s.length) (hr : op.receiver ≠ some j) : t[j]? = s[j]? := by
  rw [execute_eq] at h h'
  rw [valuesRun_append, h, Option.bind_some, Option.map_eq_some_iff] at h'
  obtain ⟨u, e, e'⟩ := h'
  rw [Prod.mk.injEq] at e'
  rw [← e'.1]
  exact onValues_others (o := u.2) e hj hr

end Bls.Heap12
