import Verif.Proof.HeapKeys
/-
Programs on points, keys and signatures: running them in memory agrees with running them on values.
-/
namespace Bls.HeapPoints

/-- What holds between the calls of a program: the variables point at their values; the package
variables are unchanged; no two variables point at the same object, except `G2AffineZero`; and what a
key or signature holds is in no variable. -/
structure Inv (m : Mem) (e : List Nat) (s : List Val) : Prop where
  consts : Consts m
  view : e.map m.view = s.map some
  own : ∀ i p : Nat, 8 ≤ i → e[i]? = some p → 8 ≤ p ∨ p = 4
  inj : ∀ i j p : Nat, e[i]? = some p → e[j]? = some p → i = j ∨ p = 4
  inner : ∀ p q : Nat, p ∈ e → m.ptr p = some q → q ∉ e

theorem Inv.get {m : Mem} {e : List Nat} {s : List Val} (h : Inv m e s) {i p : Nat} (hp : e[i]? = some p) :
    ∃ v, s[i]? = some v ∧ m.view p = some v := by
  have := congrArg (·[i]?) h.view
  simp only [List.getElem?_map, hp, Option.map_some] at this
  cases hs : s[i]? with
  | none => rw [hs] at this; cases this
  | some v => rw [hs] at this; exact ⟨v, rfl, Option.some.inj this⟩

theorem Inv.getV {m : Mem} {e : List Nat} {s : List Val} (h : Inv m e s) {i : Nat} {v : Val} (hv : s[i]? = some v) :
    ∃ p, e[i]? = some p ∧ m.view p = some v := by
  have := congrArg (·[i]?) h.view
  simp only [List.getElem?_map, hv, Option.map_some] at this
  cases hs : e[i]? with
  | none => rw [hs] at this; cases this
  | some p => rw [hs] at this; exact ⟨p, rfl, Option.some.inj this⟩

theorem Inv.mem {m : Mem} {e : List Nat} {s : List Val} (h : Inv m e s) {p : Nat} (hp : p ∈ e) :
    ∃ v, m.view p = some v := by
  obtain ⟨i, hi⟩ := List.getElem?_of_mem hp
  obtain ⟨v, -, hv⟩ := h.get hi
  exact ⟨v, hv⟩

theorem Inv.lt {m : Mem} {e : List Nat} {s : List Val} (h : Inv m e s) {p : Nat} (hp : p ∈ e) : p < m.length := by
  obtain ⟨v, hv⟩ := h.mem hp
  exact lt_of_view hv

theorem Consts.eight_le {m : Mem} (c : Consts m) : 8 ≤ m.length := c.length_le

theorem Inv.append {m : Mem} {e : List Nat} {s : List Val} (h : Inv m e s) (l : Mem) : Inv (m ++ l) e s where
  consts := h.consts.append l
  view := by
    rw [← h.view]
    refine List.map_congr_left fun p hp => ?_
    obtain ⟨v, hv⟩ := h.mem hp
    rw [hv, view_append hv]
  own := h.own
  inj := h.inj
  inner p q hp hq := by
    rw [ptr_append (h.lt hp)] at hq
    exact h.inner p q hp hq

theorem Inv.new {m : Mem} {e : List Nat} {s : List Val} (h : Inv m e s) {l : Mem} {a : Nat} {v : Val}
    (ha : New m.length (m ++ l) a v) : Inv (m ++ l) (e ++ [a]) (s ++ [v]) where
  consts := h.consts.append l
  view := by rw [List.map_append, List.map_append, (h.append l).view, List.map_singleton, ha.1]; rfl
  own i p hi hp := by
    rw [List.getElem?_append] at hp
    split at hp
    · exact h.own i p hi hp
    · rw [List.getElem?_singleton] at hp
      split at hp
      · cases hp; exact ha.2.1.imp h.consts.eight_le.trans id
      · cases hp
  inj i j p hi hj := by
    have old : ∀ k, e[k]? = some a → a = 4 := fun k hk => by
      rcases ha.2.1 with h1 | h1
      · exact absurd (h.lt (List.mem_of_getElem? hk)) (Nat.not_lt.mpr h1)
      · exact h1
    rw [List.getElem?_append] at hi hj
    split at hi <;> split at hj
    · exact h.inj i j p hi hj
    · rw [List.getElem?_singleton] at hj
      split at hj
      · cases hj; exact .inr (old i hi)
      · cases hj
    · rw [List.getElem?_singleton] at hi
      split at hi
      · cases hi; exact .inr (old j hj)
      · cases hi
    · rw [List.getElem?_singleton] at hi hj
      split at hi <;> split at hj <;> first | (cases hi; done) | (cases hj; done) | omega
  inner p q hp hq hq' := by
    rw [List.mem_append, List.mem_singleton] at hp hq'
    rcases hp with hp | rfl
    · rw [ptr_append (h.lt hp)] at hq
      obtain ⟨v', hv'⟩ := h.mem hp
      have hlt := ptr_lt hv' hq
      rcases hq' with hq' | rfl
      · exact h.inner p q hp hq hq'
      · rcases ha.2.1 with h1 | h1
        · exact absurd hlt.1 (Nat.not_lt.mpr h1)
        · refine hlt.2 .zero ?_
          rw [h1]; exact view_g2a.mp h.consts.v4
    · have hn := ha.2.2 q hq
      rcases hq' with hq' | hq'
      · exact absurd (h.lt hq') (Nat.not_lt.mpr hn.1)
      · exact hn.2 hq'

theorem Inv.change {m : Mem} {e : List Nat} {s : List Val} (h : Inv m e s) {i p : Nat} {o : Obj} {v : Val}
    (hi : e[i]? = some p) (h8 : 8 ≤ p) (hv : Mem.view (m.set p o) p = some v)
    (ho : ∀ q, Mem.ptr (m.set p o) p = some q → q ∉ e) : Inv (m.set p o) (e.set i p) (s.set i v) := by
  have he : e.set i p = e := by
    refine List.ext_getElem? fun j => ?_
    by_cases hj : i = j
    · subst hj; rw [List.getElem?_set_self (List.getElem?_eq_some_iff.mp hi).1, hi]
    · rw [List.getElem?_set_ne hj]
  rw [he]
  refine ⟨h.consts.set h8 o, ?_, h.own, h.inj, ?_⟩
  · refine List.ext_getElem? fun j => ?_
    rw [List.getElem?_map, List.getElem?_map]
    cases hj : e[j]? with
    | none =>
      have := congrArg (·[j]?) h.view
      simp only [List.getElem?_map, hj, Option.map_none] at this
      have hs : s[j]? = none := by
        cases hs : s[j]? with
        | none => rfl
        | some v => rw [hs] at this; cases this
      rw [List.getElem?_eq_none (by rw [List.length_set]; exact List.getElem?_eq_none_iff.mp hs)]; rfl
    | some p' =>
      obtain ⟨v', hs, hv'⟩ := h.get hj
      by_cases hij : i = j
      · subst hij
        rw [hi] at hj; cases hj
        rw [List.getElem?_set_self (List.getElem?_eq_some_iff.mp hs).1]
        show some (Mem.view (m.set p o) p) = _
        rw [hv]; rfl
      · rw [List.getElem?_set_ne hij, hs]
        show some (Mem.view (m.set p o) p') = _
        rw [view_set hv' ?_ ?_]; rfl
        · rintro rfl
          rcases h.inj i j p' hi hj with h1 | h1
          · exact hij h1
          · omega
        · intro hq
          exact h.inner p' p (List.mem_of_getElem? hj) hq (List.mem_of_getElem? hi)
  · intro p' q hp' hq
    by_cases hpp : p' = p
    · subst hpp; exact ho q hq
    · rw [ptr_set hpp] at hq; exact h.inner p' q hp' hq

/-! ## One call -/

/-- The call in memory does what it does on values. -/
def Step (m : Mem) (e : List Nat) (s : List Val) (x : M (Effect Nat)) (r : Option (Effect Val)) : Prop :=
  match r with
  | none => x m = none
  | some f => ∃ g m', x m = some (g, m') ∧ g.outs = f.outs ∧ Inv m' (g.apply e) (f.apply s)

section step
variable {m : Mem} {e : List Nat} {s : List Val}

theorem Step.fail : Step m e s (lift none) none := rfl

theorem Step.ret (h : Inv m e s) {x : M Nat} {v : Val} (hx : Gives m x (some v) (New m.length)) :
    Step m e s (HeapPoints.ret x) (some (.new v)) := by
  obtain ⟨a, l, hx, ha⟩ := hx
  exact ⟨.new a, m ++ l, by rw [HeapPoints.ret, bind_apply, hx]; rfl, rfl, h.new ha⟩

theorem Step.retM (h : Inv m e s) {x : M Nat} {β : Type} {r : Option β} {k : β → Val}
    (hx : Gives m x (r.map k) (New m.length)) : Step m e s (HeapPoints.ret x) (r.map fun v => .new (k v)) := by
  cases r with
  | none => show HeapPoints.ret x m = none; rw [HeapPoints.ret, bind_apply, show x m = none from hx]; rfl
  | some v => exact Step.ret h hx

theorem Step.retOr (h : Inv m e s) {x : M (Option Nat)} {o : Option Val} (hx : Gives m x (some o) (NewOr m.length)) :
    Step m e s (HeapPoints.retOr x) (some (.newOr o)) := by
  obtain ⟨a, l, hx, ha⟩ := hx
  refine ⟨.newOr a, m ++ l, by rw [HeapPoints.retOr, bind_apply, hx]; rfl, ?_⟩
  cases a with
  | none =>
    cases o with
    | none => exact ⟨rfl, h.append l⟩
    | some v => exact ha.elim
  | some a =>
    cases o with
    | none => exact ha.elim
    | some v => exact ⟨rfl, h.new ha⟩

theorem Step.retBool (h : Inv m e s) {x : M Bool} {r : Option Bool} (hx : Gives m x r Same) :
    Step m e s (HeapPoints.retBool x) (r.map fun b => .out (.bool b)) := by
  cases r with
  | none => show HeapPoints.retBool x m = none; rw [HeapPoints.retBool, bind_apply, show x m = none from hx]; rfl
  | some b =>
    obtain ⟨a, l, hx, ha⟩ := hx
    cases ha
    exact ⟨.out (.bool _), m ++ l, by rw [HeapPoints.retBool, bind_apply, hx]; rfl, rfl, h.append l⟩

theorem Step.retBoolS (h : Inv m e s) {x : M Bool} {b : Bool} (hx : Gives m x (some b) Same) :
    Step m e s (HeapPoints.retBool x) (some (.out (.bool b))) := Step.retBool h hx

theorem Step.retBytes (h : Inv m e s) {x : M (List UInt8)} {b : List UInt8} (hx : Gives m x (some b) Same) :
    Step m e s (HeapPoints.retBytes x) (some (.out (.bytes b))) := by
  obtain ⟨a, l, hx, ha⟩ := hx
  cases ha
  exact ⟨.out (.bytes _), m ++ l, by rw [HeapPoints.retBytes, bind_apply, hx]; rfl, rfl, h.append l⟩

/-- A point written in place. -/
theorem Step.act (h : Inv m e s) {i p : Nat} {x : M Unit} {o : Obj} {v : Val} (hi : e[i]? = some p) (h8 : 8 ≤ p)
    (hx : x m = some ((), m.set p o)) (ho : o.plain = some v) :
    Step m e s (HeapPoints.act i p x) (some (.change i v)) := by
  have hp := h.lt (List.mem_of_getElem? hi)
  have hg : (m.set p o)[p]? = some o := List.getElem?_set_self hp
  refine ⟨.change i p, _, by rw [HeapPoints.act, bind_apply, hx]; rfl, rfl, ?_⟩
  refine h.change hi h8 (Obj.plain_view hg ho).1 fun q hq => ?_
  rw [(Obj.plain_view hg ho).2] at hq; cases hq

/-- An object and the value of a pointer to it. -/
inductive Shape (m : Mem) (p : Nat) : Obj → Val → Prop
  | g1a (v : G1Affine) (h : m.view p = some (.g1a v)) : Shape m p (.g1a v) (.g1a v)
  | g1p (v : G1Projective) (h : m.view p = some (.g1p v)) : Shape m p (.g1p v) (.g1p v)
  | g2a (v : G2Affine) (h : m.view p = some (.g2a v)) : Shape m p (.g2a v) (.g2a v)
  | g2p (v : G2Projective) (h : m.view p = some (.g2p v)) : Shape m p (.g2p v) (.g2p v)
  | msgs (v : List (List UInt8)) (h : m.view p = some (.msgs v)) : Shape m p (.msgs v) (.msgs v)
  | sig1 (q : Nat) (v : Bls.G1Pubs.Signature) (h : m.view p = some (.sig1 v)) : Shape m p (.sig1 q) (.sig1 v)
  | pub1 (q : Nat) (v : Bls.G1Pubs.PublicKey) (h : m.view p = some (.pub1 v)) : Shape m p (.pub1 q) (.pub1 v)
  | sig2 (q : Nat) (v : Bls.G2Pubs.Signature) (h : m.view p = some (.sig2 v)) : Shape m p (.sig2 q) (.sig2 v)
  | pub2 (q : Nat) (v : Bls.G2Pubs.PublicKey) (h : m.view p = some (.pub2 v)) : Shape m p (.pub2 q) (.pub2 v)

theorem shape {p : Nat} {v : Val} (h : m.view p = some v) : ∃ o, m[p]? = some o ∧ Shape m p o v := by
  cases v with
  | g1a v => exact ⟨_, view_g1a.mp h, .g1a v h⟩
  | g1p v => exact ⟨_, view_g1p.mp h, .g1p v h⟩
  | g2a v => exact ⟨_, view_g2a.mp h, .g2a v h⟩
  | g2p v => exact ⟨_, view_g2p.mp h, .g2p v h⟩
  | msgs v => exact ⟨_, view_msgs.mp h, .msgs v h⟩
  | sig1 v => obtain ⟨q, a, -⟩ := view_sig1.mp h; exact ⟨_, a, .sig1 q v h⟩
  | pub1 v => obtain ⟨q, a, -⟩ := view_pub1.mp h; exact ⟨_, a, .pub1 q v h⟩
  | sig2 v => obtain ⟨q, a, -⟩ := view_sig2.mp h; exact ⟨_, a, .sig2 q v h⟩
  | pub2 v => obtain ⟨q, a, -⟩ := view_pub2.mp h; exact ⟨_, a, .pub2 q v h⟩

theorem Step.congr {x y : M (Effect Nat)} {r : Option (Effect Val)} (hxy : x m = y m) (h : Step m e s y r) :
    Step m e s x r := by
  cases r with
  | none => exact hxy.trans h
  | some f => obtain ⟨g, m', hy, h⟩ := h; exact ⟨g, m', hxy.trans hy, h⟩

theorem Step.arg (h : Inv m e s) {i : Nat} {F : Nat × Obj → M (Effect Nat)} {G : Val → Option (Effect Val)}
    (H : ∀ p o v, e[i]? = some p → s[i]? = some v → Shape m p o v → Step m e s (F (p, o)) (G v)) :
    Step m e s (HeapPoints.arg e i >>= F) (s[i]?.bind G) := by
  cases hs : s[i]? with
  | none =>
    have he : e[i]? = none := by
      cases he : e[i]? with
      | none => rfl
      | some p => obtain ⟨v, hv, -⟩ := h.get he; rw [hs] at hv; cases hv
    show (HeapPoints.arg e i >>= F) m = none
    rw [bind_apply, HeapPoints.arg, he]; rfl
  | some v =>
    obtain ⟨p, hp, hv⟩ := h.getV hs
    obtain ⟨o, ho, hsh⟩ := shape hv
    refine Step.congr (y := F (p, o)) ?_ (H p o v hp hs hsh)
    rw [bind_apply, HeapPoints.arg, hp]; show (M.run (.read p _) m).bind _ = _; rw [run_read ho]; rfl

theorem Step.ownArg (h : Inv m e s) {i : Nat} {F : Nat × Obj → M (Effect Nat)} {G : Val → Option (Effect Val)}
    (H : ∀ p o v, 8 ≤ i → e[i]? = some p → s[i]? = some v → Shape m p o v → Step m e s (F (p, o)) (G v)) :
    Step m e s (HeapPoints.ownArg e i >>= F) ((HeapPoints.own s i).bind G) := by
  rw [HeapPoints.ownArg, HeapPoints.own]
  by_cases hi : 8 ≤ i
  · rw [if_pos hi, if_pos hi]; exact Step.arg h fun p o v => H p o v hi
  · rw [if_neg hi, if_neg hi]; rfl

/-- A type, in memory and on values. -/
structure Kind {β : Type} (is : Obj → Bool) (as : Val → Option β) (c : β → Val) : Prop where
  is_as : ∀ {m p o v}, Shape m p o v → is o = (as v).isSome
  eq : ∀ {v b}, as v = some b → v = c b

theorem kSig1 : Kind Obj.isSig1 Val.asSig1 .sig1 := ⟨fun h => by cases h <;> rfl, fun {v b} h => by
  cases v <;> first | (cases h; done) | (cases h; rfl)⟩
theorem kPub1 : Kind Obj.isPub1 Val.asPub1 .pub1 := ⟨fun h => by cases h <;> rfl, fun {v b} h => by
  cases v <;> first | (cases h; done) | (cases h; rfl)⟩
theorem kSig2 : Kind Obj.isSig2 Val.asSig2 .sig2 := ⟨fun h => by cases h <;> rfl, fun {v b} h => by
  cases v <;> first | (cases h; done) | (cases h; rfl)⟩
theorem kPub2 : Kind Obj.isPub2 Val.asPub2 .pub2 := ⟨fun h => by cases h <;> rfl, fun {v b} h => by
  cases v <;> first | (cases h; done) | (cases h; rfl)⟩
theorem kMsgs : Kind Obj.isMsgs Val.asMsgs .msgs := ⟨fun h => by cases h <;> rfl, fun {v b} h => by
  cases v <;> first | (cases h; done) | (cases h; rfl)⟩

section kind
variable {β : Type} {is : Obj → Bool} {as : Val → Option β} {c : β → Val}

theorem argOf_eq (h : Inv m e s) (k : Kind is as c) (i : Nat) :
    match s[i]?.bind as with
    | none => argOf is e i m = none
    | some b => ∃ p, argOf is e i m = some (p, m) ∧ m.view p = some (c b) := by
  cases hs : s[i]? with
  | none =>
    have he : e[i]? = none := by
      cases he : e[i]? with
      | none => rfl
      | some p => obtain ⟨v, hv, -⟩ := h.get he; rw [hs] at hv; cases hv
    show argOf is e i m = none
    rw [argOf, bind_apply, HeapPoints.arg, he]; rfl
  | some v =>
    obtain ⟨p, hp, hv⟩ := h.getV hs
    obtain ⟨o, ho, hsh⟩ := shape hv
    have ha : argOf is e i m = (if is o then pure p else lift none : M Nat) m := by
      rw [argOf, bind_apply, HeapPoints.arg, hp]; show (M.run (.read p _) m).bind _ = _; rw [run_read ho]; rfl
    rw [ha, k.is_as hsh, Option.bind_some]
    cases hb : as v with
    | none => rfl
    | some b => rw [k.eq hb] at hv; exact ⟨p, rfl, hv⟩

theorem Step.argOf (h : Inv m e s) (k : Kind is as c) {i : Nat} {F : Nat → M (Effect Nat)}
    {G : β → Option (Effect Val)} (H : ∀ p b, m.view p = some (c b) → Step m e s (F p) (G b)) :
    Step m e s (HeapPoints.argOf is e i >>= F) ((s[i]?.bind as).bind G) := by
  have := argOf_eq h k i
  cases hb : s[i]?.bind as with
  | none =>
    rw [hb] at this
    show (HeapPoints.argOf is e i >>= F) m = none
    rw [bind_apply, this]; rfl
  | some b =>
    rw [hb] at this
    obtain ⟨p, hp, hv⟩ := this
    exact Step.congr (y := F p) (by rw [bind_apply, hp]; rfl) (H p b hv)

theorem argsOf_eq (h : Inv m e s) (k : Kind is as c) : ∀ l : List Nat,
    match args as s l with
    | none => argsOf is e l m = none
    | some bs => ∃ ps, argsOf is e l m = some (ps, m) ∧ List.Forall₂ (fun p b => m.view p = some (c b)) ps bs
  | [] => ⟨[], rfl, .nil⟩
  | i :: l => by
    have h1 := argOf_eq h k i
    have h2 := argsOf_eq h k l
    rw [args, List.mapM_cons]
    cases hb : s[i]?.bind as with
    | none =>
      rw [hb] at h1
      show argsOf is e (i :: l) m = none
      rw [argsOf, bind_apply, h1]; rfl
    | some b =>
      rw [hb] at h1
      obtain ⟨p, hp, hv⟩ := h1
      change match (List.mapM (fun i => s[i]?.bind as) l).bind fun bs => some (b :: bs) with
        | none => _
        | some bs => _
      rw [args] at h2
      cases hbs : List.mapM (fun i => s[i]?.bind as) l with
      | none =>
        rw [hbs] at h2
        show argsOf is e (i :: l) m = none
        rw [argsOf, bind_apply, hp, Option.bind_some, bind_apply, h2]; rfl
      | some bs =>
        rw [hbs] at h2
        obtain ⟨ps, hps, hvs⟩ := h2
        exact ⟨p :: ps, by rw [argsOf, bind_apply, hp, Option.bind_some, bind_apply, hps]; rfl, .cons hv hvs⟩

theorem Step.argsOf (h : Inv m e s) (k : Kind is as c) {l : List Nat} {F : List Nat → M (Effect Nat)}
    {G : List β → Option (Effect Val)}
    (H : ∀ ps bs, List.Forall₂ (fun p b => m.view p = some (c b)) ps bs → Step m e s (F ps) (G bs)) :
    Step m e s (HeapPoints.argsOf is e l >>= F) ((args as s l).bind G) := by
  have := argsOf_eq h k l
  cases hb : args as s l with
  | none =>
    rw [hb] at this
    show (HeapPoints.argsOf is e l >>= F) m = none
    rw [bind_apply, this]; rfl
  | some b =>
    rw [hb] at this
    obtain ⟨p, hp, hv⟩ := this
    exact Step.congr (y := F p) (by rw [bind_apply, hp]; rfl) (H p b hv)

end kind

theorem own_ge {i p : Nat} (h : Inv m e s) (h8 : 8 ≤ i) (hi : e[i]? = some p) {v : Val} (hv : m.view p = some v)
    (hne : ∀ w, v ≠ .g2a w) : 8 ≤ p := by
  rcases h.own i p h8 hi with h1 | h1
  · exact h1
  · rw [h1, show m.view 4 = _ from h.consts.v4] at hv
    cases hv
    exact absurd rfl (hne _)

/-- `Aggregate`: the receiver holds a new point. -/
theorem Step.agg (h : Inv m e s) {i p : Nat} {x : M Unit} {o o' : Obj} {v : Val} (hi : e[i]? = some p) (h8 : 8 ≤ p)
    (hx : x m = some ((), (m ++ [o']).set p o)) (hv : Mem.view ((m ++ [o']).set p o) p = some v)
    (hq : ∀ q, Mem.ptr ((m ++ [o']).set p o) p = some q → q = m.length) :
    Step m e s (HeapPoints.act i p x) (some (.change i v)) := by
  refine ⟨.change i p, _, by rw [HeapPoints.act, bind_apply, hx]; rfl, rfl, ?_⟩
  refine (h.append [o']).change hi h8 hv fun q hq' hmem => ?_
  rw [hq q hq'] at hmem
  exact absurd (h.lt hmem) (lt_irrefl _)

theorem Step.sigAggregate1 (h : Inv m e s) {i p q : Nat} {v w : Bls.G1Pubs.Signature} (h8 : 8 ≤ i) (hi : e[i]? = some p)
    (hv : m.view p = some (.sig1 v)) (hw : m.view q = some (.sig1 w)) :
    Step m e s (HeapPoints.act i p (G1Pubs.sigAggregate p q)) (some (.change i (.sig1 (v.aggregate w)))) := by
  have hp := lt_of_view hv
  have h1 : ((m ++ [Obj.g2p (v.s.add w.s)]).set p (.sig1 m.length))[p]? = some (.sig1 m.length) :=
    List.getElem?_set_self (by rw [List.length_append]; exact Nat.lt_add_right _ hp)
  have h2 : ((m ++ [Obj.g2p (v.s.add w.s)]).set p (.sig1 m.length))[m.length]? = some (.g2p (v.s.add w.s)) := by
    rw [List.getElem?_set_ne hp.ne]; exact getElem?_last _ _
  refine Step.agg h hi (own_ge h h8 hi hv fun _ e => by cases e) (sigAggregate1_eq hv hw) (view_sig1.mpr ⟨_, h1, h2⟩) fun q' hq => ?_
  rw [Mem.ptr, h1] at hq
  cases hq; rfl

theorem Step.pubAggregate1 (h : Inv m e s) {i p q : Nat} {v w : Bls.G1Pubs.PublicKey} (h8 : 8 ≤ i) (hi : e[i]? = some p)
    (hv : m.view p = some (.pub1 v)) (hw : m.view q = some (.pub1 w)) :
    Step m e s (HeapPoints.act i p (G1Pubs.pubAggregate p q)) (some (.change i (.pub1 (v.aggregate w)))) := by
  have hp := lt_of_view hv
  have h1 : ((m ++ [Obj.g1p (v.p.add w.p)]).set p (.pub1 m.length))[p]? = some (.pub1 m.length) :=
    List.getElem?_set_self (by rw [List.length_append]; exact Nat.lt_add_right _ hp)
  have h2 : ((m ++ [Obj.g1p (v.p.add w.p)]).set p (.pub1 m.length))[m.length]? = some (.g1p (v.p.add w.p)) := by
    rw [List.getElem?_set_ne hp.ne]; exact getElem?_last _ _
  refine Step.agg h hi (own_ge h h8 hi hv fun _ e => by cases e) (pubAggregate1_eq hv hw) (view_pub1.mpr ⟨_, h1, h2⟩) fun q' hq => ?_
  rw [Mem.ptr, h1] at hq
  cases hq; rfl

theorem Step.sigAggregate2 (h : Inv m e s) {i p q : Nat} {v w : Bls.G2Pubs.Signature} (h8 : 8 ≤ i) (hi : e[i]? = some p)
    (hv : m.view p = some (.sig2 v)) (hw : m.view q = some (.sig2 w)) :
    Step m e s (HeapPoints.act i p (G2Pubs.sigAggregate p q)) (some (.change i (.sig2 (v.aggregate w)))) := by
  have hp := lt_of_view hv
  have h1 : ((m ++ [Obj.g1p (v.s.add w.s)]).set p (.sig2 m.length))[p]? = some (.sig2 m.length) :=
    List.getElem?_set_self (by rw [List.length_append]; exact Nat.lt_add_right _ hp)
  have h2 : ((m ++ [Obj.g1p (v.s.add w.s)]).set p (.sig2 m.length))[m.length]? = some (.g1p (v.s.add w.s)) := by
    rw [List.getElem?_set_ne hp.ne]; exact getElem?_last _ _
  refine Step.agg h hi (own_ge h h8 hi hv fun _ e => by cases e) (sigAggregate2_eq hv hw) (view_sig2.mpr ⟨_, h1, h2⟩) fun q' hq => ?_
  rw [Mem.ptr, h1] at hq
  cases hq; rfl

theorem Step.pubAggregate2 (h : Inv m e s) {i p q : Nat} {v w : Bls.G2Pubs.PublicKey} (h8 : 8 ≤ i) (hi : e[i]? = some p)
    (hv : m.view p = some (.pub2 v)) (hw : m.view q = some (.pub2 w)) :
    Step m e s (HeapPoints.act i p (G2Pubs.pubAggregate p q)) (some (.change i (.pub2 (v.aggregate w)))) := by
  have hp := lt_of_view hv
  have h1 : ((m ++ [Obj.g2p (v.p.add w.p)]).set p (.pub2 m.length))[p]? = some (.pub2 m.length) :=
    List.getElem?_set_self (by rw [List.length_append]; exact Nat.lt_add_right _ hp)
  have h2 : ((m ++ [Obj.g2p (v.p.add w.p)]).set p (.pub2 m.length))[m.length]? = some (.g2p (v.p.add w.p)) := by
    rw [List.getElem?_set_ne hp.ne]; exact getElem?_last _ _
  refine Step.agg h hi (own_ge h h8 hi hv fun _ e => by cases e) (pubAggregate2_eq hv hw) (view_pub2.mpr ⟨_, h1, h2⟩) fun q' hq => ?_
  rw [Mem.ptr, h1] at hq
  cases hq; rfl

theorem g2_neg_zero : G2Affine.zero.neg = .zero := rfl

/-- Every call. -/
theorem step (h : Inv m e s) (sha : List UInt8 → List UInt8) : ∀ op : Op, op.Safe s →
    Step m e s (op.onMemory sha e) (op.effect sha s) := by
  have c := h.consts
  intro op safe
  cases op with
  | newG1Affine x y => exact .ret h (gives_alloc m rfl)
  | newG1Projective x y z => exact .ret h (gives_alloc m rfl)
  | newG2Affine x y => exact .ret h (gives_alloc m rfl)
  | newG2Projective x y z => exact .ret h (gives_alloc m rfl)
  | newMsgs ms => exact .ret h (gives_alloc m rfl)
  | neg i =>
    refine Step.ownArg h fun p o v h8 hi hs hsh => ?_
    cases hsh with
    | g1a v hv =>
      refine Step.act h hi (own_ge h h8 hi hv fun _ e => by cases e) (o := .g1a v.neg) ?_ rfl
      exact g1aNeg_run hv
    | g1p v hv =>
      refine Step.act h hi (own_ge h h8 hi hv fun _ e => by cases e) (o := .g1p v.neg) ?_ rfl
      rw [g1pNeg, bind_apply, HeapPoints.g1p, run_read (view_g1p.mp hv)]; rfl
    | g2a v hv =>
      have hx : g2aNeg p m = some ((), m.set p (.g2a v.neg)) := g2aNeg_run hv
      rcases h.own i p h8 hi with h1 | h1
      · exact Step.act h hi h1 hx rfl
      · have h4 : m.view 4 = some (.g2a .zero) := h.consts.v4
        rw [h1] at hv
        rw [show m.view 4 = some (.g2a .zero) from h4] at hv
        cases hv
        rw [g2_neg_zero] at hx
        have hset : m.set p (.g2a .zero) = m := by rw [h1]; exact set_same (view_g2a.mp h4)
        have hes : e.set i p = e := by
          refine List.ext_getElem? fun j => ?_
          by_cases hj : i = j
          · subst hj; rw [List.getElem?_set_self (List.getElem?_eq_some_iff.mp hi).1, hi]
          · rw [List.getElem?_set_ne hj]
        have hss : s.set i (.g2a .zero) = s := by
          refine List.ext_getElem? fun j => ?_
          by_cases hj : i = j
          · subst hj; rw [List.getElem?_set_self (List.getElem?_eq_some_iff.mp hs).1, hs]
          · rw [List.getElem?_set_ne hj]
        rw [hset] at hx
        refine ⟨.change i p, m, by show HeapPoints.act i p (g2aNeg p) m = _; rw [HeapPoints.act, bind_apply, hx]; rfl, rfl, ?_⟩
        show Inv m (e.set i p) (s.set i (.g2a .zero))
        rw [hes, hss]; exact h
    | _ => exact Step.fail
  | setRawBytes i b =>
    refine Step.ownArg h fun p o v h8 hi hs hsh => ?_
    cases hsh with
    | g1a v hv =>
      refine Step.act h hi (own_ge h h8 hi hv fun _ e => by cases e) (o := .g1a (v.setRawBytes b)) ?_ rfl
      rw [g1aSetRawBytes, bind_apply, HeapPoints.g1a, run_read (view_g1a.mp hv)]; rfl
    | g2a v hv =>
      refine Step.act h hi ?_ (o := .g2a (v.setRawBytes b)) ?_ rfl
      · rcases h.own i p h8 hi with h1 | h1
        · exact h1
        · rw [h1] at hv
          rw [show m.view 4 = some (.g2a .zero) from h.consts.v4] at hv
          cases hv
          exact absurd (safe _ hs) (by decide)
      · rw [g2aSetRawBytes, bind_apply, HeapPoints.g2a, run_read (view_g2a.mp hv)]; rfl
    | _ => exact Step.fail
  | aggregate i j =>
    refine Step.ownArg h fun p o v h8 hi _ hsh => Step.arg h fun q o' w _ _ hsh' => ?_
    cases hsh <;> cases hsh' <;> first
      | exact Step.fail
      | exact Step.sigAggregate1 h h8 hi ‹_› ‹_›
      | exact Step.pubAggregate1 h h8 hi ‹_› ‹_›
      | exact Step.sigAggregate2 h h8 hi ‹_› ‹_›
      | exact Step.pubAggregate2 h h8 hi ‹_› ‹_›
  | copy i =>
    refine Step.arg h fun p o v _ _ hsh => ?_
    cases hsh with
    | g1a v hv => exact .ret h (g1aCopy_gives hv)
    | g1p v hv => exact .ret h (g1pCopy_gives hv)
    | g2a v hv => exact .ret h (g2aCopy_gives hv)
    | g2p v hv => exact .ret h (g2pCopy_gives hv)
    | sig1 _ v hv => exact .ret h (sigCopy1_gives c hv)
    | pub1 _ v hv => exact .ret h (pubCopy1_gives c hv)
    | sig2 _ v hv => exact .ret h (sigCopy2_gives c hv)
    | pub2 _ v hv => exact .ret h (pubCopy2_gives c hv)
    | msgs v hv => exact Step.fail
  | toProjective i =>
    refine Step.arg h fun p o v _ _ hsh => ?_
    cases hsh with
    | g1a v hv => exact .ret h (g1aToProjective_gives c hv)
    | g2a v hv => exact .ret h (g2aToProjective_gives c hv)
    | _ => exact Step.fail
  | toAffine i =>
    refine Step.arg h fun p o v _ _ hsh => ?_
    cases hsh with
    | g1p v hv => exact .ret h (g1pToAffine_gives c hv)
    | g2p v hv => exact .ret h (g2pToAffine_gives c hv)
    | _ => exact Step.fail
  | double i =>
    refine Step.arg h fun p o v _ _ hsh => ?_
    cases hsh with
    | g1p v hv => exact .ret h (g1pDouble_gives hv)
    | g2p v hv => exact .ret h (g2pDouble_gives hv)
    | _ => exact Step.fail
  | add i j =>
    refine Step.arg h fun p o v _ _ hsh => Step.arg h fun q o' w _ _ hsh' => ?_
    cases hsh <;> cases hsh' <;> first
      | exact Step.fail
      | exact .ret h (g1pAdd_gives ‹_› ‹_›)
      | exact .ret h (g2pAdd_gives ‹_› ‹_›)
  | addAffine i j =>
    refine Step.arg h fun p o v _ _ hsh => Step.arg h fun q o' w _ _ hsh' => ?_
    cases hsh <;> cases hsh' <;> first
      | exact Step.fail
      | exact .ret h (g1pAddAffine_gives c ‹_› ‹_›)
      | exact .ret h (g2pAddAffine_gives c ‹_› ‹_›)
  | mul i b =>
    refine Step.arg h fun p o v _ _ hsh => ?_
    cases hsh with
    | g1a v hv => exact .ret h (g1aMulFQ_gives c hv b)
    | g1p v hv => exact .ret h (g1pMulFQ_gives c hv b)
    | g2a v hv => exact .ret h (g2aMulFQ_gives c hv b)
    | g2p v hv => exact .ret h (g2pMulFQ_gives c hv b)
    | _ => exact Step.fail
  | mulFR i b =>
    refine Step.arg h fun p o v _ _ hsh => ?_
    cases hsh with
    | g1a v hv => exact .ret h (g1aMulFR_gives c hv b)
    | g1p v hv => exact .ret h (g1pMulFR_gives c hv b)
    | g2a v hv => exact .ret h (g2aMulFR_gives c hv b)
    | g2p v hv => exact .ret h (g2pMulFR_gives c hv b)
    | _ => exact Step.fail
  | mulBig i b =>
    refine Step.arg h fun p o v _ _ hsh => ?_
    cases hsh with
    | g2a v hv => exact .ret h (g2aMulBig_gives c hv b)
    | _ => exact Step.fail
  | scaleByCofactor i =>
    refine Step.arg h fun p o v _ _ hsh => ?_
    cases hsh with
    | g1a v hv => exact .ret h (g1aMulFQ_gives c hv G1Affine.cofactor)
    | g2a v hv => exact .ret h (g2aMulBig_gives c hv _)
    | _ => exact Step.fail
  | getG1PointFromX x g => exact .retOr h (orNil_gives _ fun v hv => gives_alloc m rfl)
  | getG2PointFromX x g => exact .retOr h (orNil_gives _ fun v hv => gives_alloc m rfl)
  | decompressG1 b => exact .retOr h (orNil_gives _ fun v hv => g1aReturn_gives c (g1_decompress_inf hv))
  | decompressG1Unchecked b => exact .retOr h (orNil_gives _ fun v hv => g1aReturn_gives c (g1_unchecked_inf hv))
  | decompressG2 b => exact .retOr h (orNil_gives _ fun v hv => g2aReturn_gives c (g2_decompress_inf hv))
  | decompressG2Unchecked b => exact .retOr h (orNil_gives _ fun v hv => g2aReturn_gives c (g2_unchecked_inf hv))
  | swEncodeG2 t => exact .retOr h (orNil_gives _ fun v hv => g2aReturn_gives c (swEncodeG2_inf hv))
  | hashG1 b => exact .retM h (hashG1_gives c sha b)
  | hashG2 b => exact .retM h (hashG2_gives c sha b)
  | hashG2WithDomain b d => exact .retM h (hashG2WithDomain_gives sha b d)
  | newSignature pkg i =>
    refine Step.arg h fun p o v _ _ hsh => ?_
    cases pkg <;> cases hsh <;> first
      | exact Step.fail
      | exact .ret h (newSignatureFromG21_gives c ‹_›)
      | exact .ret h (newSignatureFromG12_gives c ‹_›)
  | newPublicKey pkg i =>
    refine Step.arg h fun p o v _ _ hsh => ?_
    cases pkg <;> cases hsh <;> first
      | exact Step.fail
      | exact .ret h (newPublicKeyFromG11_gives c ‹_›)
      | exact .ret h (newPublicKeyFromG22_gives c ‹_›)
  | deserializeSignature pkg b =>
    cases pkg
    · exact .retOr h (deserializeSignature1_gives c b)
    · exact .retOr h (deserializeSignature2_gives c b)
  | deserializePublicKey pkg b =>
    cases pkg
    · exact .retOr h (deserializePublicKey1_gives c b)
    · exact .retOr h (deserializePublicKey2_gives c b)
  | getPoint i =>
    refine Step.arg h fun p o v _ _ hsh => ?_
    cases hsh with
    | sig1 _ v hv => exact .ret h (sigGetPoint1_gives hv)
    | pub1 _ v hv => exact .ret h (pubGetPoint1_gives hv)
    | sig2 _ v hv => exact .ret h (sigGetPoint2_gives hv)
    | pub2 _ v hv => exact .ret h (pubGetPoint2_gives hv)
    | _ => exact Step.fail
  | sign pkg b f =>
    cases pkg
    · exact .retM h (sign1_gives c sha b f)
    · exact .retM h (sign2_gives c sha b f)
  | signWithDomain b f d => exact .retM h (signWithDomain1_gives c sha b d f)
  | privToPub pkg f =>
    cases pkg
    · exact .retM h (privToPub1_gives c f)
    · exact .retM h (privToPub2_gives c f)
  | newAggregateSignature pkg =>
    cases pkg
    · exact .ret h (newAggregateSignature1_gives c)
    · exact .ret h (newAggregateSignature2_gives c)
  | newAggregatePubkey pkg =>
    cases pkg
    · exact .ret h (newAggregatePubkey1_gives c)
    · exact .ret h (newAggregatePubkey2_gives c)
  | aggregateSignatures pkg l =>
    cases pkg
    · simp only [Op.effect, Option.map_eq_bind]
      exact .argsOf h kSig1 fun ps bs hp => .ret h (aggregateSignatures1_gives c hp)
    · simp only [Op.effect, Option.map_eq_bind]
      exact .argsOf h kSig2 fun ps bs hp => .ret h (aggregateSignatures2_gives c hp)
  | aggregatePublicKeys pkg l =>
    cases pkg
    · simp only [Op.effect, Option.map_eq_bind]
      exact .argsOf h kPub1 fun ps bs hp => .ret h (aggregatePublicKeys1_gives c hp)
    · simp only [Op.effect, Option.map_eq_bind]
      exact .argsOf h kPub2 fun ps bs hp => .ret h (aggregatePublicKeys2_gives c hp)
  | isZero i =>
    refine Step.arg h fun p o v _ _ hsh => ?_
    cases hsh with
    | g1a v hv => exact .retBoolS h (.g1a hv (.pure rfl))
    | g1p v hv => exact .retBoolS h (.g1p hv (.pure rfl))
    | g2a v hv => exact .retBoolS h (.g2a hv (.pure rfl))
    | g2p v hv => exact .retBoolS h (.g2p hv (.pure rfl))
    | _ => exact Step.fail
  | isOnCurve i =>
    refine Step.arg h fun p o v _ _ hsh => ?_
    cases hsh with
    | g1a v hv => exact .retBoolS h (.g1a hv (.pure rfl))
    | g2a v hv => exact .retBoolS h (.g2a hv (.pure rfl))
    | _ => exact Step.fail
  | isInCorrectSubgroup i =>
    refine Step.arg h fun p o v _ _ hsh => ?_
    cases hsh with
    | g1a v hv => exact .retBoolS h (.g1a hv (.pure rfl))
    | g2a v hv => exact .retBoolS h (.g2a hv (.pure rfl))
    | _ => exact Step.fail
  | equals i j =>
    refine Step.arg h fun p o v _ _ hsh => Step.arg h fun q o' w _ _ hsh' => ?_
    cases hsh with
    | g1a v hv => cases hsh' with
      | g1a w hw => exact .retBoolS h (.g1a hv (.g1a hw (.pure rfl)))
      | _ => exact Step.fail
    | g1p v hv => cases hsh' with
      | g1p w hw => exact .retBoolS h (.g1p hv (.g1p hw (.pure rfl)))
      | _ => exact Step.fail
    | g2a v hv => cases hsh' with
      | g2a w hw => exact .retBoolS h (.g2a hv (.g2a hw (.pure rfl)))
      | _ => exact Step.fail
    | g2p v hv => cases hsh' with
      | g2p w hw => exact .retBoolS h (.g2p hv (.g2p hw (.pure rfl)))
      | _ => exact Step.fail
    | pub1 _ v hv => cases hsh' with
      | pub1 _ w hw => exact .retBoolS h (pubEquals1_gives hv hw)
      | _ => exact Step.fail
    | pub2 _ v hv => cases hsh' with
      | pub2 _ w hw => exact .retBoolS h (pubEquals2_gives hv hw)
      | _ => exact Step.fail
    | _ => exact Step.fail
  | serialize i =>
    refine Step.arg h fun p o v _ _ hsh => ?_
    cases hsh with
    | g1a v hv => exact .retBytes h (.g1a hv (.pure rfl))
    | g2a v hv => exact .retBytes h (.g2a hv (.pure rfl))
    | sig1 _ v hv => exact .retBytes h (sigSerialize1_gives c hv)
    | pub1 _ v hv => exact .retBytes h (pubSerialize1_gives c hv)
    | sig2 _ v hv => exact .retBytes h (sigSerialize2_gives c hv)
    | pub2 _ v hv => exact .retBytes h (pubSerialize2_gives c hv)
    | _ => exact Step.fail
  | compress i =>
    refine Step.arg h fun p o v _ _ hsh => ?_
    cases hsh with
    | g1a v hv => exact .retBytes h (.g1a hv (.pure rfl))
    | g2a v hv => exact .retBytes h (.g2a hv (.pure rfl))
    | _ => exact Step.fail
  | compareTwoPairings i j k l =>
    refine Step.arg h fun a _ _ _ _ h1 => Step.arg h fun b _ _ _ _ h2 => Step.arg h fun a' _ _ _ _ h3 =>
      Step.arg h fun b' _ _ _ _ h4 => ?_
    cases h1 with
    | g1p v1 h1 => cases h2 with
      | g2p v2 h2 => cases h3 with
        | g1p v3 h3 => cases h4 with
          | g2p v4 h4 => exact .retBool h (compareTwoPairings_gives c h1 h2 h3 h4)
          | _ => exact Step.fail
        | _ => exact Step.fail
      | _ => exact Step.fail
    | _ => exact Step.fail
  | verify pkg b p g =>
    cases pkg
    · exact .argOf h kPub1 fun p v hp => .argOf h kSig1 fun g w hg => .retBool h (verify1_gives c sha b hp hg)
    · exact .argOf h kPub2 fun p v hp => .argOf h kSig2 fun g w hg => .retBool h (verify2_gives c sha b hp hg)
  | verifyWithDomain b p g d =>
    exact .argOf h kPub1 fun p v hp => .argOf h kSig1 fun g w hg => .retBool h (verifyWithDomain1_gives c sha b d hp hg)
  | verifyAggregate pkg g l ms =>
    cases pkg
    · exact .argOf h kSig1 fun g w hg => .argsOf h kPub1 fun ps vs hp => .argOf h kMsgs fun a ms hm =>
        .retBool h (verifyAggregate1_gives c sha hg hp hm)
    · exact .argOf h kSig2 fun g w hg => .argsOf h kPub2 fun ps vs hp => .argOf h kMsgs fun a ms hm =>
        .retBool h (verifyAggregate2_gives c sha hg hp hm)
  | verifyAggregateCommon pkg g l b =>
    cases pkg
    · exact .argOf h kSig1 fun g w hg => .argsOf h kPub1 fun ps vs hp =>
        .retBool h (verifyAggregateCommon1_gives c sha b hg hp)
    · exact .argOf h kSig2 fun g w hg => .argsOf h kPub2 fun ps vs hp =>
        .retBool h (verifyAggregateCommon2_gives c sha b hg hp)
  | verifyAggregateCommonWithDomain g l b d =>
    exact .argOf h kSig1 fun g w hg => .argsOf h kPub1 fun ps vs hp =>
      .retBool h (verifyAggregateCommonWithDomain1_gives c sha b d hg hp)
  | verifyAggregateWithDomain g l ms d =>
    exact .argOf h kSig1 fun g w hg => .argsOf h kPub1 fun ps vs hp => .argOf h kMsgs fun a ms hm =>
      .retBool h (verifyAggregateWithDomain1_gives c sha d hg hp hm)

end step

/-! ## Programs -/

theorem run_correct (sha : List UInt8 → List UInt8) : ∀ (ops : List Op) {m : Mem} {e : List Nat} {s : List Val},
    Inv m e s → Safe sha ops s →
    match valuesRun sha ops s with
    | none => memoryRun sha ops e m = none
    | some t => ∃ e' m', memoryRun sha ops e m = some ((e', t.2), m') ∧ Inv m' e' t.1
  | [], m, e, s, h, _ => ⟨e, m, rfl, h⟩
  | op :: ops, m, e, s, h, safe => by
    have h1 := step h sha op safe.1
    rw [valuesRun]
    cases hf : op.effect sha s with
    | none =>
      rw [hf] at h1
      show memoryRun sha (op :: ops) e m = none
      rw [memoryRun, bind_apply, show op.onMemory sha e m = none from h1]; rfl
    | some f =>
      rw [hf] at h1
      obtain ⟨g, m1, hg, ho, hi⟩ := h1
      have h2 := run_correct sha ops hi (safe.2 f hf)
      rw [Option.bind_some]
      cases hv : valuesRun sha ops (f.apply s) with
      | none =>
        rw [hv] at h2
        show memoryRun sha (op :: ops) e m = none
        rw [memoryRun, bind_apply, hg, Option.bind_some, bind_apply, h2]; rfl
      | some t =>
        rw [hv] at h2
        obtain ⟨e', m', hr, hI⟩ := h2
        refine ⟨e', m', ?_, hI⟩
        rw [memoryRun, bind_apply, hg, Option.bind_some, bind_apply, hr, ← ho]; rfl

theorem inv_init : Inv init [0, 1, 2, 3, 4, 5, 6, 7] packageVals where
  consts := List.prefix_refl _
  view := rfl
  own i p hi hp := by
    have := (List.getElem?_eq_some_iff.mp hp).1
    simp only [List.length_cons, List.length_nil] at this
    omega
  inj i j p hi hj := by
    have hn : ([0, 1, 2, 3, 4, 5, 6, 7] : List Nat).Nodup := by decide
    exact .inl ((List.getElem?_inj (List.getElem?_eq_some_iff.mp hi).1 hn).mp (hi.trans hj.symm))
  inner p q hp hq := by
    simp only [List.mem_cons, List.not_mem_nil, or_false] at hp
    rcases hp with rfl | rfl | rfl | rfl | rfl | rfl | rfl | rfl <;> cases hq

/-- A program run in a fresh process does what it means. -/
theorem execute_eq (sha : List UInt8 → List UInt8) (ops : List Op) (safe : Safe sha ops packageVals) :
    execute sha ops = (meaning sha ops).map fun t => (t.1.map some, t.2) := by
  have h := run_correct sha ops inv_init safe
  rw [execute, meaning]
  cases hv : valuesRun sha ops packageVals with
  | none => rw [hv] at h; rw [show memoryRun sha ops _ _ = none from h]; rfl
  | some t =>
    rw [hv] at h
    obtain ⟨e', m', hr, hI⟩ := h
    rw [hr]
    show some (e'.map m'.view, t.2) = some (t.1.map some, t.2)
    rw [hI.view]

theorem valuesRun_append (sha : List UInt8 → List UInt8) (op : Op) : ∀ (ops : List Op) (s : List Val),
    valuesRun sha (ops ++ [op]) s = (valuesRun sha ops s).bind fun t =>
      (op.effect sha t.1).map fun f => (f.apply t.1, t.2 ++ f.outs)
  | [], s => by
    rw [List.nil_append, valuesRun, valuesRun, Option.bind_some]
    cases op.effect sha s with
    | none => rfl
    | some f =>
      rw [Option.bind_some, valuesRun, Option.map_some, Option.map_some, List.append_nil, List.nil_append]
  | a :: ops, s => by
    rw [List.cons_append, valuesRun, valuesRun]
    cases a.effect sha s with
    | none => rfl
    | some f =>
      rw [Option.bind_some, Option.bind_some, valuesRun_append sha op ops]
      cases valuesRun sha ops (f.apply s) with
      | none => rfl
      | some t =>
        rw [Option.map_some, Option.bind_some, Option.bind_some]
        cases op.effect sha t.1 with
        | none => rfl
        | some g => rw [Option.map_some, Option.map_some, Option.map_some, List.append_assoc]

theorem Safe.append_left {sha : List UInt8 → List UInt8} {op : Op} : ∀ {ops : List Op} {s : List Val},
    Safe sha (ops ++ [op]) s → Safe sha ops s
  | [], _, _ => trivial
  | _ :: _, _, h => ⟨h.1, fun f hf => Safe.append_left (h.2 f hf)⟩

theorem bind_change {α : Type} {o : Option α} {F : α → Option (Effect Val)} {i : Nat} {v : Val}
    (h : o.bind F = some (.change i v)) : ∃ a, F a = some (.change i v) := by
  cases o with
  | none => cases h
  | some a => exact ⟨a, h⟩

theorem map_change {α : Type} {o : Option α} {F : α → Effect Val} {i : Nat} {v : Val}
    (h : o.map F = some (.change i v)) : ∃ a, F a = .change i v := by
  cases o with
  | none => cases h
  | some a => exact ⟨a, Option.some.inj h⟩

theorem newOr_change {o : Option Val} {i : Nat} {v : Val} : (Effect.newOr o : Effect Val) ≠ .change i v := by
  cases o <;> exact fun h => by cases h

theorem change_receiver {sha : List UInt8 → List UInt8} {op : Op} {s : List Val} {i : Nat} {v : Val}
    (h : op.effect sha s = some (.change i v)) : op.receiver = some i := by
  cases op
  case neg k =>
    obtain ⟨a, h⟩ := bind_change h
    cases a <;> cases h <;> rfl
  case setRawBytes k b =>
    obtain ⟨a, h⟩ := bind_change h
    cases a <;> cases h <;> rfl
  case aggregate k l =>
    obtain ⟨a, h⟩ := bind_change h
    obtain ⟨b, h⟩ := bind_change h
    cases a <;> cases b <;> cases h <;> rfl
  case copy | toProjective | toAffine | double | mul | mulFR | mulBig | scaleByCofactor | getPoint | isZero | isOnCurve |
      isInCorrectSubgroup | serialize | compress =>
    obtain ⟨a, h⟩ := bind_change h
    cases a <;> cases h
  case add | addAffine | equals =>
    obtain ⟨a, h⟩ := bind_change h
    obtain ⟨b, h⟩ := bind_change h
    cases a <;> cases b <;> cases h
  case newSignature pkg _ =>
    obtain ⟨a, h⟩ := bind_change h
    cases pkg <;> cases a <;> cases h
  case newPublicKey pkg _ =>
    obtain ⟨a, h⟩ := bind_change h
    cases pkg <;> cases a <;> cases h
  case getG1PointFromX | getG2PointFromX | decompressG1 | decompressG1Unchecked | decompressG2 | decompressG2Unchecked |
      swEncodeG2 => exact absurd (Option.some.inj h) newOr_change
  case deserializeSignature pkg _ => cases pkg <;> exact absurd (Option.some.inj h) newOr_change
  case deserializePublicKey pkg _ => cases pkg <;> exact absurd (Option.some.inj h) newOr_change
  case hashG1 | hashG2 | hashG2WithDomain | signWithDomain => obtain ⟨a, h⟩ := map_change h; cases h
  case sign pkg _ _ => cases pkg <;> (obtain ⟨a, h⟩ := map_change h; cases h)
  case privToPub pkg _ => cases pkg <;> (rw [Op.effect] at h; obtain ⟨a, h⟩ := map_change h; cases h)
  case newAggregateSignature pkg => cases pkg <;> cases h
  case newAggregatePubkey pkg => cases pkg <;> cases h
  case aggregateSignatures pkg _ => cases pkg <;> (obtain ⟨a, h⟩ := map_change h; cases h)
  case aggregatePublicKeys pkg _ => cases pkg <;> (obtain ⟨a, h⟩ := map_change h; cases h)
  case compareTwoPairings =>
    obtain ⟨a, h⟩ := bind_change h
    obtain ⟨b, h⟩ := bind_change h
    obtain ⟨c, h⟩ := bind_change h
    obtain ⟨d, h⟩ := bind_change h
    cases a with
    | g1p v1 => cases b with
      | g2p v2 => cases c with
        | g1p v3 => cases d with
          | g2p v4 => obtain ⟨a, h⟩ := map_change h; cases h
          | _ => cases h
        | _ => cases h
      | _ => cases h
    | _ => cases h
  case verify pkg _ _ _ =>
    cases pkg <;>
    · obtain ⟨a, h⟩ := bind_change h
      obtain ⟨b, h⟩ := bind_change h
      obtain ⟨c, h⟩ := map_change h; cases h
  case verifyAggregate pkg _ _ _ =>
    cases pkg <;>
    · obtain ⟨a, h⟩ := bind_change h
      obtain ⟨b, h⟩ := bind_change h
      obtain ⟨d, h⟩ := bind_change h
      obtain ⟨c, h⟩ := map_change h; cases h
  case verifyAggregateCommon pkg _ _ _ =>
    cases pkg <;>
    · obtain ⟨a, h⟩ := bind_change h
      obtain ⟨b, h⟩ := bind_change h
      obtain ⟨c, h⟩ := map_change h; cases h
  case verifyWithDomain | verifyAggregateCommonWithDomain =>
    obtain ⟨a, h⟩ := bind_change h
    obtain ⟨b, h⟩ := bind_change h
    obtain ⟨c, h⟩ := map_change h; cases h
  case verifyAggregateWithDomain =>
    obtain ⟨a, h⟩ := bind_change h
    obtain ⟨b, h⟩ := bind_change h
    obtain ⟨d, h⟩ := bind_change h
    obtain ⟨c, h⟩ := map_change h; cases h
  all_goals cases h

/-- What a call does on values decides what changes. -/
theorem effect_kept {sha : List UInt8 → List UInt8} {op : Op} {s : List Val} {f : Effect Val}
    (h : op.effect sha s = some f) {j : Nat} (hj : j < s.length) (hr : op.receiver ≠ some j) :
    (f.apply s)[j]? = s[j]? := by
  cases f with
  | new v => exact List.getElem?_append_left hj
  | out o => rfl
  | change i v =>
    refine List.getElem?_set_ne fun hij => hr ?_
    subst hij
    exact change_receiver h

theorem execute_kept {sha : List UInt8 → List UInt8} {ops : List Op} {op : Op} {s t : List (Option Val)}
    {o o' : List Out} (safe : Safe sha (ops ++ [op]) packageVals) (h : execute sha ops = some (s, o))
    (h' : execute sha (ops ++ [op]) = some (t, o')) {j : Nat} (hj : j < s.length) (hr : op.receiver ≠ some j) :
    t[j]? = s[j]? := by
  rw [execute_eq sha _ safe.append_left] at h
  rw [execute_eq sha _ safe] at h'
  rw [meaning] at h
  rw [meaning, valuesRun_append] at h'
  cases hv : valuesRun sha ops packageVals with
  | none => rw [hv] at h; cases h
  | some u =>
    rw [hv] at h h'
    cases h
    rw [Option.bind_some] at h'
    cases hf : op.effect sha u.1 with
    | none => rw [hf] at h'; cases h'
    | some f =>
      rw [hf] at h'
      cases h'
      rw [List.getElem?_map, List.getElem?_map, effect_kept hf (by rwa [List.length_map] at hj) hr]

theorem own_lt {op : Op} {sha : List UInt8 → List UInt8} {s : List Val} {f : Effect Val}
    (h : op.effect sha s = some f) {j : Nat} (hj : j < 8) : op.receiver ≠ some j := by
  intro hr
  have hown : own s j = none := by rw [own, if_neg (Nat.not_le.mpr hj)]
  cases op <;> cases hr <;> (rw [Op.effect, hown] at h; cases h)

theorem valuesRun_package {sha : List UInt8 → List UInt8} : ∀ {ops : List Op} {s : List Val} {t : List Val × List Out},
    valuesRun sha ops s = some t → 8 ≤ s.length → t.1.take 8 = s.take 8
  | [], s, t, h, _ => by cases h; rfl
  | op :: ops, s, t, h, hs => by
    rw [valuesRun] at h
    cases hf : op.effect sha s with
    | none => rw [hf] at h; cases h
    | some f =>
      rw [hf, Option.bind_some] at h
      have hl : s.length ≤ (f.apply s).length := by
        cases f with
        | new v => rw [Effect.apply, List.length_append]; exact Nat.le_add_right _ _
        | change i v => rw [Effect.apply, List.length_set]
        | out o => exact le_rfl
      cases hv : valuesRun sha ops (f.apply s) with
      | none => rw [hv] at h; cases h
      | some u =>
        rw [hv] at h
        cases h
        rw [valuesRun_package hv (hs.trans hl)]
        refine List.ext_getElem? fun j => ?_
        by_cases hj : j < 8
        · rw [List.getElem?_take_of_lt hj, List.getElem?_take_of_lt hj, effect_kept hf (hj.trans_le hs) (own_lt hf hj)]
        · rw [List.getElem?_take_eq_none (Nat.not_lt.mp hj), List.getElem?_take_eq_none (Nat.not_lt.mp hj)]

theorem execute_package {sha : List UInt8 → List UInt8} {ops : List Op} {s : List (Option Val)} {o : List Out}
    (safe : Safe sha ops packageVals) (h : execute sha ops = some (s, o)) : s.take 8 = packageVals.map some := by
  rw [execute_eq sha _ safe, meaning] at h
  cases hv : valuesRun sha ops packageVals with
  | none => rw [hv] at h; cases h
  | some u =>
    rw [hv] at h
    cases h
    rw [← List.map_take, valuesRun_package hv le_rfl]; rfl

theorem Safe.snoc {sha : List UInt8 → List UInt8} {op : Op} (hop : ∀ s, op.Safe s) : ∀ {ops : List Op} {s : List Val},
    Safe sha ops s → Safe sha (ops ++ [op]) s
  | [], s, _ => ⟨hop s, fun _ _ => trivial⟩
  | _ :: _, _, h => ⟨h.1, fun f hf => Safe.snoc hop (h.2 f hf)⟩

theorem execute_verifyAggregate {sha : List UInt8 → List UInt8} {ops : List Op} {pkg : Pkg} {sig : Nat} {pubs : List Nat}
    {ms : Nat} {s t : List (Option Val)} {o o' : List Out} (safe : Safe sha ops packageVals)
    (h : execute sha ops = some (s, o)) (h' : execute sha (ops ++ [.verifyAggregate pkg sig pubs ms]) = some (t, o')) :
    t = s := by
  have safe' := safe.snoc (op := .verifyAggregate pkg sig pubs ms) fun _ => trivial
  rw [execute_eq sha _ safe, meaning] at h
  rw [execute_eq sha _ safe', meaning, valuesRun_append] at h'
  cases hv : valuesRun sha ops packageVals with
  | none => rw [hv] at h; cases h
  | some u =>
    rw [hv] at h h'
    cases h
    rw [Option.bind_some] at h'
    cases hf : Op.effect sha u.1 (.verifyAggregate pkg sig pubs ms) with
    | none => rw [hf] at h'; cases h'
    | some f =>
      rw [hf] at h'
      cases h'
      have hout : ∃ b, f = .out b := by
        cases pkg <;>
        · rw [Op.effect] at hf
          obtain ⟨a, -, hf⟩ := Option.bind_eq_some_iff.mp hf
          obtain ⟨a, -, hf⟩ := Option.bind_eq_some_iff.mp hf
          obtain ⟨a, -, hf⟩ := Option.bind_eq_some_iff.mp hf
          obtain ⟨a, -, hf⟩ := Option.map_eq_some_iff.mp hf
          exact ⟨_, hf.symm⟩
      obtain ⟨b, rfl⟩ := hout
      rfl

end Bls.HeapPoints
