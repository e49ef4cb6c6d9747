import Verif.Proof.History12
import Verif.Proof.FQ6
import Verif.Spec.History6
/-
Programs on `FQ6` and `FQ12` that hand over what they pass to `NewFQ12` do what they do on plain values.
-/
namespace Bls.Heap12
open Function

/-! ### The memory outside the objects -/

theorem Loose.ge {m : Mem} (h : Inv m) {p : Nat} (l : Loose m p) : 2 ≤ p := by
  have hz := h.zero; have ho := h.one; have := h.le12
  simp only [aFQ12Zero, aFQ12One, aFQ6Zero, aFQ6One] at hz ho
  have a := l.ne 0 (by omega)
  have b := l.ne 1 (by omega)
  unfold Mem.c0 Mem.c1 at a b
  rw [hz] at a; rw [ho] at b
  omega

/-- A new value for an `FQ6` outside the objects. -/
theorem Sim.set6 {m : Mem} {e : List Nat} {s : List FQ12} (h : Sim m e s) {p : Nat} (l : Loose m p) (v : FQ6) :
    Sim (m.set6 p v) e s := by
  have g2 := l.ge h.inv
  have i := h.inv
  refine ⟨⟨i.le6, i.le12, i.zero, i.one, ?_, ?_, fun f a b => ?_⟩, h.nodup, h.lt, h.ge, h.len, ?_⟩
  · rw [Mem.six_set6, update_of_ne (by unfold aFQ6Zero; omega)]; exact i.six0
  · rw [Mem.six_set6, update_of_ne (by unfold aFQ6One; omega)]; exact i.six1
  · have o := i.owns f a b
    exact ⟨o.lt0, o.lt1, o.ge0, o.ge1, o.ne, o.sep⟩
  · rw [← h.val]
    refine List.map_congr_left fun f hf => ?_
    have n := l.ne f (h.lt f hf)
    unfold Heap12.val
    rw [Mem.c0_set6, Mem.c1_set6, Mem.six_set6, update_of_ne n.1.symm, update_of_ne n.2.symm]

/-- A new `FQ6`. -/
theorem Sim.push6 {m : Mem} {e : List Nat} {s : List FQ12} (h : Sim m e s) (v : FQ6) : Sim (m.push v) e s := by
  have i := h.inv
  have l6 := i.le6
  refine ⟨⟨by rw [Mem.next6_push]; omega, i.le12, i.zero, i.one, ?_, ?_, fun f a b => ?_⟩, h.nodup, h.lt, h.ge, h.len, ?_⟩
  · rw [Mem.six_push, update_of_ne (by unfold aFQ6Zero; omega)]; exact i.six0
  · rw [Mem.six_push, update_of_ne (by unfold aFQ6One; omega)]; exact i.six1
  · have o := i.owns f a b
    exact ⟨Nat.lt_succ_of_lt o.lt0, Nat.lt_succ_of_lt o.lt1, o.ge0, o.ge1, o.ne, o.sep⟩
  · rw [← h.val]
    refine List.map_congr_left fun f hf => ?_
    have n := i.lt (h.lt f hf)
    unfold Heap12.val
    rw [Mem.c0_push, Mem.c1_push, Mem.six_push, update_of_ne (by omega), update_of_ne (by omega)]

/-- `NewFQ12` of two `FQ6` outside the objects. -/
theorem Sim.push12 {m : Mem} {e : List Nat} {s : List FQ12} (h : Sim m e s) {p t : Nat} (lp : Loose m p)
    (lt : Loose m t) (hne : p ≠ t) : Sim (m.push12 p t) (e ++ [m.next12]) (s ++ [⟨m.six p, m.six t⟩]) := by
  have i := h.inv
  have l12 := i.le12
  have hc0 : ∀ g, g < m.next12 → (m.push12 p t).c0 g = m.c0 g := fun g hg => by
    rw [Mem.c0_push12, update_of_ne (by omega)]
  have hc1 : ∀ g, g < m.next12 → (m.push12 p t).c1 g = m.c1 g := fun g hg => by
    rw [Mem.c1_push12, update_of_ne (by omega)]
  have hn0 : (m.push12 p t).c0 m.next12 = p := by rw [Mem.c0_push12, update_self]
  have hn1 : (m.push12 p t).c1 m.next12 = t := by rw [Mem.c1_push12, update_self]
  have inv : Inv (m.push12 p t) := by
    refine ⟨i.le6, by rw [Mem.next12_push12]; omega, ?_, ?_, i.six0, i.six1, fun f a b => ?_⟩
    · rw [Mem.twelve_push12, update_of_ne (by unfold aFQ12Zero; omega)]; exact i.zero
    · rw [Mem.twelve_push12, update_of_ne (by unfold aFQ12One; omega)]; exact i.one
    · rw [Mem.next12_push12] at b
      by_cases hf : f = m.next12
      · subst hf
        refine ⟨by rw [hn0]; exact lp.lt, by rw [hn1]; exact lt.lt, by rw [hn0]; exact lp.ge i,
          by rw [hn1]; exact lt.ge i, by rw [hn0, hn1]; exact hne, fun g g2 hg hgf => ?_⟩
        rw [Mem.next12_push12] at hg
        have hg' : g < m.next12 := by omega
        rw [hn0, hn1, hc0 g hg', hc1 g hg']
        have a := lp.ne g hg'; have b := lt.ne g hg'
        exact ⟨a.1.symm, b.1.symm, a.2.symm, b.2.symm⟩
      · have hf' : f < m.next12 := by omega
        have o := i.owns f a hf'
        refine ⟨by rw [hc0 f hf']; exact o.lt0, by rw [hc1 f hf']; exact o.lt1, by rw [hc0 f hf']; exact o.ge0,
          by rw [hc1 f hf']; exact o.ge1, by rw [hc0 f hf', hc1 f hf']; exact o.ne, fun g g2 hg hgf => ?_⟩
        rw [Mem.next12_push12] at hg
        rw [hc0 f hf', hc1 f hf']
        by_cases hgn : g = m.next12
        · subst hgn
          rw [hn0, hn1]
          have a := lp.ne f hf'; have b := lt.ne f hf'
          exact ⟨a.1, a.2, b.1, b.2⟩
        · have hg' : g < m.next12 := by omega
          rw [hc0 g hg', hc1 g hg']
          exact o.sep g g2 hg' hgf
  refine ⟨inv, ?_, ?_, ?_, by rw [List.length_append]; have := h.len; omega, ?_⟩
  · rw [List.nodup_append]
    refine ⟨h.nodup, List.nodup_singleton _, ?_⟩
    intro a ha b hb
    rw [List.mem_singleton] at hb
    have := h.lt a ha
    omega
  · intro a ha
    rw [Mem.next12_push12]
    rw [List.mem_append, List.mem_singleton] at ha
    rcases ha with ha | rfl
    · have := h.lt a ha; omega
    · omega
  · intro i a hi ha
    by_cases hl : i < e.length
    · rw [List.getElem?_append_left hl] at ha; exact h.ge i a hi ha
    · rw [List.getElem?_append_right (by omega)] at ha
      have hm := List.mem_of_getElem? ha
      rw [List.mem_singleton] at hm
      omega
  · rw [List.map_append, List.map_singleton, ← h.val]
    congr 1
    · refine List.map_congr_left fun f hf => ?_
      unfold Heap12.val
      rw [hc0 f (h.lt f hf), hc1 f (h.lt f hf), Mem.six_push12]
    · unfold Heap12.val
      rw [hn0, hn1, Mem.six_push12]

/-! ### Programs -/

/-- The `FQ6` variables: the two package variables, then `FQ6` outside the objects, no two the same. -/
structure Sim6 (m : Mem) (e : List (Option Nat)) (s : List (Option FQ6)) : Prop where
  zero : e[0]? = some (some aFQ6Zero)
  one : e[1]? = some (some aFQ6One)
  loose : ∀ i p, 2 ≤ i → e[i]? = some (some p) → Loose m p
  inj : ∀ i j p, 2 ≤ i → 2 ≤ j → e[i]? = some (some p) → e[j]? = some (some p) → i = j
  val : e.map (Option.map m.six) = s

theorem Sim6.get {m : Mem} {e : List (Option Nat)} {s : List (Option FQ6)} (h : Sim6 m e s) (i : Nat) :
    s[i]? = e[i]?.map (Option.map m.six) := by
  rw [← h.val, List.getElem?_map]

theorem Sim6.live {m : Mem} {e : List (Option Nat)} {s : List (Option FQ6)} (h : Sim6 m e s) (i : Nat) :
    live s i = (live e i).map m.six := by
  unfold Heap12.live
  rw [h.get]
  rcases e[i]? with _ | _ | p <;> rfl

theorem Sim6.mine {m : Mem} {e : List (Option Nat)} {s : List (Option FQ6)} (h : Sim6 m e s) (i : Nat) :
    mine s i = (mine e i).map m.six := by
  unfold Heap12.mine
  split
  · exact h.live i
  · rfl

theorem live_some {α : Type} {e : List (Option α)} {i : Nat} {p : α} (h : live e i = some p) : e[i]? = some (some p) := by
  unfold live at h
  rcases he : e[i]? with _ | _ | t
  · rw [he] at h; cases h
  · rw [he] at h; cases h
  · rw [he] at h; cases h; rfl

theorem mine_some {α : Type} {e : List (Option α)} {i : Nat} {p : α} (h : mine e i = some p) :
    2 ≤ i ∧ e[i]? = some (some p) := by
  unfold mine at h
  split at h
  · exact ⟨‹_›, live_some h⟩
  · cases h

section
variable {m : Mem} {e : List (Option Nat)} {s : List (Option FQ6)} (h : Sim6 m e s)
include h

/-- Two live variables are the same pointer only if they are the same variable. -/
theorem Sim6.ne (hi : Inv m) {i j p t : Nat} (h2 : 2 ≤ i) (hp : e[i]? = some (some p)) (ht : e[j]? = some (some t))
    (hne : i ≠ j) : p ≠ t := by
  have g := (h.loose i p h2 hp).ge hi
  by_cases hj : 2 ≤ j
  · intro hpt
    subst hpt
    exact hne (h.inj i j p h2 hj hp ht)
  · have : j = 0 ∨ j = 1 := by omega
    rcases this with rfl | rfl
    · rw [h.zero] at ht; cases ht; unfold aFQ6Zero; omega
    · rw [h.one] at ht; cases ht; unfold aFQ6One; omega

theorem Sim6.lt (hi : Inv m) {i p : Nat} (hp : e[i]? = some (some p)) : p < m.next6 := by
  have := hi.le6
  by_cases h2 : 2 ≤ i
  · exact (h.loose i p h2 hp).lt
  · have : i = 0 ∨ i = 1 := by omega
    rcases this with rfl | rfl
    · rw [h.zero] at hp; cases hp; unfold aFQ6Zero; omega
    · rw [h.one] at hp; cases hp; unfold aFQ6One; omega

theorem Sim6.set6 (hi : Inv m) {i p : Nat} (h2 : 2 ≤ i) (hp : e[i]? = some (some p)) (v : FQ6) :
    Sim6 (m.set6 p v) e (s.set i (some v)) := by
  refine ⟨h.zero, h.one, fun j t hj ht => ⟨(h.loose j t hj ht).lt, (h.loose j t hj ht).ne⟩, h.inj, ?_⟩
  apply List.ext_getElem?
  intro j
  obtain ⟨hl, he⟩ := List.getElem?_eq_some_iff.mp hp
  rw [List.getElem?_map, List.getElem?_set, ← h.val, List.length_map]
  by_cases hj : i = j
  · subst hj
    rw [if_pos rfl, if_pos hl, hp, Option.map_some, Option.map_some, Mem.six_set6, update_self]
  · rw [if_neg hj, List.getElem?_map]
    rcases hg : e[j]? with _ | _ | t
    · rfl
    · rfl
    · rw [Option.map_some, Option.map_some, Option.map_some, Option.map_some, Mem.six_set6,
        update_of_ne (h.ne hi h2 hp hg hj).symm]

theorem Sim6.push (hi : Inv m) (v : FQ6) : Sim6 (m.push v) (e ++ [some m.next6]) (s ++ [some v]) := by
  have l0 : 0 < e.length := (List.getElem?_eq_some_iff.mp h.zero).1
  have l1 : 1 < e.length := (List.getElem?_eq_some_iff.mp h.one).1
  have at' : ∀ i p, (e ++ [some m.next6])[i]? = some (some p) → e[i]? = some (some p) ∨ i = e.length ∧ p = m.next6 := by
    intro i p hp
    by_cases hl : i < e.length
    · rw [List.getElem?_append_left hl] at hp; exact .inl hp
    · rw [List.getElem?_append_right (by omega)] at hp
      by_cases he : i = e.length
      · subst he; rw [Nat.sub_self] at hp; cases hp; exact .inr ⟨rfl, rfl⟩
      · rw [List.getElem?_eq_none (by simp only [List.length_singleton]; omega)] at hp; cases hp
  refine ⟨by rw [List.getElem?_append_left l0]; exact h.zero, by rw [List.getElem?_append_left l1]; exact h.one, ?_, ?_, ?_⟩
  · intro i p h2 hp
    rcases at' i p hp with hp | ⟨_, rfl⟩
    · have l := h.loose i p h2 hp
      exact ⟨Nat.lt_succ_of_lt l.lt, l.ne⟩
    · refine ⟨Nat.lt_succ_self _, fun g hg => ?_⟩
      have := hi.lt (g := g) hg
      rw [Mem.c0_push, Mem.c1_push]
      omega
  · intro i j p hi2 hj2 hp hp'
    rcases at' i p hp with hp | ⟨a, b⟩ <;> rcases at' j p hp' with hp' | ⟨a', b'⟩
    · exact h.inj i j p hi2 hj2 hp hp'
    · have := h.lt hi hp; omega
    · have := h.lt hi hp'; omega
    · omega
  · rw [List.map_append, List.map_singleton, ← h.val, Option.map_some, Mem.six_push, update_self]
    congr 1
    refine List.map_congr_left fun o ho => ?_
    rcases o with _ | p
    · rfl
    · obtain ⟨i, hp⟩ := List.mem_iff_getElem?.mp ho
      have := h.lt hi hp
      rw [Option.map_some, Option.map_some, update_of_ne (by omega)]

/-- A change inside the objects. -/
theorem Sim6.free (hi : Inv m) {m' : Mem} (hi' : Inv m') (f : Frees m m') : Sim6 m' e s := by
  refine ⟨h.zero, h.one, fun i p h2 hp => (f p (h.loose i p h2 hp)).1, h.inj, ?_⟩
  rw [← h.val]
  refine List.map_congr_left fun o ho => ?_
  rcases o with _ | p
  · rfl
  · obtain ⟨i, hp⟩ := List.mem_iff_getElem?.mp ho
    rw [Option.map_some, Option.map_some, Option.some.injEq]
    by_cases h2 : 2 ≤ i
    · exact (f p (h.loose i p h2 hp)).2
    · have : i = 0 ∨ i = 1 := by omega
      rcases this with rfl | rfl
      · rw [h.zero] at hp; cases hp; rw [hi'.six0, hi.six0]
      · rw [h.one] at hp; cases hp; rw [hi'.six1, hi.six1]

/-- `NewFQ12` of two variables. -/
theorem Sim6.hand (hi : Inv m) {i j p t : Nat} (h2 : 2 ≤ i) (j2 : 2 ≤ j) (hp : e[i]? = some (some p))
    (ht : e[j]? = some (some t)) : Sim6 (m.push12 p t) ((e.set i none).set j none) ((s.set i none).set j none) := by
  have at' : ∀ k u, ((e.set i none).set j none)[k]? = some (some u) → k ≠ i ∧ k ≠ j ∧ e[k]? = some (some u) := by
    intro k u hu
    rw [List.getElem?_set] at hu
    by_cases hj : j = k
    · rw [if_pos hj] at hu; split at hu <;> cases hu
    · rw [if_neg hj, List.getElem?_set] at hu
      by_cases hi : i = k
      · rw [if_pos hi] at hu; split at hu <;> cases hu
      · rw [if_neg hi] at hu
        exact ⟨fun a => hi a.symm, fun a => hj a.symm, hu⟩
  refine ⟨?_, ?_, ?_, ?_, ?_⟩
  · rw [List.getElem?_set_ne (by omega), List.getElem?_set_ne (by omega)]; exact h.zero
  · rw [List.getElem?_set_ne (by omega), List.getElem?_set_ne (by omega)]; exact h.one
  · intro k u hk hu
    obtain ⟨ni, nj, hu⟩ := at' k u hu
    have l := h.loose k u hk hu
    refine ⟨l.lt, fun g hg => ?_⟩
    rw [Mem.next12_push12] at hg
    by_cases hg' : g = m.next12
    · subst hg'
      rw [Mem.c0_push12, Mem.c1_push12, update_self, update_self]
      exact ⟨h.ne hi hk hu hp ni, h.ne hi hk hu ht nj⟩
    · rw [Mem.c0_push12, Mem.c1_push12, update_of_ne hg', update_of_ne hg']
      exact l.ne g (by omega)
  · intro k k' u hk hk' hu hu'
    exact h.inj k k' u hk hk' (at' k u hu).2.2 (at' k' u hu').2.2
  · rw [List.map_set, List.map_set, Mem.six_push12, h.val]; rfl

end

/-- Corresponding states. -/
structure SimV (m : Mem) (e : Vars Nat Nat) (s : Vars FQ6 FQ12) : Prop where
  six : Sim6 m e.six s.six
  twelve : Sim m e.twelve s.twelve

/-- The two results agree: both fail, or both succeed in states that correspond and return the same booleans. -/
def Agree6 (e12 : List Nat) (s12 : List FQ12) (a : Option ((Mem × List (Option Nat)) × List Bool))
    (b : Option (List (Option FQ6) × List Bool)) : Prop :=
  (a = none ∧ b = none) ∨ ∃ m e s o, a = some ((m, e), o) ∧ b = some (s, o) ∧ Sim6 m e s ∧ Sim m e12 s12

theorem push_frees (m : Mem) (v : FQ6) : Frees m (m.push v) := fun p l =>
  ⟨⟨Nat.lt_succ_of_lt l.lt, l.ne⟩, by rw [Mem.six_push, update_of_ne (by have := l.lt; omega)]⟩

theorem expLoop6_spec {fi res : Nat} (hne : fi ≠ res) (fuel : Nat) : ∀ (n : FQRepr) (m : Mem),
    match FQ6.expLoop fuel n (m.six fi) (m.six res) with
    | none => expLoop6 fi res fuel n m = none
    | some y => ∃ v, expLoop6 fi res fuel n m = some ((m.set6 fi v).set6 res y) := by
  have comm : ∀ (m : Mem) (a b : FQ6), (m.set6 res a).set6 fi b = (m.set6 fi b).set6 res a := by
    intro m a b
    unfold Mem.set6
    rw [update_comm hne.symm]
  induction fuel with
  | zero => intro n m; rfl
  | succ fuel ih =>
    intro n m
    rw [FQ6.expLoop, expLoop6]
    by_cases hc : n.cmp bigZero = 0
    · rw [if_neg (not_not.mpr hc), if_neg (not_not.mpr hc)]
      refine ⟨m.six fi, ?_⟩
      unfold Mem.set6
      simp
    · rw [if_pos hc, if_pos hc]
      by_cases ho : n.isEven = true
      · simp only [ho, Bool.not_true, Bool.false_eq_true, if_false]
        rw [mul6_self]
        have k := ih (n.rsh 1) (m.set6 fi (m.six fi).mulSelf)
        rw [Mem.six_set6, update_self, update_of_ne hne.symm] at k
        split
        · rename_i e; rw [e] at k; exact k
        · rename_i y e
          rw [e] at k
          obtain ⟨v, k⟩ := k
          exact ⟨v, by rw [k, Mem.set6_set6]⟩
      · simp only [Bool.not_eq_true] at ho
        simp only [ho, Bool.not_false, if_true]
        rw [mul6_self, mul6_ne _ hne.symm, Mem.six_set6, update_of_ne hne]
        have k := ih (n.rsh 1) ((m.set6 res ((m.six res).mul (m.six fi))).set6 fi (m.six fi).mulSelf)
        rw [Mem.six_set6, update_self, update_of_ne hne.symm, Mem.six_set6, update_self] at k
        split
        · rename_i e; rw [e] at k; exact k
        · rename_i y e
          rw [e] at k
          obtain ⟨v, k⟩ := k
          exact ⟨v, by rw [k, Mem.set6_set6, comm, Mem.set6_set6]⟩

theorem exp6_spec {m : Mem} (hi : Inv m) {p : Nat} (hp : p < m.next6) (n : FQRepr) :
    match (m.six p).exp? n with
    | none => exp6 m p n = none
    | some y => ∃ v, exp6 m p n = some (m.next6, (m.push y).push v) := by
  have l6 := hi.le6
  have e : exp6 m p n = (expLoop6 (m.next6 + 1) m.next6 385 n ((m.push FQ6.one).push (m.six p))).map fun m' =>
      (m.next6, m') := by
    unfold exp6 copy6
    rw [Mem.new6_eq, hi.six1]
    dsimp only
    rw [Mem.new6_eq, Mem.six_push, update_of_ne (by omega)]
    rfl
  have k := expLoop6_spec (fi := m.next6 + 1) (res := m.next6) (by omega) 385 n ((m.push FQ6.one).push (m.six p))
  rw [Mem.six_push, Mem.next6_push, update_self, update_of_ne (by omega), Mem.six_push, update_self] at k
  rw [e]
  unfold FQ6.exp?
  split
  · rename_i h; rw [h] at k; dsimp only at k; rw [k]; rfl
  · rename_i y h
    rw [h] at k
    obtain ⟨v, k⟩ := k
    refine ⟨v, ?_⟩
    rw [k, Option.map_some]
    congr 2
    unfold Mem.set6 Mem.push
    dsimp only
    congr 1
    funext a
    by_cases h0 : a = m.next6
    · subst h0; rw [update_self, update_of_ne (by omega), update_self]
    · rw [update_of_ne h0]
      by_cases h1 : a = m.next6 + 1
      · subst h1; rw [update_self, update_self]
      · rw [update_of_ne h1, update_of_ne h1, update_of_ne h0, update_of_ne h1, update_of_ne h0]

theorem ite_fst {α : Type} (b : Bool) (f g : α) (h : (if !b then (f, false) else (g, true)).2 = false) :
    (if !b then (f, false) else (g, true)).1 = f := by
  cases b
  · rfl
  · cases h

theorem FQ6_inverse_false {f : FQ6} (h : f.inverse.2 = false) : f.inverse.1 = f := by
  rw [FQ6.inverse_eq] at h ⊢
  exact ite_fst _ _ _ h

theorem inverse6_eq (m : Mem) (p : Nat) : inverse6 m p = ((m.six p).inverse.2, m.set6 p (m.six p).inverse.1) := by
  rcases inverse6_cases (m := m) (p := p) rfl with ⟨a, b⟩ | ⟨a, b⟩
  · rw [a, b, FQ6_inverse_false a]
    unfold Mem.set6
    rw [update_eq_self]
  · rw [a, b]

theorem square6_eq (m : Mem) (p : Nat) : square6 m p = m.set6 p (m.six p).square := by unfold square6; rfl
theorem mulBy1_6_eq (m : Mem) (p : Nat) (c : FQ2) : mulBy1_6 m p c = m.set6 p ((m.six p).mulBy1 c) := by
  unfold mulBy1_6; rfl
theorem mulBy01_6_eq (m : Mem) (p : Nat) (c d : FQ2) : mulBy01_6 m p c d = m.set6 p ((m.six p).mulBy01 c d) := by
  unfold mulBy01_6; rfl
theorem isZero6_eq {m : Mem} (hi : Inv m) (p : Nat) : isZero6 m p = (m.six p).isZero := by
  rw [isZero6, equals6, hi.six0]
  unfold FQ6.isZero
  rfl

theorem op6_agree {m : Mem} {e : List (Option Nat)} {s : List (Option FQ6)} {e12 : List Nat} {s12 : List FQ12}
    (h : Sim6 m e s) (h' : Sim m e12 s12) (op : Op6) : Agree6 e12 s12 (op.onMemory m e) (op.onValues s) := by
  have hi := h'.inv
  have one : ∀ (i : Nat) (g : Nat → Mem) (v : FQ6 → FQ6), (∀ p, g p = m.set6 p (v (m.six p))) →
      Agree6 e12 s12 ((mine e i).map fun p => ((g p, e), [])) ((mine s i).map fun x => (s.set i (some (v x)), [])) := by
    intro i g v hg
    rw [h.mine]
    rcases ho : mine e i with _ | p
    · exact .inl ⟨rfl, rfl⟩
    · obtain ⟨h2, hp⟩ := mine_some ho
      exact .inr ⟨_, _, _, _, rfl, rfl, by rw [hg]; exact h.set6 hi h2 hp _,
        by rw [hg]; exact h'.set6 (h.loose i p h2 hp) _⟩
  have two : ∀ (i j : Nat) (g : Nat → Nat → Mem) (v : FQ6 → FQ6 → FQ6),
      (∀ p o, mine e i = some p → live e j = some o → g p o = m.set6 p (v (m.six p) (m.six o))) →
      Agree6 e12 s12 ((mine e i).bind fun p => (live e j).map fun o => ((g p o, e), []))
        ((mine s i).bind fun x => (live s j).map fun y => (s.set i (some (v x y)), [])) := by
    intro i j g v hg
    rw [h.mine, h.live]
    rcases ho : mine e i with _ | p
    · exact .inl ⟨rfl, rfl⟩
    rcases hj : live e j with _ | o
    · exact .inl ⟨rfl, rfl⟩
    obtain ⟨h2, hp⟩ := mine_some ho
    have hg' := hg p o ho hj
    exact .inr ⟨_, _, _, _, rfl, rfl, by rw [hg']; exact h.set6 hi h2 hp _, by rw [hg']; exact h'.set6 (h.loose i p h2 hp) _⟩
  have inv : ∀ (i : Nat) (g : Nat → Bool × Mem) (v : FQ6 → FQ6 × Bool),
      (∀ p, g p = ((v (m.six p)).2, m.set6 p (v (m.six p)).1)) →
      Agree6 e12 s12 ((mine e i).map fun p => (((g p).2, e), [(g p).1]))
        ((mine s i).map fun x => (s.set i (some (v x).1), [(v x).2])) := by
    intro i g v hg
    rw [h.mine]
    rcases ho : mine e i with _ | p
    · exact .inl ⟨rfl, rfl⟩
    · obtain ⟨h2, hp⟩ := mine_some ho
      refine .inr ⟨m.set6 p (v (m.six p)).1, e, _, [(v (m.six p)).2], ?_, rfl, h.set6 hi h2 hp _,
        h'.set6 (h.loose i p h2 hp) _⟩
      rw [Option.map_some, hg]
  cases op <;> simp only [Op6.onMemory, Op6.onValues]
  case new c0 c1 c2 => exact .inr ⟨_, _, _, _, rfl, rfl, h.push hi _, h'.push6 _⟩
  case rand c0 c1 c2 => exact .inr ⟨_, _, _, _, rfl, rfl, h.push hi _, h'.push6 _⟩
  case copy i =>
    rw [h.live]
    rcases hj : live e i with _ | p
    · exact .inl ⟨rfl, rfl⟩
    · exact .inr ⟨_, _, _, _, rfl, rfl, h.push hi _, h'.push6 _⟩
  case exp i n =>
    rw [h.live]
    rcases hj : live e i with _ | p
    · exact .inl ⟨rfl, rfl⟩
    have k := exp6_spec hi (h.lt hi (live_some hj)) n
    rw [Option.map_some, Option.bind_some, Option.bind_some]
    rcases hx : (m.six p).exp? n with _ | y
    · rw [hx] at k; dsimp only at k; rw [k]; exact .inl ⟨rfl, rfl⟩
    · rw [hx] at k
      obtain ⟨v, k⟩ := k
      rw [k]
      have a := h'.push6 y
      have b := a.push6 v
      exact .inr ⟨_, _, _, _, rfl, rfl, (h.push hi y).free a.inv b.inv (push_frees _ v), b⟩
  case double i => exact one i _ FQ6.double fun p => double6_eq m p
  case neg i => exact one i _ FQ6.neg fun p => neg6_eq m p
  case square i => exact one i _ FQ6.square fun p => square6_eq m p
  case nonresidue i => exact one i _ FQ6.mulByNonresidue fun p => mulByNonresidue6_eq m p
  case frobenius i k => exact one i _ (fun x => x.frobeniusMap k) fun p => frobenius6_eq m p k
  case mulBy1 i c1 => exact one i _ (fun x => x.mulBy1 c1) fun p => mulBy1_6_eq m p c1
  case mulBy01 i c0 c1 => exact one i _ (fun x => x.mulBy01 c0 c1) fun p => mulBy01_6_eq m p c0 c1
  case add i j => exact two i j _ FQ6.add fun p o _ _ => add6_eq m p o
  case sub i j => exact two i j _ FQ6.sub fun p o _ _ => sub6_eq m p o
  case mul i j =>
    refine two i j _ (fun x y => if i = j then x.mulSelf else x.mul y) fun p o hp ho => ?_
    obtain ⟨h2, hp⟩ := mine_some hp
    by_cases hij : i = j
    · subst hij
      rw [live_some ho] at hp
      cases hp
      rw [if_pos rfl, mul6_self]
    · rw [if_neg hij, mul6_ne _ (h.ne hi h2 hp (live_some ho) hij)]
  case inverse i => exact inv i (inverse6 m) FQ6.inverse (inverse6_eq m)
  case equals i j =>
    rw [h.live, h.live]
    rcases live e i with _ | p
    · exact .inl ⟨rfl, rfl⟩
    rcases live e j with _ | o
    · exact .inl ⟨rfl, rfl⟩
    exact .inr ⟨_, _, _, _, rfl, rfl, h, h'⟩
  case isZero i =>
    rw [h.live]
    rcases live e i with _ | p
    · exact .inl ⟨rfl, rfl⟩
    refine .inr ⟨m, e, s, [(m.six p).isZero], ?_, rfl, h, h'⟩
    rw [Option.map_some, isZero6_eq hi]

/-- The two results agree: both fail, or both succeed in states that correspond and return the same booleans. -/
def AgreeV (a : Option ((Mem × Vars Nat Nat) × List Bool)) (b : Option (Vars FQ6 FQ12 × List Bool)) : Prop :=
  (a = none ∧ b = none) ∨ ∃ m e s o, a = some ((m, e), o) ∧ b = some (s, o) ∧ SimV m e s

theorem call_agree {m : Mem} {e : Vars Nat Nat} {s : Vars FQ6 FQ12} (h : SimV m e s) (c : Call) :
    AgreeV (c.onMemory m e) (c.onValues s) := by
  cases c with
  | six op =>
    simp only [Call.onMemory, Call.onValues]
    rcases op6_agree h.six h.twelve op with ⟨a, b⟩ | ⟨m', e', s', o, a, b, h1, h2⟩
    · rw [a, b]; exact .inl ⟨rfl, rfl⟩
    · rw [a, b]; exact .inr ⟨_, _, _, _, rfl, rfl, h1, h2⟩
  | twelve op =>
    simp only [Call.onMemory, Call.onValues]
    rcases op_agree h.twelve op with ⟨a, b⟩ | ⟨m', e', s', o, a, b, h1, f⟩
    · rw [a, b]; exact .inl ⟨rfl, rfl⟩
    · rw [a, b]; exact .inr ⟨_, _, _, _, rfl, rfl, h.six.free h.twelve.inv (Sim.inv h1) f, h1⟩
  | newFQ12 i j =>
    simp only [Call.onMemory, Call.onValues]
    by_cases hij : i = j
    · rw [if_pos hij, if_pos hij]; exact .inl ⟨rfl, rfl⟩
    rw [if_neg hij, if_neg hij, h.six.mine, h.six.mine]
    rcases hp : mine e.six i with _ | p
    · exact .inl ⟨rfl, rfl⟩
    rcases ht : mine e.six j with _ | t
    · exact .inl ⟨rfl, rfl⟩
    obtain ⟨i2, hp⟩ := mine_some hp
    obtain ⟨j2, ht⟩ := mine_some ht
    have hi := h.twelve.inv
    exact .inr ⟨_, _, _, _, rfl, rfl, h.six.hand hi i2 j2 hp ht, h.twelve.push12 (h.six.loose i p i2 hp)
      (h.six.loose j t j2 ht) (h.six.ne hi i2 hp ht hij)⟩

theorem calls_agree (cs : List Call) : ∀ {m : Mem} {e : Vars Nat Nat} {s : Vars FQ6 FQ12}, SimV m e s →
    AgreeV (callsOnMemory cs m e) (callsOnValues cs s) := by
  induction cs with
  | nil => intro m e s h; exact .inr ⟨m, e, s, [], rfl, rfl, h⟩
  | cons c cs ih =>
    intro m e s h
    unfold callsOnMemory callsOnValues
    rcases call_agree h c with ⟨a, b⟩ | ⟨m', e', s', o, a, b, h'⟩
    · rw [a, b]; exact .inl ⟨rfl, rfl⟩
    · rw [a, b, Option.bind_some, Option.bind_some]
      dsimp only
      rcases ih h' with ⟨a, b⟩ | ⟨m2, e2, s2, o2, a, b, h2⟩
      · rw [a, b]; exact .inl ⟨rfl, rfl⟩
      · rw [a, b]; exact .inr ⟨m2, e2, s2, o ++ o2, rfl, rfl, h2⟩

theorem init_simV : SimV init ⟨[some aFQ6Zero, some aFQ6One], [aFQ12Zero, aFQ12One]⟩
    ⟨[some FQ6.zero, some FQ6.one], [FQ12.zero, FQ12.one]⟩ := by
  refine ⟨⟨rfl, rfl, ?_, ?_, ?_⟩, init_sim⟩
  · intro i p h2 h
    rw [List.getElem?_eq_none (by simpa using h2)] at h
    cases h
  · intro i j p h2 _ h
    rw [List.getElem?_eq_none (by simpa using h2)] at h
    cases h
  · simp only [List.map_cons, List.map_nil, Option.map_some, init_inv.six0, init_inv.six1]

theorem executeCalls_eq (cs : List Call) : executeCalls cs =
    callsOnValues cs ⟨[some FQ6.zero, some FQ6.one], [FQ12.zero, FQ12.one]⟩ := by
  unfold executeCalls
  rcases calls_agree cs init_simV with ⟨a, b⟩ | ⟨m, e, s, o, a, b, h⟩
  · rw [a, b]; rfl
  · rw [a, b, Option.map_some, h.six.val]
    refine congrArg some (Prod.ext ?_ rfl)
    have := h.twelve.val
    change Vars.mk s.six (e.twelve.map (val m)) = s
    rw [this]

end Bls.Heap12
