import Verif.Spec.HistoryPoints
import Verif.Proof.Scalar
/-
Points in memory: every call leaves what was in use as it was, except the object it is documented to
change, and returns the value that the model on values has.
-/
namespace Bls.HeapPoints

/-- The package variables have their initial value. -/
def Consts (m : Mem) : Prop := init <+: m

/-- The address of the point that the key or signature at `p` holds. -/
def Mem.ptr (m : Mem) (p : Nat) : Option Nat :=
  match m[p]? with
  | some (.sig1 q) | some (.pub1 q) | some (.sig2 q) | some (.pub2 q) => some q
  | _ => none

theorem Consts.append {m : Mem} (h : Consts m) (l : Mem) : Consts (m ++ l) := h.trans (List.prefix_append m l)

theorem Consts.v0 {m : Mem} (h : Consts m) : m.view aG1AffineZero = some (.g1a .zero) := by obtain ⟨l, rfl⟩ := h; rfl
theorem Consts.v1 {m : Mem} (h : Consts m) : m.view aG1AffineOne = some (.g1a .one) := by obtain ⟨l, rfl⟩ := h; rfl
theorem Consts.v2 {m : Mem} (h : Consts m) : m.view aG1ProjectiveZero = some (.g1p .zero) := by
  obtain ⟨l, rfl⟩ := h; rfl
theorem Consts.v3 {m : Mem} (h : Consts m) : m.view aG1ProjectiveOne = some (.g1p .one) := by
  obtain ⟨l, rfl⟩ := h; rfl
theorem Consts.v4 {m : Mem} (h : Consts m) : m.view aG2AffineZero = some (.g2a .zero) := by obtain ⟨l, rfl⟩ := h; rfl
theorem Consts.v5 {m : Mem} (h : Consts m) : m.view aG2AffineOne = some (.g2a .one) := by obtain ⟨l, rfl⟩ := h; rfl
theorem Consts.v6 {m : Mem} (h : Consts m) : m.view aG2ProjectiveZero = some (.g2p .zero) := by
  obtain ⟨l, rfl⟩ := h; rfl
theorem Consts.v7 {m : Mem} (h : Consts m) : m.view aG2ProjectiveOne = some (.g2p .one) := by
  obtain ⟨l, rfl⟩ := h; rfl

theorem getElem?_append {m : Mem} {p : Nat} {o : Obj} (h : m[p]? = some o) (l : Mem) : (m ++ l)[p]? = some o := by
  rw [List.getElem?_append_left (List.getElem?_eq_some_iff.mp h).1, h]

theorem lt_of_getElem? {m : Mem} {p : Nat} {o : Obj} (h : m[p]? = some o) : p < m.length :=
  (List.getElem?_eq_some_iff.mp h).1

theorem view_g1a {m : Mem} {p : Nat} {v : G1Affine} : m.view p = some (.g1a v) ↔ m[p]? = some (.g1a v) := by
  unfold Mem.view; constructor <;> intro h
  · split at h <;> first | (cases h; assumption) | (split at h <;> cases h) | cases h
  · rw [h]
theorem view_g1p {m : Mem} {p : Nat} {v : G1Projective} : m.view p = some (.g1p v) ↔ m[p]? = some (.g1p v) := by
  unfold Mem.view; constructor <;> intro h
  · split at h <;> first | (cases h; assumption) | (split at h <;> cases h) | cases h
  · rw [h]
theorem view_g2a {m : Mem} {p : Nat} {v : G2Affine} : m.view p = some (.g2a v) ↔ m[p]? = some (.g2a v) := by
  unfold Mem.view; constructor <;> intro h
  · split at h <;> first | (cases h; assumption) | (split at h <;> cases h) | cases h
  · rw [h]
theorem view_g2p {m : Mem} {p : Nat} {v : G2Projective} : m.view p = some (.g2p v) ↔ m[p]? = some (.g2p v) := by
  unfold Mem.view; constructor <;> intro h
  · split at h <;> first | (cases h; assumption) | (split at h <;> cases h) | cases h
  · rw [h]
theorem view_msgs {m : Mem} {p : Nat} {v : List (List UInt8)} : m.view p = some (.msgs v) ↔ m[p]? = some (.msgs v) := by
  unfold Mem.view; constructor <;> intro h
  · split at h <;> first | (cases h; assumption) | (split at h <;> cases h) | cases h
  · rw [h]
theorem view_sig1 {m : Mem} {p : Nat} {v : Bls.G1Pubs.Signature} :
    m.view p = some (.sig1 v) ↔ ∃ q, m[p]? = some (.sig1 q) ∧ m[q]? = some (.g2p v.s) := by
  unfold Mem.view; constructor <;> intro h
  · split at h <;> first | (cases h) | skip
    all_goals first | (split at h <;> cases h; done) | skip
    next q hp => split at h; · next v' hq => cases h; exact ⟨q, hp, hq⟩
                 · cases h
  · obtain ⟨q, hp, hq⟩ := h; rw [hp]; simp only [hq]
theorem view_pub1 {m : Mem} {p : Nat} {v : Bls.G1Pubs.PublicKey} :
    m.view p = some (.pub1 v) ↔ ∃ q, m[p]? = some (.pub1 q) ∧ m[q]? = some (.g1p v.p) := by
  unfold Mem.view; constructor <;> intro h
  · split at h <;> first | (cases h) | skip
    all_goals first | (split at h <;> cases h; done) | skip
    next q hp => split at h; · next v' hq => cases h; exact ⟨q, hp, hq⟩
                 · cases h
  · obtain ⟨q, hp, hq⟩ := h; rw [hp]; simp only [hq]
theorem view_sig2 {m : Mem} {p : Nat} {v : Bls.G2Pubs.Signature} :
    m.view p = some (.sig2 v) ↔ ∃ q, m[p]? = some (.sig2 q) ∧ m[q]? = some (.g1p v.s) := by
  unfold Mem.view; constructor <;> intro h
  · split at h <;> first | (cases h) | skip
    all_goals first | (split at h <;> cases h; done) | skip
    next q hp => split at h; · next v' hq => cases h; exact ⟨q, hp, hq⟩
                 · cases h
  · obtain ⟨q, hp, hq⟩ := h; rw [hp]; simp only [hq]
theorem view_pub2 {m : Mem} {p : Nat} {v : Bls.G2Pubs.PublicKey} :
    m.view p = some (.pub2 v) ↔ ∃ q, m[p]? = some (.pub2 q) ∧ m[q]? = some (.g2p v.p) := by
  unfold Mem.view; constructor <;> intro h
  · split at h <;> first | (cases h) | skip
    all_goals first | (split at h <;> cases h; done) | skip
    next q hp => split at h; · next v' hq => cases h; exact ⟨q, hp, hq⟩
                 · cases h
  · obtain ⟨q, hp, hq⟩ := h; rw [hp]; simp only [hq]

theorem view_append {m : Mem} {p : Nat} {v : Val} (h : m.view p = some v) (l : Mem) : (m ++ l).view p = some v := by
  cases v with
  | g1a v => exact view_g1a.mpr (getElem?_append (view_g1a.mp h) l)
  | g1p v => exact view_g1p.mpr (getElem?_append (view_g1p.mp h) l)
  | g2a v => exact view_g2a.mpr (getElem?_append (view_g2a.mp h) l)
  | g2p v => exact view_g2p.mpr (getElem?_append (view_g2p.mp h) l)
  | msgs v => exact view_msgs.mpr (getElem?_append (view_msgs.mp h) l)
  | sig1 v => obtain ⟨q, a, b⟩ := view_sig1.mp h
              exact view_sig1.mpr ⟨q, getElem?_append a l, getElem?_append b l⟩
  | pub1 v => obtain ⟨q, a, b⟩ := view_pub1.mp h
              exact view_pub1.mpr ⟨q, getElem?_append a l, getElem?_append b l⟩
  | sig2 v => obtain ⟨q, a, b⟩ := view_sig2.mp h
              exact view_sig2.mpr ⟨q, getElem?_append a l, getElem?_append b l⟩
  | pub2 v => obtain ⟨q, a, b⟩ := view_pub2.mp h
              exact view_pub2.mpr ⟨q, getElem?_append a l, getElem?_append b l⟩

theorem lt_of_view {m : Mem} {p : Nat} {v : Val} (h : m.view p = some v) : p < m.length := by
  by_contra hn
  rw [Mem.view, List.getElem?_eq_none (Nat.not_lt.mp hn)] at h
  cases h

/-- A held point is a projective point in use. -/
theorem ptr_lt {m : Mem} {p q : Nat} {v : Val} (h : m.view p = some v) (hq : m.ptr p = some q) :
    q < m.length ∧ ∀ w, m[q]? ≠ some (.g2a w) := by
  cases v with
  | g1a v => rw [Mem.ptr, view_g1a.mp h] at hq; cases hq
  | g1p v => rw [Mem.ptr, view_g1p.mp h] at hq; cases hq
  | g2a v => rw [Mem.ptr, view_g2a.mp h] at hq; cases hq
  | g2p v => rw [Mem.ptr, view_g2p.mp h] at hq; cases hq
  | msgs v => rw [Mem.ptr, view_msgs.mp h] at hq; cases hq
  | sig1 v => obtain ⟨q', a, b⟩ := view_sig1.mp h
              rw [Mem.ptr, a] at hq; cases hq
              exact ⟨lt_of_getElem? b, fun w hw => by rw [b] at hw; cases hw⟩
  | pub1 v => obtain ⟨q', a, b⟩ := view_pub1.mp h
              rw [Mem.ptr, a] at hq; cases hq
              exact ⟨lt_of_getElem? b, fun w hw => by rw [b] at hw; cases hw⟩
  | sig2 v => obtain ⟨q', a, b⟩ := view_sig2.mp h
              rw [Mem.ptr, a] at hq; cases hq
              exact ⟨lt_of_getElem? b, fun w hw => by rw [b] at hw; cases hw⟩
  | pub2 v => obtain ⟨q', a, b⟩ := view_pub2.mp h
              rw [Mem.ptr, a] at hq; cases hq
              exact ⟨lt_of_getElem? b, fun w hw => by rw [b] at hw; cases hw⟩

theorem ptr_append {m : Mem} {p : Nat} (h : p < m.length) (l : Mem) : (m ++ l).ptr p = m.ptr p := by
  rw [Mem.ptr, Mem.ptr, List.getElem?_append_left h]

theorem ptr_set {m : Mem} {p p' : Nat} {o : Obj} (h : p' ≠ p) : Mem.ptr (m.set p o) p' = m.ptr p' := by
  rw [Mem.ptr, Mem.ptr, List.getElem?_set_ne h.symm]

theorem view_set {m : Mem} {p p' : Nat} {v : Val} {o : Obj} (h : m.view p' = some v) (hp : p' ≠ p)
    (hq : m.ptr p' ≠ some p) : Mem.view (m.set p o) p' = some v := by
  have key : ∀ q, m.ptr p' = some q → (m.set p o)[q]? = m[q]? := fun q e =>
    List.getElem?_set_ne fun e' => hq (by rw [e, ← e'])
  have e := List.getElem?_set_ne (l := m) (a := o) hp.symm
  cases v with
  | g1a v => exact view_g1a.mpr (e.trans (view_g1a.mp h))
  | g1p v => exact view_g1p.mpr (e.trans (view_g1p.mp h))
  | g2a v => exact view_g2a.mpr (e.trans (view_g2a.mp h))
  | g2p v => exact view_g2p.mpr (e.trans (view_g2p.mp h))
  | msgs v => exact view_msgs.mpr (e.trans (view_msgs.mp h))
  | sig1 v => obtain ⟨q, a, b⟩ := view_sig1.mp h
              exact view_sig1.mpr ⟨q, e.trans a, (key q (by rw [Mem.ptr, a])).trans b⟩
  | pub1 v => obtain ⟨q, a, b⟩ := view_pub1.mp h
              exact view_pub1.mpr ⟨q, e.trans a, (key q (by rw [Mem.ptr, a])).trans b⟩
  | sig2 v => obtain ⟨q, a, b⟩ := view_sig2.mp h
              exact view_sig2.mpr ⟨q, e.trans a, (key q (by rw [Mem.ptr, a])).trans b⟩
  | pub2 v => obtain ⟨q, a, b⟩ := view_pub2.mp h
              exact view_pub2.mpr ⟨q, e.trans a, (key q (by rw [Mem.ptr, a])).trans b⟩

/-! ## Calls that change nothing in use -/

/-- The call panics if `r = none`; else it only adds objects, and its result is related to that of `r`. -/
def Gives {α β : Type} (m : Mem) (x : M α) (r : Option β) (Q : Mem → α → β → Prop) : Prop :=
  match r with
  | none => x m = none
  | some b => ∃ a l, x m = some (a, m ++ l) ∧ Q (m ++ l) a b

/-- `a` is the address of a new object (from `n` on), or of `G2AffineZero`; a point it holds is new. -/
def New (n : Nat) (m : Mem) (a : Nat) (v : Val) : Prop :=
  m.view a = some v ∧ (n ≤ a ∨ a = aG2AffineZero) ∧ ∀ q, m.ptr a = some q → n ≤ q ∧ q ≠ a

/-- The same or nil. -/
def NewOr (n : Nat) (m : Mem) : Option Nat → Option Val → Prop
  | none, none => True
  | some a, some v => New n m a v
  | _, _ => False

theorem New.mono {n n' : Nat} {m : Mem} {a : Nat} {v : Val} (h : New n m a v) (hn : n' ≤ n) : New n' m a v :=
  ⟨h.1, h.2.1.imp hn.trans id, fun q hq => ⟨hn.trans (h.2.2 q hq).1, (h.2.2 q hq).2⟩⟩

theorem bind_apply {α β : Type} (x : M α) (f : α → M β) (m : Mem) : (x >>= f) m = (x m).bind fun t => f t.1 t.2 := by
  show (M.bind x f).run m = _
  induction x generalizing m with
  | ret a => rfl
  | panic => rfl
  | read p k ih =>
    rw [M.bind, M.run, M.run]
    cases m[p]? with
    | none => rfl
    | some o => exact ih o m
  | write p o k ih => exact ih _
  | alloc o k ih => exact ih _ _

theorem run_read {α : Type} {p : Nat} {k : Obj → M α} {m : Mem} {o : Obj} (h : m[p]? = some o) :
    (M.read p k) m = (k o) m := by rw [M.run, h]

theorem Gives.bind {α β γ δ : Type} {m : Mem} {x : M α} {r : Option β} {Q : Mem → α → β → Prop} {f : α → M γ}
    {g : β → Option δ} {Q' : Mem → γ → δ → Prop} (h : Gives m x r Q)
    (hf : ∀ l a b, r = some b → Q (m ++ l) a b → Gives (m ++ l) (f a) (g b) Q') :
    Gives m (x >>= f) (r.bind g) Q' := by
  cases r with
  | none => show (x >>= f) m = none; rw [bind_apply, show x m = none from h]; rfl
  | some b =>
    obtain ⟨a, l, hx, hQ⟩ := h
    have h2 := hf l a b rfl hQ
    rw [Option.bind_some]
    cases hr : g b with
    | none =>
      rw [hr] at h2
      show (x >>= f) m = none
      rw [bind_apply, hx]; exact h2
    | some d =>
      rw [hr] at h2
      obtain ⟨c, l', hc, hd⟩ := h2
      refine ⟨c, l ++ l', ?_, ?_⟩
      · rw [bind_apply, hx, ← List.append_assoc]; exact hc
      · rw [← List.append_assoc]; exact hd

theorem Gives.mono {α β : Type} {m : Mem} {x : M α} {r : Option β} {Q Q' : Mem → α → β → Prop} (h : Gives m x r Q)
    (hQ : ∀ l a b, Q (m ++ l) a b → Q' (m ++ l) a b) : Gives m x r Q' := by
  cases r with
  | none => exact h
  | some b => obtain ⟨a, l, hx, h'⟩ := h; exact ⟨a, l, hx, hQ _ _ _ h'⟩

theorem Gives.pure {α β : Type} {m : Mem} {a : α} {b : β} {Q : Mem → α → β → Prop} (h : Q m a b) :
    Gives m (Pure.pure a) (some b) Q := ⟨a, [], by rw [List.append_nil]; rfl, by rw [List.append_nil]; exact h⟩

/-- Data that is returned. -/
def Same {α : Type} : Mem → α → α → Prop := fun _ a b => a = b

theorem gives_lift {α : Type} (m : Mem) (o : Option α) : Gives m (lift o) o Same := by
  cases o with
  | none => rfl
  | some a => exact ⟨a, [], by rw [List.append_nil]; rfl, rfl⟩

theorem Gives.congr {α β : Type} {m : Mem} {x y : M α} {r : Option β} {Q : Mem → α → β → Prop} (e : x m = y m)
    (h : Gives m y r Q) : Gives m x r Q := by
  cases r with
  | none => exact e.trans h
  | some b => obtain ⟨a, l, hx, hQ⟩ := h; exact ⟨a, l, e.trans hx, hQ⟩

theorem Gives.bindS {α β γ δ : Type} {m : Mem} {x : M α} {v : β} {Q : Mem → α → β → Prop} {f : α → M γ}
    {r : Option δ} {Q' : Mem → γ → δ → Prop} (h : Gives m x (some v) Q)
    (hf : ∀ l a, Q (m ++ l) a v → Gives (m ++ l) (f a) r Q') : Gives m (x >>= f) r Q' :=
  Gives.bind (g := fun _ => r) h fun l a _ e hQ => by cases e; exact hf l a hQ

theorem Gives.lift {α γ δ : Type} {m : Mem} {o : Option α} {f : α → M γ} {g : α → Option δ}
    {Q : Mem → γ → δ → Prop} (H : ∀ a, o = some a → Gives m (f a) (g a) Q) :
    Gives m (HeapPoints.lift o >>= f) (o.bind g) Q := by
  cases o with
  | none => rfl
  | some a => exact Gives.congr (y := f a) rfl (H a rfl)

section reads
variable {γ δ : Type} {m : Mem} {p : Nat} {r : Option δ} {Q : Mem → γ → δ → Prop}

theorem Gives.g1a {v : G1Affine} {f : G1Affine → M γ} (h : m.view p = some (.g1a v)) (H : Gives m (f v) r Q) :
    Gives m (HeapPoints.g1a p >>= f) r Q :=
  H.congr (by rw [bind_apply, HeapPoints.g1a, run_read (view_g1a.mp h)]; rfl)
theorem Gives.g1p {v : G1Projective} {f : G1Projective → M γ} (h : m.view p = some (.g1p v)) (H : Gives m (f v) r Q) :
    Gives m (HeapPoints.g1p p >>= f) r Q :=
  H.congr (by rw [bind_apply, HeapPoints.g1p, run_read (view_g1p.mp h)]; rfl)
theorem Gives.g2a {v : G2Affine} {f : G2Affine → M γ} (h : m.view p = some (.g2a v)) (H : Gives m (f v) r Q) :
    Gives m (HeapPoints.g2a p >>= f) r Q :=
  H.congr (by rw [bind_apply, HeapPoints.g2a, run_read (view_g2a.mp h)]; rfl)
theorem Gives.g2p {v : G2Projective} {f : G2Projective → M γ} (h : m.view p = some (.g2p v)) (H : Gives m (f v) r Q) :
    Gives m (HeapPoints.g2p p >>= f) r Q :=
  H.congr (by rw [bind_apply, HeapPoints.g2p, run_read (view_g2p.mp h)]; rfl)
theorem Gives.msgs {v : List (List UInt8)} {f : List (List UInt8) → M γ} (h : m.view p = some (.msgs v))
    (H : Gives m (f v) r Q) : Gives m (HeapPoints.msgs p >>= f) r Q :=
  H.congr (by rw [bind_apply, HeapPoints.msgs, run_read (view_msgs.mp h)]; rfl)
theorem Gives.sig1S {v : Bls.G1Pubs.Signature} {f : Nat → M γ} (h : m.view p = some (.sig1 v))
    (H : ∀ q, m.view q = some (.g2p v.s) → Gives m (f q) r Q) : Gives m (HeapPoints.sig1S p >>= f) r Q := by
  obtain ⟨q, a, b⟩ := view_sig1.mp h
  exact (H q (view_g2p.mpr b)).congr (by rw [bind_apply, HeapPoints.sig1S, run_read a]; rfl)
theorem Gives.pub1P {v : Bls.G1Pubs.PublicKey} {f : Nat → M γ} (h : m.view p = some (.pub1 v))
    (H : ∀ q, m.view q = some (.g1p v.p) → Gives m (f q) r Q) : Gives m (HeapPoints.pub1P p >>= f) r Q := by
  obtain ⟨q, a, b⟩ := view_pub1.mp h
  exact (H q (view_g1p.mpr b)).congr (by rw [bind_apply, HeapPoints.pub1P, run_read a]; rfl)
theorem Gives.sig2S {v : Bls.G2Pubs.Signature} {f : Nat → M γ} (h : m.view p = some (.sig2 v))
    (H : ∀ q, m.view q = some (.g1p v.s) → Gives m (f q) r Q) : Gives m (HeapPoints.sig2S p >>= f) r Q := by
  obtain ⟨q, a, b⟩ := view_sig2.mp h
  exact (H q (view_g1p.mpr b)).congr (by rw [bind_apply, HeapPoints.sig2S, run_read a]; rfl)
theorem Gives.pub2P {v : Bls.G2Pubs.PublicKey} {f : Nat → M γ} (h : m.view p = some (.pub2 v))
    (H : ∀ q, m.view q = some (.g2p v.p) → Gives m (f q) r Q) : Gives m (HeapPoints.pub2P p >>= f) r Q := by
  obtain ⟨q, a, b⟩ := view_pub2.mp h
  exact (H q (view_g2p.mpr b)).congr (by rw [bind_apply, HeapPoints.pub2P, run_read a]; rfl)

end reads

theorem getElem?_last (m : Mem) (o : Obj) : (m ++ [o])[m.length]? = some o := List.getElem?_concat_length

theorem set_same {m : Mem} {p : Nat} {o : Obj} (h : m[p]? = some o) : m.set p o = m := by
  refine List.ext_getElem? fun j => ?_
  by_cases hj : p = j
  · subst hj; rw [List.getElem?_set_self (lt_of_getElem? h), h]
  · rw [List.getElem?_set_ne hj]

theorem g1aNeg_run {m : Mem} {p : Nat} {v : G1Affine} (h : m.view p = some (.g1a v)) :
    g1aNeg p m = some ((), m.set p (.g1a v.neg)) := by
  rw [g1aNeg, bind_apply, HeapPoints.g1a, run_read (view_g1a.mp h)]
  show (if v.isZero then pure () else write p (.g1a v.neg) : M Unit) m = _
  by_cases hz : v.isZero
  · rw [if_pos hz, G1Affine.neg, if_neg (by rw [hz]; decide), set_same (view_g1a.mp h)]; rfl
  · rw [if_neg hz]; rfl

theorem g2aNeg_run {m : Mem} {p : Nat} {v : G2Affine} (h : m.view p = some (.g2a v)) :
    g2aNeg p m = some ((), m.set p (.g2a v.neg)) := by
  rw [g2aNeg, bind_apply, HeapPoints.g2a, run_read (view_g2a.mp h)]
  show (if v.isZero then pure () else write p (.g2a v.neg) : M Unit) m = _
  by_cases hz : v.isZero
  · rw [if_pos hz, G2Affine.neg, if_neg (by rw [hz]; decide), set_same (view_g2a.mp h)]; rfl
  · rw [if_neg hz]; rfl

theorem ptr_last (m : Mem) (o : Obj) : (m ++ [o]).ptr m.length =
    match o with | .sig1 q | .pub1 q | .sig2 q | .pub2 q => some q | _ => none := by
  rw [Mem.ptr, getElem?_last]
  cases o <;> rfl

/-- The object as a value, if it is a point or a list of messages. -/
def Obj.plain : Obj → Option Val
  | .g1a v => some (.g1a v) | .g1p v => some (.g1p v) | .g2a v => some (.g2a v) | .g2p v => some (.g2p v)
  | .msgs v => some (.msgs v)
  | _ => none

theorem Obj.plain_view {m : Mem} {p : Nat} {o : Obj} {v : Val} (h : m[p]? = some o) (ho : o.plain = some v) :
    m.view p = some v ∧ m.ptr p = none := by
  cases o <;> cases ho <;> exact ⟨by rw [Mem.view, h], by rw [Mem.ptr, h]⟩

theorem gives_alloc (m : Mem) {o : Obj} {v : Val} (ho : o.plain = some v) :
    Gives m (alloc o) (some v) (New m.length) := by
  refine ⟨m.length, [o], rfl, (Obj.plain_view (getElem?_last m o) ho).1, .inl le_rfl, fun q hq => ?_⟩
  rw [(Obj.plain_view (getElem?_last m o) ho).2] at hq
  cases hq

/-- A new point that is not a `G2Affine` is not `G2AffineZero`. -/
theorem New.le {n : Nat} {m : Mem} {a : Nat} {v : Val} (c : Consts m) (h : New n m a v) (hv : ∀ w, v ≠ .g2a w) : n ≤ a := by
  rcases h.2.1 with h1 | h1
  · exact h1
  · have := h.1
    rw [h1, c.v4] at this
    cases this
    exact absurd rfl (hv _)

/-- Making a key or signature that holds a new projective point. -/
theorem gives_allocSig1 {n : Nat} {m : Mem} {q : Nat} {w : G2Projective} (c : Consts m) (h : New n m q (.g2p w))
    (hn : n ≤ m.length) : Gives m (alloc (.sig1 q)) (some (.sig1 ⟨w⟩)) (New n) :=
  ⟨m.length, [_], rfl, view_sig1.mpr ⟨q, getElem?_last m _, getElem?_append (view_g2p.mp h.1) _⟩, .inl hn,
    fun q' hq' => by
      rw [ptr_last] at hq'; cases hq'
      exact ⟨h.le c (fun _ e => by cases e), (lt_of_view h.1).ne⟩⟩
theorem gives_allocPub1 {n : Nat} {m : Mem} {q : Nat} {w : G1Projective} (c : Consts m) (h : New n m q (.g1p w))
    (hn : n ≤ m.length) : Gives m (alloc (.pub1 q)) (some (.pub1 ⟨w⟩)) (New n) :=
  ⟨m.length, [_], rfl, view_pub1.mpr ⟨q, getElem?_last m _, getElem?_append (view_g1p.mp h.1) _⟩, .inl hn,
    fun q' hq' => by
      rw [ptr_last] at hq'; cases hq'
      exact ⟨h.le c (fun _ e => by cases e), (lt_of_view h.1).ne⟩⟩
theorem gives_allocSig2 {n : Nat} {m : Mem} {q : Nat} {w : G1Projective} (c : Consts m) (h : New n m q (.g1p w))
    (hn : n ≤ m.length) : Gives m (alloc (.sig2 q)) (some (.sig2 ⟨w⟩)) (New n) :=
  ⟨m.length, [_], rfl, view_sig2.mpr ⟨q, getElem?_last m _, getElem?_append (view_g1p.mp h.1) _⟩, .inl hn,
    fun q' hq' => by
      rw [ptr_last] at hq'; cases hq'
      exact ⟨h.le c (fun _ e => by cases e), (lt_of_view h.1).ne⟩⟩
theorem gives_allocPub2 {n : Nat} {m : Mem} {q : Nat} {w : G2Projective} (c : Consts m) (h : New n m q (.g2p w))
    (hn : n ≤ m.length) : Gives m (alloc (.pub2 q)) (some (.pub2 ⟨w⟩)) (New n) :=
  ⟨m.length, [_], rfl, view_pub2.mpr ⟨q, getElem?_last m _, getElem?_append (view_g2p.mp h.1) _⟩, .inl hn,
    fun q' hq' => by
      rw [ptr_last] at hq'; cases hq'
      exact ⟨h.le c (fun _ e => by cases e), (lt_of_view h.1).ne⟩⟩

/-! ## g1.go, g2.go -/

theorem len_le (m l : Mem) : m.length ≤ (m ++ l).length := by rw [List.length_append]; exact Nat.le_add_right _ _

theorem loop_some {α : Type} {dbl add : α → α} {zero : α} (b : ℕ) {bit : ℕ → Option Bool} {n : ℕ} (hb : b < 2 ^ n)
    (hbit : ∀ i, i < n → bit i = some (b.testBit i)) : ∃ o, scalarLoop dbl add bit n n 0 zero = some o := by
  obtain ⟨o, h, -⟩ := scalarLoop_spec (A := ℤ) (fun _ _ => True) (dbl := dbl) (add := add) 0 (fun _ => trivial)
    (fun _ => trivial) (zero := zero) trivial b hb hbit
  exact ⟨o, h⟩

theorem loop_fq {α : Type} (dbl add : α → α) (zero : α) (n : FQRepr) :
    ∃ o, scalarLoop dbl add n.bit n.bitLen n.bitLen 0 zero = some o := by
  refine loop_some n.toNat ?_ ?_
  · rw [FQRepr.bitLen_spec]; exact lt_natBitLen n.toNat
  · intro i hi
    rw [FQRepr.bit_spec, if_pos]
    have := natBitLen_le.mpr n.toNat_lt
    rw [FQRepr.bitLen_spec] at hi
    omega

theorem loop_fr {α : Type} (dbl add : α → α) (zero : α) (n : FRRepr) :
    ∃ o, scalarLoop dbl add n.bit n.bitLen n.bitLen 0 zero = some o := by
  refine loop_some n.toNat ?_ ?_
  · rw [FRRepr.bitLen_spec]; exact lt_natBitLen n.toNat
  · intro i hi
    rw [FRRepr.bit_spec, if_pos]
    have := natBitLen_le.mpr n.toNat_lt
    rw [FRRepr.bitLen_spec] at hi
    omega

theorem loop_big {α : Type} (dbl add : α → α) (zero : α) (b : ℕ) :
    ∃ o, scalarLoop dbl add (fun n => some (b.testBit n)) (natBitLen b) (natBitLen b) 0 zero = some o :=
  loop_some b (lt_natBitLen b) fun _ _ => rfl

theorem g1AddAffineWith_zero (g : G1Projective) (other : G1Affine) :
    g1AddAffineWith .zero g other = g.addAffine other := by
  unfold g1AddAffineWith
  by_cases h : (g.isZero && other.isZero) = true
  · rw [if_pos h]
    rw [Bool.and_eq_true] at h
    rw [G1Projective.addAffine, if_pos h.1, G1Affine.toProjective, if_pos h.2]
  · rw [if_neg h]

theorem g2AddAffineWith_zero (g : G2Projective) (other : G2Affine) :
    g2AddAffineWith .zero g other = g.addAffine other := by
  unfold g2AddAffineWith
  by_cases h : (g.isZero && other.isZero) = true
  · rw [if_pos h]
    rw [Bool.and_eq_true] at h
    rw [G2Projective.addAffine, if_pos h.1, G2Affine.toProjective, if_pos h.2]
  · rw [if_neg h]

section points
variable {m : Mem} {p p' : Nat}

theorem g1aCopy_gives {v : G1Affine} (h : m.view p = some (.g1a v)) :
    Gives m (g1aCopy p) (some (.g1a v)) (New m.length) := .g1a h (gives_alloc m rfl)
theorem g1pCopy_gives {v : G1Projective} (h : m.view p = some (.g1p v)) :
    Gives m (g1pCopy p) (some (.g1p v)) (New m.length) := .g1p h (gives_alloc m rfl)
theorem g2aCopy_gives {v : G2Affine} (h : m.view p = some (.g2a v)) :
    Gives m (g2aCopy p) (some (.g2a v)) (New m.length) := .g2a h (gives_alloc m rfl)
theorem g2pCopy_gives {v : G2Projective} (h : m.view p = some (.g2p v)) :
    Gives m (g2pCopy p) (some (.g2p v)) (New m.length) := .g2p h (gives_alloc m rfl)

theorem g1aToProjective_gives (c : Consts m) {v : G1Affine} (h : m.view p = some (.g1a v)) :
    Gives m (g1aToProjective p) (some (.g1p v.toProjective)) (New m.length) := by
  refine .g1a h ?_
  rw [G1Affine.toProjective]
  by_cases hz : v.isZero = true
  · rw [if_pos hz, if_pos hz]; exact g1pCopy_gives c.v2
  · rw [if_neg hz, if_neg hz]; exact gives_alloc m rfl
theorem g2aToProjective_gives (c : Consts m) {v : G2Affine} (h : m.view p = some (.g2a v)) :
    Gives m (g2aToProjective p) (some (.g2p v.toProjective)) (New m.length) := by
  refine .g2a h ?_
  rw [G2Affine.toProjective]
  by_cases hz : v.isZero = true
  · rw [if_pos hz, if_pos hz]; exact g2pCopy_gives c.v6
  · rw [if_neg hz, if_neg hz]; exact gives_alloc m rfl

theorem g1pToAffine_gives (c : Consts m) {v : G1Projective} (h : m.view p = some (.g1p v)) :
    Gives m (g1pToAffine p) (some (.g1a v.toAffine)) (New m.length) := by
  refine .g1p h ?_
  by_cases hz : v.isZero = true
  · rw [if_pos hz, show v.toAffine = .zero by rw [G1Projective.toAffine, if_pos hz]]; exact g1aCopy_gives c.v0
  · rw [if_neg hz]; exact gives_alloc m rfl
theorem new_g2Zero (c : Consts m) (n : Nat) : New n m aG2AffineZero (.g2a .zero) :=
  ⟨c.v4, .inr rfl, fun q hq => by rw [Mem.ptr, view_g2a.mp c.v4] at hq; cases hq⟩
theorem g2pToAffine_gives (c : Consts m) {v : G2Projective} (h : m.view p = some (.g2p v)) :
    Gives m (g2pToAffine p) (some (.g2a v.toAffine)) (New m.length) := by
  refine .g2p h ?_
  by_cases hz : v.isZero = true
  · rw [if_pos hz, show v.toAffine = .zero by rw [G2Projective.toAffine, if_pos hz]]
    exact .pure (new_g2Zero c _)
  · rw [if_neg hz]; exact gives_alloc m rfl

theorem g1pDouble_gives {v : G1Projective} (h : m.view p = some (.g1p v)) :
    Gives m (g1pDouble p) (some (.g1p v.double)) (New m.length) := .g1p h (gives_alloc m rfl)
theorem g2pDouble_gives {v : G2Projective} (h : m.view p = some (.g2p v)) :
    Gives m (g2pDouble p) (some (.g2p v.double)) (New m.length) := .g2p h (gives_alloc m rfl)

theorem g1pAdd_gives {v w : G1Projective} (h : m.view p = some (.g1p v)) (h' : m.view p' = some (.g1p w)) :
    Gives m (g1pAdd p p') (some (.g1p (v.add w))) (New m.length) := .g1p h (.g1p h' (gives_alloc m rfl))
theorem g2pAdd_gives {v w : G2Projective} (h : m.view p = some (.g2p v)) (h' : m.view p' = some (.g2p w)) :
    Gives m (g2pAdd p p') (some (.g2p (v.add w))) (New m.length) := .g2p h (.g2p h' (gives_alloc m rfl))

theorem g1pAddAffine_gives (c : Consts m) {v : G1Projective} {w : G1Affine} (h : m.view p = some (.g1p v))
    (h' : m.view p' = some (.g1a w)) :
    Gives m (g1pAddAffine p p') (some (.g1p (v.addAffine w))) (New m.length) := by
  refine .g1p h (.g1a h' (.g1p c.v2 ?_))
  rw [g1AddAffineWith_zero]
  exact gives_alloc m rfl
theorem g2pAddAffine_gives (c : Consts m) {v : G2Projective} {w : G2Affine} (h : m.view p = some (.g2p v))
    (h' : m.view p' = some (.g2a w)) :
    Gives m (g2pAddAffine p p') (some (.g2p (v.addAffine w))) (New m.length) := by
  refine .g2p h (.g2a h' (.g2p c.v6 ?_))
  rw [g2AddAffineWith_zero]
  exact gives_alloc m rfl

theorem g1aMul_gives (c : Consts m) {v : G1Affine} (h : m.view p = some (.g1a v)) {bit : Nat → Option Bool} {n : Nat}
    {o : G1Projective}
    (ho : scalarLoop G1Projective.double (fun res => res.addAffine v) bit n n 0 .zero = some o) :
    Gives m (g1aMul p bit n) (some (.g1p o)) (New m.length) := by
  refine .g1a h (.g1p c.v2 ?_)
  simp only [g1AddAffineWith_zero]
  rw [ho]
  exact Gives.congr (y := alloc (.g1p o)) rfl (gives_alloc m rfl)
theorem g2aMul_gives (c : Consts m) {v : G2Affine} (h : m.view p = some (.g2a v)) {bit : Nat → Option Bool} {n : Nat}
    {o : G2Projective}
    (ho : scalarLoop G2Projective.double (fun res => res.addAffine v) bit n n 0 .zero = some o) :
    Gives m (g2aMul p bit n) (some (.g2p o)) (New m.length) := by
  refine .g2a h (.g2p c.v6 ?_)
  simp only [g2AddAffineWith_zero]
  rw [ho]
  exact Gives.congr (y := alloc (.g2p o)) rfl (gives_alloc m rfl)
theorem g1pMul_gives (c : Consts m) {v : G1Projective} (h : m.view p = some (.g1p v)) {bit : Nat → Option Bool}
    {n : Nat} {o : G1Projective}
    (ho : scalarLoop G1Projective.double (fun res => res.add v) bit n n 0 .zero = some o) :
    Gives m (g1pMul p bit n) (some (.g1p o)) (New m.length) := by
  refine .g1p h (.g1p c.v2 ?_)
  rw [ho]
  exact Gives.congr (y := alloc (.g1p o)) rfl (gives_alloc m rfl)
theorem g2pMul_gives (c : Consts m) {v : G2Projective} (h : m.view p = some (.g2p v)) {bit : Nat → Option Bool}
    {n : Nat} {o : G2Projective}
    (ho : scalarLoop G2Projective.double (fun res => res.add v) bit n n 0 .zero = some o) :
    Gives m (g2pMul p bit n) (some (.g2p o)) (New m.length) := by
  refine .g2p h (.g2p c.v6 ?_)
  rw [ho]
  exact Gives.congr (y := alloc (.g2p o)) rfl (gives_alloc m rfl)

theorem g1aMulFQ_gives (c : Consts m) {v : G1Affine} (h : m.view p = some (.g1a v)) (b : FQRepr) :
    Gives m (g1aMul p b.bit b.bitLen) (some (.g1p (v.mul b))) (New m.length) := by
  obtain ⟨o, ho⟩ := loop_fq G1Projective.double (fun res => res.addAffine v) .zero b
  rw [show v.mul b = o by rw [G1Affine.mul, G1Affine.mul?, ho]; rfl]
  exact g1aMul_gives c h ho
theorem g1aMulFR_gives (c : Consts m) {v : G1Affine} (h : m.view p = some (.g1a v)) (b : FRRepr) :
    Gives m (g1aMul p b.bit b.bitLen) (some (.g1p (v.mulFR b))) (New m.length) := by
  obtain ⟨o, ho⟩ := loop_fr G1Projective.double (fun res => res.addAffine v) .zero b
  rw [show v.mulFR b = o by rw [G1Affine.mulFR, G1Affine.mulFR?, ho]; rfl]
  exact g1aMul_gives c h ho
theorem g1pMulFQ_gives (c : Consts m) {v : G1Projective} (h : m.view p = some (.g1p v)) (b : FQRepr) :
    Gives m (g1pMul p b.bit b.bitLen) (some (.g1p (v.mul b))) (New m.length) := by
  obtain ⟨o, ho⟩ := loop_fq G1Projective.double (fun res => res.add v) .zero b
  rw [show v.mul b = o by rw [G1Projective.mul, G1Projective.mul?, ho]; rfl]
  exact g1pMul_gives c h ho
theorem g1pMulFR_gives (c : Consts m) {v : G1Projective} (h : m.view p = some (.g1p v)) (b : FRRepr) :
    Gives m (g1pMul p b.bit b.bitLen) (some (.g1p (v.mulFR b))) (New m.length) := by
  obtain ⟨o, ho⟩ := loop_fr G1Projective.double (fun res => res.add v) .zero b
  rw [show v.mulFR b = o by rw [G1Projective.mulFR, G1Projective.mulFR?, ho]; rfl]
  exact g1pMul_gives c h ho
theorem g2aMulFQ_gives (c : Consts m) {v : G2Affine} (h : m.view p = some (.g2a v)) (b : FQRepr) :
    Gives m (g2aMul p b.bit b.bitLen) (some (.g2p (v.mul b))) (New m.length) := by
  obtain ⟨o, ho⟩ := loop_fq G2Projective.double (fun res => res.addAffine v) .zero b
  rw [show v.mul b = o by rw [G2Affine.mul, G2Affine.mul?, ho]; rfl]
  exact g2aMul_gives c h ho
theorem g2aMulFR_gives (c : Consts m) {v : G2Affine} (h : m.view p = some (.g2a v)) (b : FRRepr) :
    Gives m (g2aMul p b.bit b.bitLen) (some (.g2p (v.mulFR b))) (New m.length) := by
  obtain ⟨o, ho⟩ := loop_fr G2Projective.double (fun res => res.addAffine v) .zero b
  rw [show v.mulFR b = o by rw [G2Affine.mulFR, G2Affine.mulFR?, ho]; rfl]
  exact g2aMul_gives c h ho
theorem g2pMulFQ_gives (c : Consts m) {v : G2Projective} (h : m.view p = some (.g2p v)) (b : FQRepr) :
    Gives m (g2pMul p b.bit b.bitLen) (some (.g2p (v.mul b))) (New m.length) := by
  obtain ⟨o, ho⟩ := loop_fq G2Projective.double (fun res => res.add v) .zero b
  rw [show v.mul b = o by rw [G2Projective.mul, G2Projective.mul?, ho]; rfl]
  exact g2pMul_gives c h ho
theorem g2pMulFR_gives (c : Consts m) {v : G2Projective} (h : m.view p = some (.g2p v)) (b : FRRepr) :
    Gives m (g2pMul p b.bit b.bitLen) (some (.g2p (v.mulFR b))) (New m.length) := by
  obtain ⟨o, ho⟩ := loop_fr G2Projective.double (fun res => res.add v) .zero b
  rw [show v.mulFR b = o by rw [G2Projective.mulFR, G2Projective.mulFR?, ho]; rfl]
  exact g2pMul_gives c h ho
theorem g2aMulBig_gives (c : Consts m) {v : G2Affine} (h : m.view p = some (.g2a v)) (b : Nat) :
    Gives m (g2aMulBig p b) (some (.g2p (v.mulBig b))) (New m.length) := by
  obtain ⟨o, ho⟩ := loop_big G2Projective.double (fun res => res.addAffine v) .zero b
  rw [natBitLen] at ho
  rw [show v.mulBig b = o by rw [G2Affine.mulBig, G2Affine.mulBig?, ho]; rfl]
  exact g2aMul_gives c h ho

/-! The results of the decoders and hash functions: those with `infinity` set are `G1AffineZero`, `G2AffineZero`. -/

theorem g1aReturn_gives (c : Consts m) {v : G1Affine} (hv : v.infinity = true → v = .zero) :
    Gives m (g1aReturn v) (some (.g1a v)) (New m.length) := by
  unfold g1aReturn
  by_cases h : v.infinity = true
  · rw [if_pos h, hv h]; exact g1aCopy_gives c.v0
  · rw [if_neg h]; exact gives_alloc m rfl
theorem g2aReturn_gives (c : Consts m) {v : G2Affine} (hv : v.infinity = true → v = .zero) :
    Gives m (g2aReturn v) (some (.g2a v)) (New m.length) := by
  unfold g2aReturn
  by_cases h : v.infinity = true
  · rw [if_pos h, hv h]; exact g2aCopy_gives c.v4
  · rw [if_neg h]; exact gives_alloc m rfl

theorem orNil_gives {α : Type} {f : α → M Nat} {val : α → Val} (o : Option α)
    (h : ∀ a, o = some a → Gives m (f a) (some (val a)) (New m.length)) :
    Gives m (orNil f o) (some (o.map val)) (NewOr m.length) := by
  cases o with
  | none => exact .pure trivial
  | some a => exact .bindS (h a rfl) fun l b hb => .pure hb

theorem g1_toAffine_inf (g : G1Projective) : g.toAffine.infinity = true → g.toAffine = .zero := by
  unfold G1Projective.toAffine
  split
  · exact fun _ => rfl
  · split <;> exact fun h => absurd h Bool.false_ne_true
theorem g2_toAffine_inf (g : G2Projective) : g.toAffine.infinity = true → g.toAffine = .zero := by
  unfold G2Projective.toAffine
  split
  · exact fun _ => rfl
  · split <;> exact fun h => absurd h Bool.false_ne_true
theorem g1_fromX_inf {x : FQ} {b : Bool} {v : G1Affine} (h : G1Affine.getPointFromX x b = some v) :
    v.infinity = false := by
  unfold G1Affine.getPointFromX at h
  dsimp only at h
  split at h
  · cases h
  · cases h; rfl
theorem g2_fromX_inf {x : FQ2} {b : Bool} {v : G2Affine} (h : G2Affine.getPointFromX x b = some v) :
    v.infinity = false := by
  unfold G2Affine.getPointFromX at h
  dsimp only at h
  split at h
  · cases h
  · cases h; rfl
theorem g1_unchecked_inf {b : List UInt8} {v : G1Affine} (h : G1Affine.decompressUnchecked b = some v) :
    v.infinity = true → v = .zero := by
  unfold G1Affine.decompressUnchecked at h
  dsimp only at h
  split at h
  · cases h
  · split at h
    · split at h
      · cases h
      · cases h; exact fun _ => rfl
    · exact fun hv => absurd (hv.symm.trans (g1_fromX_inf h)) (by decide)
theorem g2_unchecked_inf {b : List UInt8} {v : G2Affine} (h : G2Affine.decompressUnchecked b = some v) :
    v.infinity = true → v = .zero := by
  unfold G2Affine.decompressUnchecked at h
  dsimp only at h
  split at h
  · cases h
  · split at h
    · split at h
      · cases h
      · cases h; exact fun _ => rfl
    · exact fun hv => absurd (hv.symm.trans (g2_fromX_inf h)) (by decide)
theorem g1_decompress_inf {b : List UInt8} {v : G1Affine} (h : G1Affine.decompress b = some v) :
    v.infinity = true → v = .zero := by
  unfold G1Affine.decompress at h
  split at h
  · cases h
  · next hu =>
    split at h
    · cases h
    · cases h; exact g1_unchecked_inf hu
theorem g2_decompress_inf {b : List UInt8} {v : G2Affine} (h : G2Affine.decompress b = some v) :
    v.infinity = true → v = .zero := by
  unfold G2Affine.decompress at h
  split at h
  · cases h
  · next hu =>
    split at h
    · cases h
    · cases h; exact g2_unchecked_inf hu
theorem hashG1_inf {sha : List UInt8 → List UInt8} {b : List UInt8} {v : G1Affine} (h : Bls.hashG1 sha b = some v) :
    v.infinity = true → v = .zero := by
  unfold Bls.hashG1 optimizedSWUMap at h
  simp only [Option.bind_eq_some_iff, Option.map_eq_some_iff] at h
  obtain ⟨t1, -, t2, -, p, -, p2, -, rfl⟩ := h
  unfold clearH
  exact g1_toAffine_inf _
theorem hashG2_inf {sha : List UInt8 → List UInt8} {b : List UInt8} {v : G2Affine} (h : Bls.hashG2 sha b = some v) :
    v.infinity = true → v = .zero := by
  unfold Bls.hashG2 optimizedSWUMap2 at h
  simp only [Option.bind_eq_some_iff, Option.map_eq_some_iff] at h
  obtain ⟨t1, -, t2, -, p, -, p2, -, p', -, p2', -, rfl⟩ := h
  unfold clearH2
  exact g2_toAffine_inf _
theorem orElse_some {α : Type} {a : Option α} {f : Unit → Option α} {v : α} (h : a.orElse f = some v) :
    a = some v ∨ f () = some v := by
  cases a with
  | none => exact .inr h
  | some a => exact .inl h
theorem swEncodeG2_inf {t : FQ2} {v : G2Affine} (h : Bls.swEncodeG2 t = some v) : v.infinity = true → v = .zero := by
  unfold Bls.swEncodeG2 swEncodeW swEncodeX1 swEncodePick at h
  split at h
  · cases h; exact fun _ => rfl
  · have hf : v.infinity = false := by
      split at h
      · cases h
        split <;> decide +kernel
      · rcases orElse_some h with h | h
        · exact g2_fromX_inf h
        · rcases orElse_some h with h | h <;> exact g2_fromX_inf h
    exact fun hv => absurd (hv.symm.trans hf) (by decide)

theorem hashG1_gives (c : Consts m) (sha : List UInt8 → List UInt8) (b : List UInt8) :
    Gives m (hashG1 sha b) ((Bls.hashG1 sha b).map .g1a) (New m.length) := by
  rw [Option.map_eq_bind]
  exact .lift fun v hv => g1aReturn_gives c (hashG1_inf hv)
theorem hashG2_gives (c : Consts m) (sha : List UInt8 → List UInt8) (b : List UInt8) :
    Gives m (hashG2 sha b) ((Bls.hashG2 sha b).map .g2a) (New m.length) := by
  rw [Option.map_eq_bind]
  refine .lift fun v hv => ?_
  by_cases h : v.infinity = true
  · rw [if_pos h, Function.comp, hashG2_inf hv h]; exact .pure (new_g2Zero c _)
  · rw [if_neg h]; exact gives_alloc m rfl
theorem hashG2WithDomain_gives (sha : List UInt8 → List UInt8) (b d : List UInt8) :
    Gives m (hashG2WithDomain sha b d) ((Bls.hashG2WithDomain sha b d).map .g2p) (New m.length) := by
  rw [Option.map_eq_bind]
  exact .lift fun v hv => gives_alloc m rfl

end points

end Bls.HeapPoints
