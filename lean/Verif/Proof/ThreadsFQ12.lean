import Verif.Proof.HeapFQ12
import Verif.Spec.ThreadsFQ12
import Mathlib.Order.Basic
import Mathlib.Algebra.Order.Group.Nat
/-
Which objects the calls of Verif/Model/HeapFQ12.lean access.
-/
namespace Bls.HeapFQ12
open Bls.Heap12 (Mem aFQ6Zero aFQ12One)

/-- The objects that a goroutine may read and write: `FQ6`s, and the pointers in `FQ12`s. -/
structure Fp where
  RC : Nat → Prop
  WC : Nat → Prop
  RS : Nat → Prop
  WS : Nat → Prop

/-- The memory with the pointers of an `FQ12` replaced. -/
def put (m : Mem) (f p q : Nat) : Mem := { m with twelve := Function.update m.twelve f (p, q) }

/-- A pointer that may be written through. -/
def WP (F : Fp) (m : Mem) (p : Nat) : Prop := F.WC p ∧ p < m.next6

/-- All accesses of the call, alone on `m`, are allowed, and if it returns, then `Q` holds. -/
def M.Ok {α : Type} (F : Fp) (Q : α → Mem → Prop) : M α → Mem → Prop
  | .ret a, m => Q a m
  | .panic, _ => True
  | .readSix p k, m => F.RC p ∧ (k (m.six p)).Ok F Q m
  | .writeSix p v k, m => F.WC p ∧ k.Ok F Q (m.set6 p v)
  | .readTwelve f k, m => (F.RS f ∧ f < m.next12) ∧ (k (m.twelve f)).Ok F Q m
  | .writeTwelve f p q k, m => (F.WS f ∧ WP F m p ∧ WP F m q) ∧ k.Ok F Q (put m f p q)
  | .newSix v k, m => (k (m.new6 v).1).Ok F Q (m.new6 v).2
  | .newTwelve p q k, m => (p < m.next6 ∧ q < m.next6) ∧ (k (m.new12 p q).1).Ok F Q (m.new12 p q).2

variable {F : Fp}

theorem Ok_bind {α β : Type} {Q : β → Mem → Prop} (x : M α) (f : α → M β) (m : Mem) :
    (x >>= f).Ok F Q m ↔ x.Ok F (fun a m' => (f a).Ok F Q m') m := by
  show (M.bind x f).Ok F Q m ↔ _
  induction x generalizing m with
  | ret a => rfl
  | panic => rfl
  | readSix p k ih => exact and_congr Iff.rfl (ih _ m)
  | writeSix p v k ih => exact and_congr Iff.rfl (ih _)
  | readTwelve p k ih => exact and_congr Iff.rfl (ih _ m)
  | writeTwelve f p q k ih => exact and_congr Iff.rfl (ih _)
  | newSix v k ih => exact ih _ _
  | newTwelve p q k ih => exact and_congr Iff.rfl (ih _ _)

theorem Ok_mono {α : Type} {P Q : α → Mem → Prop} (hPQ : ∀ a m, P a m → Q a m) :
    ∀ (x : M α) (m : Mem), x.Ok F P m → x.Ok F Q m := by
  intro x
  induction x with
  | ret a => exact fun m h => hPQ a m h
  | panic => exact fun _ _ => trivial
  | readSix p k ih => exact fun m h => ⟨h.1, ih _ m h.2⟩
  | writeSix p v k ih => exact fun m h => ⟨h.1, ih _ h.2⟩
  | readTwelve p k ih => exact fun m h => ⟨h.1, ih _ m h.2⟩
  | writeTwelve f p q k ih => exact fun m h => ⟨h.1, ih _ h.2⟩
  | newSix v k ih => exact fun m h => ih _ _ h
  | newTwelve p q k ih => exact fun m h => ⟨h.1, ih _ _ h.2⟩

/-- What a call does not change: the pointers in the `FQ12`s, unless it sets them to something that may be written. -/
structure Stable (F : Fp) (m m' : Mem) : Prop where
  sixes : m.next6 ≤ m'.next6
  twelves : m.next12 ≤ m'.next12
  ptr : ∀ f < m.next12, m'.twelve f = m.twelve f ∨ (F.WS f ∧ WP F m' (m'.c0 f) ∧ WP F m' (m'.c1 f))
  fresh : ∀ f, m.next12 ≤ f → f < m'.next12 → m'.c0 f < m'.next6 ∧ m'.c1 f < m'.next6

theorem Stable.refl (m : Mem) : Stable F m m :=
  ⟨le_rfl, le_rfl, fun _ _ => .inl rfl, fun _ h h' => absurd h' (not_lt.mpr h)⟩

theorem Stable.trans {m m' m'' : Mem} (h : Stable F m m') (h' : Stable F m' m'') : Stable F m m'' where
  sixes := h.sixes.trans h'.sixes
  twelves := h.twelves.trans h'.twelves
  ptr f hf := by
    rcases h'.ptr f (hf.trans_le h.twelves) with h1 | h1
    · rcases h.ptr f hf with h2 | h2
      · exact .inl (h1.trans h2)
      · have e0 : m''.c0 f = m'.c0 f := congrArg Prod.fst h1
        have e1 : m''.c1 f = m'.c1 f := congrArg Prod.snd h1
        refine .inr ⟨h2.1, ?_, ?_⟩
        · rw [e0]; exact ⟨h2.2.1.1, h2.2.1.2.trans_le h'.sixes⟩
        · rw [e1]; exact ⟨h2.2.2.1, h2.2.2.2.trans_le h'.sixes⟩
    · exact .inr h1
  fresh f hf hf' := by
    by_cases hlt : f < m'.next12
    · rcases h'.ptr f hlt with h1 | h1
      · have e0 : m''.c0 f = m'.c0 f := congrArg Prod.fst h1
        have e1 : m''.c1 f = m'.c1 f := congrArg Prod.snd h1
        rw [e0, e1]
        exact ⟨(h.fresh f hf hlt).1.trans_le h'.sixes, (h.fresh f hf hlt).2.trans_le h'.sixes⟩
      · exact ⟨h1.2.1.2, h1.2.2.2⟩
    · exact h'.fresh f (not_lt.mp hlt) hf'

theorem put_c0 (m : Mem) (f p q : Nat) : (put m f p q).c0 f = p := by
  show (Function.update m.twelve f (p, q) f).1 = p
  rw [Function.update_self]
theorem put_c1 (m : Mem) (f p q : Nat) : (put m f p q).c1 f = q := by
  show (Function.update m.twelve f (p, q) f).2 = q
  rw [Function.update_self]
theorem new12_c0 (m : Mem) (p q : Nat) : (m.new12 p q).2.c0 m.next12 = p := by
  show (Function.update m.twelve m.next12 (p, q) m.next12).1 = p
  rw [Function.update_self]
theorem new12_c1 (m : Mem) (p q : Nat) : (m.new12 p q).2.c1 m.next12 = q := by
  show (Function.update m.twelve m.next12 (p, q) m.next12).2 = q
  rw [Function.update_self]

/-- What holds when the program has returned includes that it got there. -/
theorem Ok_ran {α : Type} {Q : α → Mem → Prop} : ∀ (x : M α) (m : Mem), x.Ok F Q m →
    x.Ok F (fun a m' => Q a m' ∧ x.run m = some (a, m')) m := by
  intro x
  induction x with
  | ret a => exact fun m h => ⟨h, rfl⟩
  | panic => exact fun _ _ => trivial
  | readSix p k ih => exact fun m h => ⟨h.1, ih _ m h.2⟩
  | writeSix p v k ih => exact fun m h => ⟨h.1, ih _ h.2⟩
  | readTwelve p k ih => exact fun m h => ⟨h.1, ih _ m h.2⟩
  | writeTwelve g p q k ih => exact fun m h => ⟨h.1, ih _ h.2⟩
  | newSix v k ih => exact fun m h => ih _ _ h
  | newTwelve p q k ih => exact fun m h => ⟨h.1, ih _ _ h.2⟩

theorem Ok_stable {α : Type} {Q : α → Mem → Prop} : ∀ (x : M α) (m : Mem), x.Ok F Q m →
    x.Ok F (fun a m' => Q a m' ∧ Stable F m m') m := by
  intro x
  induction x with
  | ret a => exact fun m h => ⟨h, .refl m⟩
  | panic => exact fun _ _ => trivial
  | readSix p k ih => exact fun m h => ⟨h.1, ih _ m h.2⟩
  | writeSix p v k ih =>
    exact fun m h => ⟨h.1, Ok_mono (fun a m' hh => ⟨hh.1, ⟨hh.2.sixes, hh.2.twelves, hh.2.ptr, hh.2.fresh⟩⟩) _ _
      (ih _ h.2)⟩
  | readTwelve p k ih => exact fun m h => ⟨h.1, ih _ m h.2⟩
  | writeTwelve g p q k ih =>
    intro m h
    have hs : Stable F m (put m g p q) := ⟨le_rfl, le_rfl, fun f hf => by
      by_cases hfp : f = g
      · subst hfp
        refine .inr ⟨h.1.1, ?_⟩
        rw [put_c0, put_c1]; exact h.1.2
      · exact .inl (Function.update_of_ne hfp _ _), fun f h h' => absurd h' (not_lt.mpr h)⟩
    exact ⟨h.1, Ok_mono (fun a m' hh => ⟨hh.1, hs.trans hh.2⟩) _ _ (ih _ h.2)⟩
  | newSix v k ih =>
    intro m h
    have hs : Stable F m (m.new6 v).2 :=
      ⟨Nat.le_succ _, le_rfl, fun _ _ => .inl rfl, fun f h h' => absurd h' (not_lt.mpr h)⟩
    exact Ok_mono (fun a m' hh => ⟨hh.1, hs.trans hh.2⟩) _ _ (ih _ _ h)
  | newTwelve p q k ih =>
    intro m h
    have hs : Stable F m (m.new12 p q).2 := ⟨le_rfl, Nat.le_succ _,
      fun f hf => .inl (Function.update_of_ne hf.ne _ _),
      fun f h1 h2 => by
        have : f = m.next12 := le_antisymm (Nat.lt_succ_iff.mp h2) h1
        subst this
        rw [new12_c0, new12_c1]; exact h.1⟩
    exact ⟨h.1, Ok_mono (fun a m' hh => ⟨hh.1, hs.trans hh.2⟩) _ _ (ih _ _ h.2)⟩

/-- The accesses that a program is allowed: what is new, the package variables for reading, and more. -/
structure Wide (F : Fp) (n nf : Nat) : Prop where
  sub : ∀ p, F.WC p → F.RC p
  subS : ∀ f, F.WS f → F.RS f
  zero : F.RC aFQ6Zero
  newC : ∀ p, n ≤ p → F.WC p
  newS : ∀ f, nf ≤ f → F.WS f

/-- The element at `f` may be read. -/
structure Rd (F : Fp) (m : Mem) (f : Nat) : Prop where
  rs : F.RS f
  lt : f < m.next12
  c0 : F.RC (m.c0 f)
  c1 : F.RC (m.c1 f)

/-- The element at `f` may be changed. -/
structure Wr (F : Fp) (m : Mem) (f : Nat) : Prop where
  ws : F.WS f
  lt : f < m.next12
  c0 : WP F m (m.c0 f)
  c1 : WP F m (m.c1 f)

/-- What holds of the memory at all times. -/
structure Base (F : Fp) (n nf : Nat) (m : Mem) : Prop where
  wide : Wide F n nf
  old : n ≤ m.next6
  old12 : nf ≤ m.next12
  ptr : ∀ f < m.next12, m.c0 f < m.next6 ∧ m.c1 f < m.next6
  one : Rd F m aFQ12One

section
variable {n nf : Nat} {m m' : Mem} {f p : Nat}

theorem WP.stable (h : WP F m p) (hs : Stable F m m') : WP F m' p := ⟨h.1, h.2.trans_le hs.sixes⟩

theorem Wr.rd (w : Wide F n nf) (h : Wr F m f) : Rd F m f := ⟨w.subS f h.ws, h.lt, w.sub _ h.c0.1, w.sub _ h.c1.1⟩

theorem Rd.stable (w : Wide F n nf) (h : Rd F m f) (hs : Stable F m m') : Rd F m' f := by
  rcases hs.ptr f h.lt with e | e
  · have e0 : m'.c0 f = m.c0 f := congrArg Prod.fst e
    have e1 : m'.c1 f = m.c1 f := congrArg Prod.snd e
    exact ⟨h.rs, h.lt.trans_le hs.twelves, e0 ▸ h.c0, e1 ▸ h.c1⟩
  · exact ⟨h.rs, h.lt.trans_le hs.twelves, w.sub _ e.2.1.1, w.sub _ e.2.2.1⟩

theorem Wr.stable (h : Wr F m f) (hs : Stable F m m') : Wr F m' f := by
  rcases hs.ptr f h.lt with e | e
  · have e0 : m'.c0 f = m.c0 f := congrArg Prod.fst e
    have e1 : m'.c1 f = m.c1 f := congrArg Prod.snd e
    exact ⟨h.ws, h.lt.trans_le hs.twelves, e0 ▸ h.c0.stable hs, e1 ▸ h.c1.stable hs⟩
  · exact ⟨h.ws, h.lt.trans_le hs.twelves, e.2.1, e.2.2⟩

theorem Base.stable (h : Base F n nf m) (hs : Stable F m m') : Base F n nf m' where
  wide := h.wide
  old := h.old.trans hs.sixes
  old12 := h.old12.trans hs.twelves
  ptr f hf := by
    by_cases hlt : f < m.next12
    · rcases hs.ptr f hlt with e | e
      · have e0 : m'.c0 f = m.c0 f := congrArg Prod.fst e
        have e1 : m'.c1 f = m.c1 f := congrArg Prod.snd e
        rw [e0, e1]
        exact ⟨(h.ptr f hlt).1.trans_le hs.sixes, (h.ptr f hlt).2.trans_le hs.sixes⟩
      · exact ⟨e.2.1.2, e.2.2.2⟩
    · exact hs.fresh f (not_lt.mp hlt) hf
  one := h.one.stable h.wide hs

end

/-- A call followed by another. -/
theorem Ok_seq {α β : Type} {P : α → Mem → Prop} {Q : β → Mem → Prop} {x : M α} {f : α → M β} {n nf : Nat} {m : Mem}
    (hb : Base F n nf m) (hx : x.Ok F P m)
    (hf : ∀ a m', P a m' → Stable F m m' → Base F n nf m' → (f a).Ok F Q m') : (x >>= f).Ok F Q m :=
  (Ok_bind x f m).mpr (Ok_mono (fun a m' h => hf a m' h.1 h.2 (hb.stable h.2)) _ _ (Ok_stable _ _ hx))

/-- Nothing is claimed about what the call returns. -/
abbrev Any {α : Type} : α → Mem → Prop := fun _ _ => True

/-! ## fq6.go -/

/-- The accesses of the call are allowed on every memory. -/
def Always {α : Type} (F : Fp) (x : M α) : Prop := ∀ m, x.Ok F Any m

theorem Always.bind {α β : Type} {x : M α} {f : α → M β} (h : Always F x) (hf : ∀ a, Always F (f a)) :
    Always F (x >>= f) := fun m => (Ok_bind x f m).mpr (Ok_mono (fun a m' _ => hf a m') _ _ (h m))
theorem always_pure {α : Type} (a : α) : Always F (pure a : M α) := fun _ => trivial
theorem always_six {p : Nat} (h : F.RC p) : Always F (six p) := fun _ => ⟨h, trivial⟩
theorem always_setSix {p : Nat} {v : FQ6} (h : F.WC p) : Always F (setSix p v) := fun _ => ⟨h, trivial⟩
theorem always_setC0 {p : Nat} {v : FQ2} (h : F.RC p) (h' : F.WC p) : Always F (setC0 p v) :=
  (always_six h).bind fun _ => always_setSix h'
theorem always_setC1 {p : Nat} {v : FQ2} (h : F.RC p) (h' : F.WC p) : Always F (setC1 p v) :=
  (always_six h).bind fun _ => always_setSix h'
theorem always_setC2 {p : Nat} {v : FQ2} (h : F.RC p) (h' : F.WC p) : Always F (setC2 p v) :=
  (always_six h).bind fun _ => always_setSix h'

macro "always" : tactic =>
  `(tactic| repeat first
    | exact always_pure _ | exact always_six (by assumption) | exact always_setSix (by assumption)
    | exact always_setC0 (by assumption) (by assumption) | exact always_setC1 (by assumption) (by assumption)
    | exact always_setC2 (by assumption) (by assumption)
    | refine Always.bind ?_ fun _ => ?_)

section
variable {p o : Nat} (hr : F.RC p) (hw : F.WC p) (ho : F.RC o)
include hr ho
theorem equals6_always : Always F (equals6 p o) := by unfold equals6; always
include hw
theorem add6_always : Always F (add6 p o) := by unfold add6; always
theorem sub6_always : Always F (sub6 p o) := by unfold sub6; always
theorem mul6_always : Always F (mul6 p o) := by unfold mul6; always
omit ho
theorem mulByNonresidue6_always : Always F (mulByNonresidue6 p) := by unfold mulByNonresidue6; always
theorem mulBy1_6_always (d : FQ2) : Always F (mulBy1_6 p d) := by unfold mulBy1_6; always
theorem mulBy01_6_always (d d' : FQ2) : Always F (mulBy01_6 p d d') := by unfold mulBy01_6; always
theorem double6_always : Always F (double6 p) := by unfold double6; always
theorem neg6_always : Always F (neg6 p) := by unfold neg6; always
theorem frobenius6_always (k : UInt8) : Always F (frobenius6 p k) := by unfold frobenius6; always
theorem square6_always : Always F (square6 p) := by unfold square6; always
theorem inverse6_always : Always F (inverse6 p) := by
  unfold inverse6
  refine (always_six hr).bind fun v => ?_
  cases v.inverse with
  | mk w b =>
    cases b
    · exact always_pure _
    · exact (always_setSix hw).bind fun _ => always_pure _
end

/-! ## fq12.go -/

section
variable {β : Type} {Q : β → Mem → Prop} {n nf : Nat} {m m0 : Mem}

theorem Ok_c0 {f : Nat} {k : Nat → M β} (h : Rd F m f) (hk : (k (m.c0 f)).Ok F Q m) : (c0 f >>= k).Ok F Q m :=
  (Ok_bind _ _ _).mpr ⟨⟨h.rs, h.lt⟩, hk⟩
theorem Ok_c1 {f : Nat} {k : Nat → M β} (h : Rd F m f) (hk : (k (m.c1 f)).Ok F Q m) : (c1 f >>= k).Ok F Q m :=
  (Ok_bind _ _ _).mpr ⟨⟨h.rs, h.lt⟩, hk⟩
theorem Ok_six {p : Nat} {k : FQ6 → M β} (h : F.RC p) (hk : (k (m.six p)).Ok F Q m) : (six p >>= k).Ok F Q m := ⟨h, hk⟩

/-- A call followed by another, with what has happened since `m0`. -/
theorem Ok_then {α : Type} {P : α → Mem → Prop} {x : M α} {f : α → M β} (hb : Base F n nf m) (hs : Stable F m0 m)
    (hx : x.Ok F P m) (hf : ∀ a m', P a m' → Stable F m0 m' → Base F n nf m' → (f a).Ok F Q m') : (x >>= f).Ok F Q m :=
  Ok_seq hb hx fun a m' hP hs' hb' => hf a m' hP (hs.trans hs') hb'

/-- A call on `FQ6` objects followed by another. -/
theorem Ok_al {α : Type} {x : M α} {f : α → M β} (hb : Base F n nf m) (hs : Stable F m0 m) (hx : Always F x)
    (hf : ∀ a m', Stable F m0 m' → Base F n nf m' → (f a).Ok F Q m') : (x >>= f).Ok F Q m :=
  Ok_then hb hs (hx m) fun a m' _ hs' hb' => hf a m' hs' hb'

theorem copy6_ok (hb : Base F n nf m) {p : Nat} (h : F.RC p) : (copy6 p).Ok F (fun q m' => WP F m' q) m :=
  ⟨h, hb.wide.newC _ hb.old, Nat.lt_succ_self _⟩
theorem newSix_ok (hb : Base F n nf m) (v : FQ6) : (newSix v).Ok F (fun q m' => WP F m' q) m :=
  ⟨hb.wide.newC _ hb.old, Nat.lt_succ_self _⟩
/-- The call makes a copy of an `FQ6`, and another follows. -/
theorem Ok_copy6 {p : Nat} {f : Nat → M β} (hb : Base F n nf m) (hs : Stable F m0 m) (h : F.RC p)
    (hf : ∀ q m', WP F m' q → F.RC q → Stable F m0 m' → Base F n nf m' → (f q).Ok F Q m') : (copy6 p >>= f).Ok F Q m :=
  Ok_then hb hs (copy6_ok hb h) fun q m' hq hs' hb' => hf q m' hq (hb.wide.sub _ hq.1) hs' hb'

theorem newTwelve_ok (hb : Base F n nf m) {p q : Nat} (hp : WP F m p) (hq : WP F m q) :
    (newTwelve p q).Ok F (fun f m' => Wr F m' f) m := by
  refine ⟨⟨hp.2, hq.2⟩, hb.wide.newS _ hb.old12, Nat.lt_succ_self _, ?_, ?_⟩
  · show WP F _ ((m.new12 p q).2.c0 m.next12); rw [new12_c0]; exact hp
  · show WP F _ ((m.new12 p q).2.c1 m.next12); rw [new12_c1]; exact hq

theorem putC0_ok (hb : Base F n nf m) {f p : Nat} (h : Wr F m f) (hp : WP F m p) : (putC0 f p).Ok F Any m :=
  Ok_c1 (h.rd hb.wide) ⟨⟨h.ws, hp, h.c1⟩, trivial⟩
theorem putC1_ok (hb : Base F n nf m) {f p : Nat} (h : Wr F m f) (hp : WP F m p) : (putC1 f p).Ok F Any m :=
  Ok_c0 (h.rd hb.wide) ⟨⟨h.ws, h.c0, hp⟩, trivial⟩
end

section
variable {n nf : Nat} {m : Mem} {f g : Nat}

theorem conjugate_ok (hb : Base F n nf m) (h : Wr F m f) : (conjugate f).Ok F Any m :=
  Ok_c1 (h.rd hb.wide) (neg6_always (h.rd hb.wide).c1 h.c1.1 _)

theorem double_ok (hb : Base F n nf m) (h : Wr F m f) : (double f).Ok F Any m := by
  refine Ok_c0 (h.rd hb.wide) (Ok_al hb (.refl m) (double6_always (h.rd hb.wide).c0 h.c0.1) fun _ m1 hs hb1 => ?_)
  have h1 := h.stable hs
  exact Ok_c1 (h1.rd hb.wide) (double6_always (h1.rd hb.wide).c1 h1.c1.1 _)

theorem neg_ok (hb : Base F n nf m) (h : Wr F m f) : (neg f).Ok F Any m := by
  refine Ok_c1 (h.rd hb.wide) (Ok_al hb (.refl m) (neg6_always (h.rd hb.wide).c1 h.c1.1) fun _ m1 hs hb1 => ?_)
  have h1 := h.stable hs
  exact Ok_c0 (h1.rd hb.wide) (neg6_always (h1.rd hb.wide).c0 h1.c0.1 _)

theorem add_ok (hb : Base F n nf m) (h : Wr F m f) (h' : Rd F m g) : (add f g).Ok F Any m := by
  refine Ok_c0 (h.rd hb.wide) (Ok_c0 h' (Ok_al hb (.refl m) (add6_always (h.rd hb.wide).c0 h.c0.1 h'.c0) fun _ m1 hs hb1 => ?_))
  have h1 := h.stable hs
  have h2 := h'.stable hb.wide hs
  exact Ok_c1 (h1.rd hb.wide) (Ok_c1 h2 (add6_always (h1.rd hb.wide).c1 h1.c1.1 h2.c1 _))

theorem sub_ok (hb : Base F n nf m) (h : Wr F m f) (h' : Rd F m g) : (sub f g).Ok F Any m := by
  refine Ok_c0 (h.rd hb.wide) (Ok_c0 h' (Ok_al hb (.refl m) (sub6_always (h.rd hb.wide).c0 h.c0.1 h'.c0) fun _ m1 hs hb1 => ?_))
  have h1 := h.stable hs
  have h2 := h'.stable hb.wide hs
  exact Ok_c1 (h1.rd hb.wide) (Ok_c1 h2 (sub6_always (h1.rd hb.wide).c1 h1.c1.1 h2.c1 _))

theorem equals_ok (hb : Base F n nf m) (h : Rd F m f) (h' : Rd F m g) : (equals f g).Ok F Any m := by
  refine Ok_c0 h (Ok_c0 h' (Ok_al hb (.refl m) (equals6_always h.c0 h'.c0) fun b m1 hs hb1 => ?_))
  cases b
  · trivial
  · have h1 := h.stable hb.wide hs
    have h2 := h'.stable hb.wide hs
    exact Ok_c1 h1 (Ok_c1 h2 (equals6_always h1.c1 h2.c1 _))

theorem isZero_ok (hb : Base F n nf m) (h : Rd F m f) : (isZero f).Ok F Any m := by
  refine Ok_c0 h (Ok_al hb (.refl m) (equals6_always h.c0 hb.wide.zero) fun b m1 hs hb1 => ?_)
  cases b
  · trivial
  · have h1 := h.stable hb.wide hs
    exact Ok_c1 h1 (equals6_always h1.c1 hb.wide.zero _)

theorem rand_ok (hb : Base F n nf m) (a b : FQ6) : (rand a b).Ok F (fun f m' => Wr F m' f) m := by
  refine Ok_seq hb (newSix_ok hb a) fun p m1 hp hs1 hb1 => Ok_seq hb1 (newSix_ok hb1 b) fun q m2 hq hs2 hb2 => ?_
  exact newTwelve_ok hb2 (hp.stable hs2) hq

theorem copy_ok (hb : Base F n nf m) (h : Rd F m f) : (copy f).Ok F (fun g m' => Wr F m' g) m := by
  refine Ok_c0 h (Ok_seq hb (copy6_ok hb h.c0) fun p m1 hp hs1 hb1 => ?_)
  have h1 := h.stable hb.wide hs1
  refine Ok_c1 h1 (Ok_seq hb1 (copy6_ok hb1 h1.c1) fun q m2 hq hs2 hb2 => ?_)
  exact newTwelve_ok hb2 (hp.stable hs2) hq

/-- `f`, which may be changed, after more has happened. -/
theorem Wr.both (w : Wide F n nf) (h : Wr F m f) {m' : Mem} (hs : Stable F m m') : Wr F m' f ∧ Rd F m' f :=
  ⟨h.stable hs, (h.stable hs).rd w⟩

theorem mulBy014_ok (hb : Base F n nf m) (h : Wr F m f) (d0 d1 d4 : FQ2) : (mulBy014 f d0 d1 d4).Ok F Any m := by
  have w := hb.wide
  have hr := h.rd w
  refine Ok_c0 hr (Ok_copy6 hb (.refl m) hr.c0 fun aa m1 ha har hs1 hb1 => ?_)
  refine Ok_al hb1 hs1 (mulBy01_6_always har ha.1 _ _) fun _ m2 hs2 hb2 => ?_
  have h2 := h.both w hs2
  refine Ok_c1 h2.2 (Ok_copy6 hb2 hs2 h2.2.c1 fun bb m3 hB hBr hs3 hb3 => ?_)
  refine Ok_al hb3 hs3 (mulBy1_6_always hBr hB.1 _) fun _ m4 hs4 hb4 => ?_
  have h4 := h.both w hs4
  refine Ok_c1 h4.2 (Ok_c0 h4.2 (Ok_al hb4 hs4 (add6_always h4.2.c1 h4.1.c1.1 h4.2.c0) fun _ m5 hs5 hb5 => ?_))
  have h5 := h.both w hs5
  refine Ok_c1 h5.2 (Ok_al hb5 hs5 (mulBy01_6_always h5.2.c1 h5.1.c1.1 _ _) fun _ m6 hs6 hb6 => ?_)
  have h6 := h.both w hs6
  refine Ok_c1 h6.2 (Ok_al hb6 hs6 (sub6_always h6.2.c1 h6.1.c1.1 har) fun _ m7 hs7 hb7 => ?_)
  have h7 := h.both w hs7
  refine Ok_c1 h7.2 (Ok_al hb7 hs7 (sub6_always h7.2.c1 h7.1.c1.1 hBr) fun _ m8 hs8 hb8 => ?_)
  refine Ok_copy6 hb8 hs8 hBr fun t m9 ht htr hs9 hb9 => ?_
  refine Ok_then hb9 hs9 (putC0_ok hb9 (h.stable hs9) ht) fun _ m10 _ hs10 hb10 => ?_
  have h10 := h.both w hs10
  refine Ok_c0 h10.2 (Ok_al hb10 hs10 (mulByNonresidue6_always h10.2.c0 h10.1.c0.1) fun _ m11 hs11 hb11 => ?_)
  have h11 := h.both w hs11
  exact Ok_c0 h11.2 (add6_always h11.2.c0 h11.1.c0.1 har _)

theorem mul_ok (hb : Base F n nf m) (h : Wr F m f) (h' : Rd F m g) : (mul f g).Ok F Any m := by
  have w := hb.wide
  have hr := h.rd w
  refine Ok_c0 hr (Ok_copy6 hb (.refl m) hr.c0 fun aa m1 ha har hs1 hb1 => ?_)
  have g1 := h'.stable w hs1
  refine Ok_c0 g1 (Ok_al hb1 hs1 (mul6_always har ha.1 g1.c0) fun _ m2 hs2 hb2 => ?_)
  have h2 := h.both w hs2
  refine Ok_c1 h2.2 (Ok_copy6 hb2 hs2 h2.2.c1 fun bb m3 hB hBr hs3 hb3 => ?_)
  have g3 := h'.stable w hs3
  refine Ok_c1 g3 (Ok_al hb3 hs3 (mul6_always hBr hB.1 g3.c1) fun _ m4 hs4 hb4 => ?_)
  have g4 := h'.stable w hs4
  refine Ok_c0 g4 (Ok_copy6 hb4 hs4 g4.c0 fun t m5 ht htr hs5 hb5 => ?_)
  have g5 := h'.stable w hs5
  refine Ok_c1 g5 (Ok_al hb5 hs5 (add6_always htr ht.1 g5.c1) fun _ m6 hs6 hb6 => ?_)
  have h6 := h.both w hs6
  refine Ok_c1 h6.2 (Ok_c0 h6.2 (Ok_al hb6 hs6 (add6_always h6.2.c1 h6.1.c1.1 h6.2.c0) fun _ m7 hs7 hb7 => ?_))
  have h7 := h.both w hs7
  refine Ok_c1 h7.2 (Ok_al hb7 hs7 (mul6_always h7.2.c1 h7.1.c1.1 htr) fun _ m8 hs8 hb8 => ?_)
  have h8 := h.both w hs8
  refine Ok_c1 h8.2 (Ok_al hb8 hs8 (sub6_always h8.2.c1 h8.1.c1.1 har) fun _ m9 hs9 hb9 => ?_)
  have h9 := h.both w hs9
  refine Ok_c1 h9.2 (Ok_al hb9 hs9 (sub6_always h9.2.c1 h9.1.c1.1 hBr) fun _ m10 hs10 hb10 => ?_)
  refine Ok_copy6 hb10 hs10 hBr fun u m11 hu hur hs11 hb11 => ?_
  refine Ok_then hb11 hs11 (putC0_ok hb11 (h.stable hs11) hu) fun _ m12 _ hs12 hb12 => ?_
  have h12 := h.both w hs12
  refine Ok_c0 h12.2 (Ok_al hb12 hs12 (mulByNonresidue6_always h12.2.c0 h12.1.c0.1) fun _ m13 hs13 hb13 => ?_)
  have h13 := h.both w hs13
  exact Ok_c0 h13.2 (add6_always h13.2.c0 h13.1.c0.1 har _)

theorem expLoop_ok {fi res : Nat} : ∀ (fuel : Nat) (k : FQRepr) {m : Mem}, Base F n nf m → Wr F m fi → Wr F m res →
    (expLoop fi res fuel k).Ok F Any m
  | 0, _, _, _, _, _ => trivial
  | fuel + 1, k, m, hb, hi, hr => by
    have w := hb.wide
    have K : ∀ m1, Stable F m m1 → Base F n nf m1 → (mul fi fi >>= fun _ => expLoop fi res fuel (k.rsh 1)).Ok F Any m1 :=
      fun m1 hs1 hb1 => Ok_then hb1 hs1 (mul_ok hb1 (hi.stable hs1) (hi.both w hs1).2) fun _ m2 _ hs2 hb2 =>
        expLoop_ok fuel (k.rsh 1) hb2 (hi.stable hs2) (hr.stable hs2)
    unfold expLoop
    split
    · dsimp only
      split
      · exact Ok_seq hb (mul_ok hb hr (hi.rd w)) fun _ m1 _ hs1 hb1 => K m1 hs1 hb1
      · exact K m (.refl m) hb
    · trivial

theorem exp_ok (hb : Base F n nf m) (h : Rd F m f) (k : FQRepr) : (exp f k).Ok F (fun g m' => Wr F m' g) m := by
  refine Ok_seq hb (copy_ok hb hb.one) fun res m1 h1 hs1 hb1 => ?_
  refine Ok_seq hb1 (copy_ok hb1 (h.stable hb.wide hs1)) fun fi m2 h2 hs2 hb2 => ?_
  exact Ok_seq hb2 (expLoop_ok 385 k hb2 h2 (h1.stable hs2)) fun _ m3 _ hs3 _ => (h1.stable hs2).stable hs3

theorem frobeniusMap_ok (hb : Base F n nf m) (h : Wr F m f) (k : UInt8) : (frobeniusMap f k).Ok F Any m := by
  have w := hb.wide
  have hr := h.rd w
  refine Ok_c0 hr (Ok_al hb (.refl m) (frobenius6_always hr.c0 h.c0.1 k) fun _ m1 hs1 hb1 => ?_)
  have h1 := h.both w hs1
  refine Ok_c1 h1.2 (Ok_al hb1 hs1 (frobenius6_always h1.2.c1 h1.1.c1.1 k) fun _ m2 hs2 hb2 => ?_)
  have h2 := h.both w hs2
  refine Ok_c1 h2.2 (Ok_c1 h2.2 (Ok_six h2.2.c1 (Ok_al hb2 hs2 (always_setC0 h2.2.c1 h2.1.c1.1) fun _ m3 hs3 hb3 => ?_)))
  have h3 := h.both w hs3
  refine Ok_c1 h3.2 (Ok_c1 h3.2 (Ok_six h3.2.c1 (Ok_al hb3 hs3 (always_setC1 h3.2.c1 h3.1.c1.1) fun _ m4 hs4 hb4 => ?_)))
  have h4 := h.both w hs4
  exact Ok_c1 h4.2 (Ok_c1 h4.2 (Ok_six h4.2.c1 (always_setC2 h4.2.c1 h4.1.c1.1 _)))

theorem square_ok (hb : Base F n nf m) (h : Wr F m f) : (square f).Ok F Any m := by
  have w := hb.wide
  have hr := h.rd w
  refine Ok_c0 hr (Ok_copy6 hb (.refl m) hr.c0 fun ab m1 ha har hs1 hb1 => ?_)
  have h1 := h.both w hs1
  refine Ok_c1 h1.2 (Ok_al hb1 hs1 (mul6_always har ha.1 h1.2.c1) fun _ m2 hs2 hb2 => ?_)
  have h2 := h.both w hs2
  refine Ok_c0 h2.2 (Ok_copy6 hb2 hs2 h2.2.c0 fun c m3 hc hcr hs3 hb3 => ?_)
  have h3 := h.both w hs3
  refine Ok_c1 h3.2 (Ok_al hb3 hs3 (add6_always hcr hc.1 h3.2.c1) fun _ m4 hs4 hb4 => ?_)
  have h4 := h.both w hs4
  refine Ok_c1 h4.2 (Ok_seq hb4 (copy6_ok hb4 h4.2.c1) fun d m5 hd hs5' hb5 => ?_)
  have hdr := w.sub _ hd.1
  have h := (h.stable hs4).stable hs5'
  refine Ok_al hb5 (.refl m5) (mulByNonresidue6_always hdr hd.1) fun _ m6 hs6 hb6 => ?_
  have h6 := h.both w hs6
  refine Ok_c0 h6.2 (Ok_al hb6 hs6 (add6_always hdr hd.1 h6.2.c0) fun _ m7 hs7 hb7 => ?_)
  refine Ok_al hb7 hs7 (mul6_always hdr hd.1 hcr) fun _ m8 hs8 hb8 => ?_
  refine Ok_al hb8 hs8 (sub6_always hdr hd.1 har) fun _ m9 hs9 hb9 => ?_
  refine Ok_copy6 hb9 hs9 har fun t m10 ht htr hs10 hb10 => ?_
  refine Ok_then hb10 hs10 (putC1_ok hb10 (h.stable hs10) ht) fun _ m11 _ hs11 hb11 => ?_
  have h11 := h.both w hs11
  refine Ok_c1 h11.2 (Ok_al hb11 hs11 (add6_always h11.2.c1 h11.1.c1.1 har) fun _ m12 hs12 hb12 => ?_)
  refine Ok_al hb12 hs12 (mulByNonresidue6_always har ha.1) fun _ m13 hs13 hb13 => ?_
  refine Ok_al hb13 hs13 (sub6_always hdr hd.1 har) fun _ m14 hs14 hb14 => ?_
  exact putC0_ok hb14 (h.stable hs14) (hd.stable hs14)

theorem inverseHead_ok (hb : Base F n nf m) (h : Rd F m f) : (inverseHead f).Ok F (fun p m' => WP F m' p) m := by
  have w := hb.wide
  refine Ok_c0 h (Ok_seq hb (copy6_ok hb h.c0) fun p m1 hp hs1 hb1 => ?_)
  have hpr := w.sub _ hp.1
  have h := h.stable w hs1
  refine Ok_al hb1 (.refl m1) (square6_always hpr hp.1) fun _ m2 hs2 hb2 => ?_
  have h2 := h.stable w hs2
  refine Ok_c1 h2 (Ok_copy6 hb2 hs2 h2.c1 fun q m3 hq hqr hs3 hb3 => ?_)
  refine Ok_al hb3 hs3 (square6_always hqr hq.1) fun _ m4 hs4 hb4 => ?_
  refine Ok_al hb4 hs4 (mulByNonresidue6_always hqr hq.1) fun _ m5 hs5 hb5 => ?_
  exact Ok_al hb5 hs5 (sub6_always hpr hp.1 hqr) fun _ m6 hs6 _ => hp.stable hs6

theorem inverseTail_ok (hb : Base F n nf m) (h : Wr F m f) {p : Nat} (hp : F.RC p) : (inverseTail f p).Ok F Any m := by
  have w := hb.wide
  refine Ok_seq hb (copy6_ok hb hp) fun q m1 hq hs1 hb1 => Ok_seq hb1 (copy6_ok hb1 hp) fun t m2 ht hs2 hb2 => ?_
  have h := (h.stable hs1).stable hs2
  have hq := hq.stable hs2
  have hqr := w.sub _ hq.1
  have htr := w.sub _ ht.1
  refine Ok_c0 (h.rd w) (Ok_al hb2 (.refl m2) (mul6_always hqr hq.1 (h.rd w).c0) fun _ m3 hs3 hb3 => ?_)
  have h3 := h.both w hs3
  refine Ok_c1 h3.2 (Ok_al hb3 hs3 (mul6_always htr ht.1 h3.2.c1) fun _ m4 hs4 hb4 => ?_)
  refine Ok_al hb4 hs4 (neg6_always htr ht.1) fun _ m5 hs5 hb5 => ?_
  refine Ok_then hb5 hs5 (putC0_ok hb5 (h.stable hs5) (hq.stable hs5)) fun _ m6 _ hs6 hb6 => ?_
  exact putC1_ok hb6 (h.stable hs6) (ht.stable hs6)

theorem inverse_ok (hb : Base F n nf m) (h : Wr F m f) : (inverse f).Ok F Any m := by
  have w := hb.wide
  refine Ok_seq hb (inverseHead_ok hb (h.rd w)) fun p m1 hp hs1 hb1 => ?_
  have hpr := w.sub _ hp.1
  refine Ok_al hb1 hs1 (inverse6_always hpr hp.1) fun b m2 hs2 hb2 => ?_
  cases b
  · trivial
  · exact Ok_seq hb2 (inverseTail_ok hb2 (h.stable hs2) hpr) fun _ _ _ _ _ => trivial

/-! ## pairing.go -/

theorem ell_ok (hb : Base F n nf m) (h : Wr F m f) (c : Coeffs) (p : G1Affine) : (ell f c p).Ok F Any m :=
  mulBy014_ok hb h _ _ _

theorem ellAll_ok : ∀ (pairs : List PairingItem) {m : Mem}, Base F n nf m → Wr F m f → (ellAll f pairs).Ok F Any m
  | [], _, _, _ => trivial
  | pair :: rest, m, hb, h => by
    unfold ellAll
    split
    · exact Ok_seq hb (ell_ok hb h _ _) fun _ m1 _ hs1 hb1 =>
        Ok_seq hb1 (ellAll_ok rest hb1 (h.stable hs1)) fun _ _ _ _ _ => trivial
    · trivial

theorem millerGo_ok {b : FQRepr} : ∀ (k i : Nat) (foundOne : Bool) (pairs : List PairingItem) {m : Mem}, Base F n nf m →
    Wr F m f → (millerGo f b k i foundOne pairs).Ok F Any m
  | 0, _, _, _, _, _, _ => trivial
  | k + 1, i, foundOne, pairs, m, hb, h => by
    unfold millerGo
    split
    · trivial
    · split
      · exact millerGo_ok k _ _ _ hb h
      · refine Ok_seq hb (ellAll_ok pairs hb h) fun pairs1 m1 _ hs1 hb1 => ?_
        have h1 := h.stable hs1
        split
        · refine Ok_seq hb1 (ellAll_ok pairs1 hb1 h1) fun pairs2 m2 _ hs2 hb2 => ?_
          exact Ok_seq hb2 (square_ok hb2 (h1.stable hs2)) fun _ m3 _ hs3 hb3 =>
            millerGo_ok k _ _ _ hb3 ((h1.stable hs2).stable hs3)
        · exact Ok_seq hb1 (square_ok hb1 h1) fun _ m3 _ hs3 hb3 => millerGo_ok k _ _ _ hb3 (h1.stable hs3)

theorem millerLoop_ok (hb : Base F n nf m) (items : List (G1Affine × G2Prepared)) :
    (millerLoop items).Ok F (fun g m' => Wr F m' g) m := by
  refine Ok_seq hb (copy_ok hb hb.one) fun g m1 h hs1 hb1 => ?_
  refine Ok_then hb1 (.refl m1) (millerGo_ok _ _ _ _ hb1 h) fun ps m2 _ hs2 hb2 => ?_
  refine Ok_then hb2 hs2 (ellAll_ok ps hb2 (h.stable hs2)) fun _ m3 _ hs3 hb3 => ?_
  split
  · exact Ok_then hb3 hs3 (conjugate_ok hb3 (h.stable hs3)) fun _ m4 _ hs4 _ => h.stable hs4
  · exact h.stable hs3

theorem expByX_ok (hb : Base F n nf m) (h : Rd F m f) (x : FQRepr) : (expByX f x).Ok F (fun g m' => Wr F m' g) m := by
  refine Ok_seq hb (exp_ok hb h x) fun g m1 h1 hs1 hb1 => ?_
  split
  · exact Ok_seq hb1 (conjugate_ok hb1 h1) fun _ m2 _ hs2 _ => h1.stable hs2
  · exact h1

theorem finalExponentiation_ok (hb : Base F n nf m) (h : Rd F m f) :
    (finalExponentiation f).Ok F (fun r m' => ∀ g, r = some g → Wr F m' g) m := by
  have w := hb.wide
  refine Ok_seq hb (copy_ok hb h) fun f1 m1 hf1 hs1 hb => ?_
  have h := h.stable w hs1
  refine Ok_seq hb (conjugate_ok hb hf1) fun _ m2 _ hs hb => ?_
  have h := h.stable w hs; have hf1 := hf1.stable hs
  refine Ok_seq hb (copy_ok hb h) fun f2 m3 hf2 hs hb => ?_
  have hf1 := hf1.stable hs
  refine Ok_seq hb (inverse_ok hb hf2) fun ok m4 _ hs hb => ?_
  have hf1 := hf1.stable hs; have hf2 := hf2.stable hs
  cases ok with
  | false => exact fun g hg => by cases hg
  | true =>
  refine Ok_seq hb (copy_ok hb (hf1.rd w)) fun r m5 hr hs hb => ?_
  have hf2 := hf2.stable hs
  refine Ok_seq hb (mul_ok hb hr (hf2.rd w)) fun _ m6 _ hs hb => ?_
  have hr := hr.stable hs
  refine Ok_seq hb (copy_ok hb (hr.rd w)) fun f2 m7 hf2 hs hb => ?_
  have hr := hr.stable hs
  refine Ok_seq hb (frobeniusMap_ok hb hr 2) fun _ m8 _ hs hb => ?_
  have hr := hr.stable hs; have hf2 := hf2.stable hs
  refine Ok_seq hb (mul_ok hb hr (hf2.rd w)) fun _ m9 _ hs hb => ?_
  have hr := hr.stable hs
  refine Ok_seq hb (copy_ok hb (hr.rd w)) fun y0 m10 hy0 hs hb => ?_
  have hr := hr.stable hs
  refine Ok_seq hb (square_ok hb hy0) fun _ m11 _ hs hb => ?_
  have hr := hr.stable hs; have hy0 := hy0.stable hs
  refine Ok_seq hb (expByX_ok hb (hy0.rd w) _) fun y1 m12 hy1 hs hb => ?_
  have hr := hr.stable hs; have hy0 := hy0.stable hs
  refine Ok_seq hb (expByX_ok hb (hy1.rd w) _) fun y2 m13 hy2 hs hb => ?_
  have hr := hr.stable hs; have hy0 := hy0.stable hs; have hy1 := hy1.stable hs
  refine Ok_seq hb (copy_ok hb (hr.rd w)) fun y3 m14 hy3 hs hb => ?_
  have hr := hr.stable hs; have hy0 := hy0.stable hs; have hy1 := hy1.stable hs; have hy2 := hy2.stable hs
  refine Ok_seq hb (conjugate_ok hb hy3) fun _ m15 _ hs hb => ?_
  have hr := hr.stable hs; have hy0 := hy0.stable hs; have hy1 := hy1.stable hs; have hy2 := hy2.stable hs
  have hy3 := hy3.stable hs
  refine Ok_seq hb (copy_ok hb (hy1.rd w)) fun y1 m16 hy1 hs hb => ?_
  have hr := hr.stable hs; have hy0 := hy0.stable hs; have hy2 := hy2.stable hs; have hy3 := hy3.stable hs
  refine Ok_seq hb (mul_ok hb hy1 (hy3.rd w)) fun _ m17 _ hs hb => ?_
  have hr := hr.stable hs; have hy0 := hy0.stable hs; have hy2 := hy2.stable hs; have hy1 := hy1.stable hs
  refine Ok_seq hb (conjugate_ok hb hy1) fun _ m18 _ hs hb => ?_
  have hr := hr.stable hs; have hy0 := hy0.stable hs; have hy2 := hy2.stable hs; have hy1 := hy1.stable hs
  refine Ok_seq hb (mul_ok hb hy1 (hy2.rd w)) fun _ m19 _ hs hb => ?_
  have hr := hr.stable hs; have hy0 := hy0.stable hs; have hy1 := hy1.stable hs
  refine Ok_seq hb (expByX_ok hb (hy1.rd w) _) fun y2 m20 hy2 hs hb => ?_
  have hr := hr.stable hs; have hy0 := hy0.stable hs; have hy1 := hy1.stable hs
  refine Ok_seq hb (expByX_ok hb (hy2.rd w) _) fun y3 m21 hy3 hs hb => ?_
  have hr := hr.stable hs; have hy0 := hy0.stable hs; have hy1 := hy1.stable hs; have hy2 := hy2.stable hs
  refine Ok_seq hb (conjugate_ok hb hy1) fun _ m22 _ hs hb => ?_
  have hr := hr.stable hs; have hy0 := hy0.stable hs; have hy1 := hy1.stable hs; have hy2 := hy2.stable hs
  have hy3 := hy3.stable hs
  refine Ok_seq hb (mul_ok hb hy3 (hy1.rd w)) fun _ m23 _ hs hb => ?_
  have hr := hr.stable hs; have hy0 := hy0.stable hs; have hy1 := hy1.stable hs; have hy2 := hy2.stable hs
  have hy3 := hy3.stable hs
  refine Ok_seq hb (conjugate_ok hb hy1) fun _ m24 _ hs hb => ?_
  have hr := hr.stable hs; have hy0 := hy0.stable hs; have hy1 := hy1.stable hs; have hy2 := hy2.stable hs
  have hy3 := hy3.stable hs
  refine Ok_seq hb (frobeniusMap_ok hb hy1 3) fun _ m25 _ hs hb => ?_
  have hr := hr.stable hs; have hy0 := hy0.stable hs; have hy1 := hy1.stable hs; have hy2 := hy2.stable hs
  have hy3 := hy3.stable hs
  refine Ok_seq hb (frobeniusMap_ok hb hy2 2) fun _ m26 _ hs hb => ?_
  have hr := hr.stable hs; have hy0 := hy0.stable hs; have hy1 := hy1.stable hs; have hy2 := hy2.stable hs
  have hy3 := hy3.stable hs
  refine Ok_seq hb (mul_ok hb hy1 (hy2.rd w)) fun _ m27 _ hs hb => ?_
  have hr := hr.stable hs; have hy0 := hy0.stable hs; have hy1 := hy1.stable hs; have hy3 := hy3.stable hs
  refine Ok_seq hb (expByX_ok hb (hy3.rd w) _) fun y2 m28 hy2 hs hb => ?_
  have hr := hr.stable hs; have hy0 := hy0.stable hs; have hy1 := hy1.stable hs; have hy3 := hy3.stable hs
  refine Ok_seq hb (mul_ok hb hy2 (hy0.rd w)) fun _ m29 _ hs hb => ?_
  have hr := hr.stable hs; have hy1 := hy1.stable hs; have hy3 := hy3.stable hs; have hy2 := hy2.stable hs
  refine Ok_seq hb (mul_ok hb hy2 (hr.rd w)) fun _ m30 _ hs hb => ?_
  have hy1 := hy1.stable hs; have hy3 := hy3.stable hs; have hy2 := hy2.stable hs
  refine Ok_seq hb (mul_ok hb hy1 (hy2.rd w)) fun _ m31 _ hs hb => ?_
  have hy1 := hy1.stable hs; have hy3 := hy3.stable hs
  refine Ok_seq hb (frobeniusMap_ok hb hy3 1) fun _ m32 _ hs hb => ?_
  have hy1 := hy1.stable hs; have hy3 := hy3.stable hs
  refine Ok_seq hb (mul_ok hb hy1 (hy3.rd w)) fun _ m33 _ hs hb => ?_
  exact fun g hg => by cases hg; exact hy1.stable hs

theorem prepare_ok (q : G2Projective) : (prepare q).Ok F Any m := by
  unfold prepare
  split <;> trivial

theorem pairing_ok (hb : Base F n nf m) (p : G1Projective) (q : G2Projective) :
    (pairing p q).Ok F (fun r m' => ∀ g, r = some g → Wr F m' g) m :=
  Ok_seq hb (prepare_ok q) fun _ _ _ _ hb1 => Ok_seq hb1 (millerLoop_ok hb1 _) fun _ _ h2 _ hb2 =>
    finalExponentiation_ok hb2 (h2.rd hb2.wide)

theorem compareTwoPairings_ok (hb : Base F n nf m) (p1 : G1Projective) (q1 : G2Projective) (p2 : G1Projective)
    (q2 : G2Projective) : (compareTwoPairings p1 q1 p2 q2).Ok F Any m := by
  refine Ok_seq hb (prepare_ok q1) fun _ _ _ _ hb => Ok_seq hb (prepare_ok q2) fun _ _ _ _ hb =>
    Ok_seq hb (millerLoop_ok hb _) fun f m2 h2 _ hb => Ok_seq hb (finalExponentiation_ok hb (h2.rd hb.wide))
    fun r m3 h3 _ hb => ?_
  cases r with
  | none => trivial
  | some g => exact equals_ok hb ((h3 g rfl).rd hb.wide) hb.one

end
end Bls.HeapFQ12
