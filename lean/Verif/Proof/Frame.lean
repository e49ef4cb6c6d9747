import Verif.Spec.Frame
/-
Which objects a call may overwrite. `Keeps n S Q x`: if the memory has at least `n` objects, then of the first `n` the call
`x` overwrites only those in `S`, and what it returns satisfies `Q`.
-/
namespace Bls.HeapPoints

def Keeps {α : Type} (n : Nat) (S : Nat → Prop) (Q : α → Prop) : M α → Prop
  | .ret a => Q a
  | .panic => True
  | .read _ k => ∀ o, Keeps n S Q (k o)
  | .write p _ k => (n ≤ p ∨ S p) ∧ Keeps n S Q k
  | .alloc _ k => ∀ p, n ≤ p → Keeps n S Q (k p)

variable {n : Nat} {S : Nat → Prop}

theorem Keeps.bind {α β : Type} {Q : α → Prop} {R : β → Prop} {f : α → M β} {x : M α} (hx : Keeps n S Q x)
    (hf : ∀ a, Q a → Keeps n S R (f a)) : Keeps n S R (x >>= f) := by
  change Keeps n S R (x.bind f)
  induction x with
  | ret a => exact hf a hx
  | panic => trivial
  | read p k ih => exact fun o => ih o (hx o)
  | write p o k ih => exact ⟨hx.1, ih hx.2⟩
  | alloc o k ih => exact fun p hp => ih p (hx p hp)

theorem Keeps.imp {α : Type} {Q R : α → Prop} {x : M α} (hx : Keeps n S Q x) (h : ∀ a, Q a → R a) : Keeps n S R x := by
  induction x with
  | ret a => exact h a hx
  | panic => trivial
  | read p k ih => exact fun o => ih o (hx o)
  | write p o k ih => exact ⟨hx.1, ih hx.2⟩
  | alloc o k ih => exact fun p hp => ih p (hx p hp)

theorem Keeps.mono {α : Type} {Q : α → Prop} {x : M α} {S' : Nat → Prop} (hx : Keeps n S Q x) (h : ∀ p, S p → S' p) :
    Keeps n S' Q x := by
  induction x with
  | ret a => exact hx
  | panic => trivial
  | read p k ih => exact fun o => ih o (hx o)
  | write p o k ih => exact ⟨hx.1.imp_right (h p), ih hx.2⟩
  | alloc o k ih => exact fun p hp => ih p (hx p hp)

theorem Keeps.triv {α : Type} {Q : α → Prop} {x : M α} (hx : Keeps n S Q x) : Keeps n S (fun _ => True) x :=
  hx.imp fun _ _ => trivial

/-- One access. -/
theorem Keeps.next {α : Type} {Q : α → Prop} {x : M α} {m : Mem} (hx : Keeps n S Q x) (hn : n ≤ m.length) :
    Keeps n S Q (x.next m).1 ∧ n ≤ (x.next m).2.length ∧ ∀ p, p < n → ¬ S p → (x.next m).2[p]? = m[p]? := by
  cases x with
  | ret a => exact ⟨hx, hn, fun _ _ _ => rfl⟩
  | panic => exact ⟨hx, hn, fun _ _ _ => rfl⟩
  | read p k =>
    rw [M.next]
    split
    · exact ⟨hx _, hn, fun _ _ _ => rfl⟩
    · exact ⟨trivial, hn, fun _ _ _ => rfl⟩
  | write p o k =>
    refine ⟨hx.2, by simpa only [M.next, List.length_set] using hn, fun p' h1 h2 => ?_⟩
    refine List.getElem?_set_ne fun e => ?_
    subst e
    rcases hx.1 with h | h
    · omega
    · exact h2 h
  | alloc o k =>
    refine ⟨hx _ hn, ?_, fun p' h1 h2 => List.getElem?_append_left (Nat.lt_of_lt_of_le h1 hn)⟩
    simp only [M.next, List.length_append, List.length_singleton]
    omega

/-- Any number of accesses. -/
theorem Keeps.after {α : Type} {Q : α → Prop} {x : M α} {m : Mem} (hx : Keeps n S Q x) (hn : n ≤ m.length) (k : Nat) :
    ∀ p, p < n → ¬ S p → (x.after k m).2[p]? = m[p]? := by
  induction k generalizing x m with
  | zero => exact fun _ _ _ => rfl
  | succ k ih =>
    obtain ⟨h1, h2, h3⟩ := hx.next hn
    intro p hp hs
    exact (ih h1 h2 p hp hs).trans (h3 p hp hs)

/-- The whole call. -/
theorem Keeps.run {α : Type} {Q : α → Prop} {x : M α} {m : Mem} (hx : Keeps n S Q x) (hn : n ≤ m.length) {a : α}
    {m' : Mem} (h : x.run m = some (a, m')) : Q a ∧ n ≤ m'.length ∧ ∀ p, p < n → ¬ S p → m'[p]? = m[p]? := by
  induction x generalizing m with
  | ret b => cases h; exact ⟨hx, hn, fun _ _ _ => rfl⟩
  | panic => cases h
  | read p k ih =>
    rw [M.run] at h
    split at h
    · exact ih _ (hx _) hn h
    · cases h
  | write p o k ih =>
    obtain ⟨h1, h2, h3⟩ := ih hx.2 (by rw [List.length_set]; exact hn) h
    exact ⟨h1, h2, fun p' hp hs => (h3 p' hp hs).trans ((Keeps.next (Q := Q) hx hn).2.2 p' hp hs)⟩
  | alloc o k ih =>
    obtain ⟨h1, h2, h3⟩ := ih _ (hx _ hn) (by rw [List.length_append]; omega) h
    exact ⟨h1, h2, fun p' hp hs => (h3 p' hp hs).trans ((Keeps.next (Q := Q) hx hn).2.2 p' hp hs)⟩

theorem keeps_pure {α : Type} (a : α) : Keeps n S (fun _ => True) (Pure.pure a : M α) := trivial
theorem keeps_alloc (o : Obj) : Keeps n S (fun p => n ≤ p) (HeapPoints.alloc o) := fun _ hp => hp
theorem keeps_write {p : Nat} (h : n ≤ p ∨ S p) (o : Obj) : Keeps n S (fun _ => True) (write p o) := ⟨h, trivial⟩
theorem keeps_lift {α : Type} (o : Option α) : Keeps n S (fun _ => True) (HeapPoints.lift o) := by
  cases o <;> trivial

theorem keeps_g1a (p : Nat) : Keeps n S (fun _ => True) (HeapPoints.g1a p) := by
  intro o; cases o <;> trivial

theorem keeps_g1p (p : Nat) : Keeps n S (fun _ => True) (HeapPoints.g1p p) := by
  intro o; cases o <;> trivial

theorem keeps_g2a (p : Nat) : Keeps n S (fun _ => True) (HeapPoints.g2a p) := by
  intro o; cases o <;> trivial

theorem keeps_g2p (p : Nat) : Keeps n S (fun _ => True) (HeapPoints.g2p p) := by
  intro o; cases o <;> trivial

theorem keeps_sig1S (p : Nat) : Keeps n S (fun _ => True) (HeapPoints.sig1S p) := by
  intro o; cases o <;> trivial

theorem keeps_pub1P (p : Nat) : Keeps n S (fun _ => True) (HeapPoints.pub1P p) := by
  intro o; cases o <;> trivial

theorem keeps_sig2S (p : Nat) : Keeps n S (fun _ => True) (HeapPoints.sig2S p) := by
  intro o; cases o <;> trivial

theorem keeps_pub2P (p : Nat) : Keeps n S (fun _ => True) (HeapPoints.pub2P p) := by
  intro o; cases o <;> trivial

theorem keeps_msgs (p : Nat) : Keeps n S (fun _ => True) (HeapPoints.msgs p) := by
  intro o; cases o <;> trivial

theorem keeps_g1aCopy (g : Nat)  : Keeps n S (fun p => n ≤ p) (HeapPoints.g1aCopy g) := by
  unfold HeapPoints.g1aCopy
  repeat' first
    | with_reducible exact keeps_alloc _
    | with_reducible refine Keeps.bind (keeps_alloc _) fun _ _ => ?_
    | with_reducible exact keeps_g1a ..
    | with_reducible refine Keeps.bind (keeps_g1a ..) fun _ _ => ?_
    | split

theorem keeps_g1pCopy (g : Nat)  : Keeps n S (fun p => n ≤ p) (HeapPoints.g1pCopy g) := by
  unfold HeapPoints.g1pCopy
  repeat' first
    | with_reducible exact keeps_alloc _
    | with_reducible refine Keeps.bind (keeps_alloc _) fun _ _ => ?_
    | with_reducible exact keeps_g1p ..
    | with_reducible refine Keeps.bind (keeps_g1p ..) fun _ _ => ?_
    | split

theorem keeps_g1aNeg (g : Nat) (h : n ≤ g ∨ S g) : Keeps n S (fun _ => True) (HeapPoints.g1aNeg g) := by
  unfold HeapPoints.g1aNeg
  repeat' first
    | with_reducible exact keeps_write ‹_› _
    | with_reducible refine Keeps.bind (keeps_write ‹_› _) fun _ _ => ?_
    | with_reducible exact keeps_pure ..
    | with_reducible refine Keeps.bind (keeps_pure ..) fun _ _ => ?_
    | with_reducible exact keeps_g1a ..
    | with_reducible refine Keeps.bind (keeps_g1a ..) fun _ _ => ?_
    | split

theorem keeps_g1pNeg (g : Nat) (h : n ≤ g ∨ S g) : Keeps n S (fun _ => True) (HeapPoints.g1pNeg g) := by
  unfold HeapPoints.g1pNeg
  repeat' first
    | with_reducible exact keeps_write ‹_› _
    | with_reducible refine Keeps.bind (keeps_write ‹_› _) fun _ _ => ?_
    | with_reducible exact keeps_g1p ..
    | with_reducible refine Keeps.bind (keeps_g1p ..) fun _ _ => ?_
    | split

theorem keeps_g1aSetRawBytes (g : Nat) (b : List UInt8) (h : n ≤ g ∨ S g) : Keeps n S (fun _ => True) (HeapPoints.g1aSetRawBytes g b) := by
  unfold HeapPoints.g1aSetRawBytes
  repeat' first
    | with_reducible exact keeps_write ‹_› _
    | with_reducible refine Keeps.bind (keeps_write ‹_› _) fun _ _ => ?_
    | with_reducible exact keeps_g1a ..
    | with_reducible refine Keeps.bind (keeps_g1a ..) fun _ _ => ?_
    | split

theorem keeps_g1aToProjective (g : Nat)  : Keeps n S (fun _ => True) (HeapPoints.g1aToProjective g) := by
  unfold HeapPoints.g1aToProjective
  repeat' first
    | with_reducible exact keeps_alloc _
    | with_reducible refine Keeps.bind (keeps_alloc _) fun _ _ => ?_
    | with_reducible exact (keeps_alloc _).triv
    | with_reducible exact keeps_g1pCopy ..
    | with_reducible refine Keeps.bind (keeps_g1pCopy ..) fun _ _ => ?_
    | with_reducible exact Keeps.triv (keeps_g1pCopy ..)
    | with_reducible exact keeps_g1a ..
    | with_reducible refine Keeps.bind (keeps_g1a ..) fun _ _ => ?_
    | split

theorem keeps_g1pToAffine (g : Nat)  : Keeps n S (fun _ => True) (HeapPoints.g1pToAffine g) := by
  unfold HeapPoints.g1pToAffine
  repeat' first
    | with_reducible exact keeps_alloc _
    | with_reducible refine Keeps.bind (keeps_alloc _) fun _ _ => ?_
    | with_reducible exact (keeps_alloc _).triv
    | with_reducible exact keeps_g1aCopy ..
    | with_reducible refine Keeps.bind (keeps_g1aCopy ..) fun _ _ => ?_
    | with_reducible exact Keeps.triv (keeps_g1aCopy ..)
    | with_reducible exact keeps_g1p ..
    | with_reducible refine Keeps.bind (keeps_g1p ..) fun _ _ => ?_
    | split

theorem keeps_g1pDouble (g : Nat)  : Keeps n S (fun _ => True) (HeapPoints.g1pDouble g) := by
  unfold HeapPoints.g1pDouble
  repeat' first
    | with_reducible exact keeps_alloc _
    | with_reducible refine Keeps.bind (keeps_alloc _) fun _ _ => ?_
    | with_reducible exact (keeps_alloc _).triv
    | with_reducible exact keeps_g1p ..
    | with_reducible refine Keeps.bind (keeps_g1p ..) fun _ _ => ?_
    | split

theorem keeps_g1pAdd (g other : Nat)  : Keeps n S (fun _ => True) (HeapPoints.g1pAdd g other) := by
  unfold HeapPoints.g1pAdd
  repeat' first
    | with_reducible exact keeps_alloc _
    | with_reducible refine Keeps.bind (keeps_alloc _) fun _ _ => ?_
    | with_reducible exact (keeps_alloc _).triv
    | with_reducible exact keeps_g1p ..
    | with_reducible refine Keeps.bind (keeps_g1p ..) fun _ _ => ?_
    | split

theorem keeps_g1pAddAffine (g other : Nat)  : Keeps n S (fun _ => True) (HeapPoints.g1pAddAffine g other) := by
  unfold HeapPoints.g1pAddAffine
  repeat' first
    | with_reducible exact keeps_alloc _
    | with_reducible refine Keeps.bind (keeps_alloc _) fun _ _ => ?_
    | with_reducible exact (keeps_alloc _).triv
    | with_reducible exact keeps_g1a ..
    | with_reducible refine Keeps.bind (keeps_g1a ..) fun _ _ => ?_
    | with_reducible exact keeps_g1p ..
    | with_reducible refine Keeps.bind (keeps_g1p ..) fun _ _ => ?_
    | split

theorem keeps_g1aMul (g : Nat) (bit : Nat → Option Bool) (bitLen : Nat)  : Keeps n S (fun _ => True) (HeapPoints.g1aMul g bit bitLen) := by
  unfold HeapPoints.g1aMul
  repeat' first
    | with_reducible exact keeps_alloc _
    | with_reducible refine Keeps.bind (keeps_alloc _) fun _ _ => ?_
    | with_reducible exact (keeps_alloc _).triv
    | with_reducible exact keeps_lift ..
    | with_reducible refine Keeps.bind (keeps_lift ..) fun _ _ => ?_
    | with_reducible exact keeps_g1a ..
    | with_reducible refine Keeps.bind (keeps_g1a ..) fun _ _ => ?_
    | with_reducible exact keeps_g1p ..
    | with_reducible refine Keeps.bind (keeps_g1p ..) fun _ _ => ?_
    | split

theorem keeps_g1pMul (g : Nat) (bit : Nat → Option Bool) (bitLen : Nat)  : Keeps n S (fun _ => True) (HeapPoints.g1pMul g bit bitLen) := by
  unfold HeapPoints.g1pMul
  repeat' first
    | with_reducible exact keeps_alloc _
    | with_reducible refine Keeps.bind (keeps_alloc _) fun _ _ => ?_
    | with_reducible exact (keeps_alloc _).triv
    | with_reducible exact keeps_lift ..
    | with_reducible refine Keeps.bind (keeps_lift ..) fun _ _ => ?_
    | with_reducible exact keeps_g1p ..
    | with_reducible refine Keeps.bind (keeps_g1p ..) fun _ _ => ?_
    | split

theorem keeps_g1aScaleByCofactor (g : Nat)  : Keeps n S (fun _ => True) (HeapPoints.g1aScaleByCofactor g) := by
  unfold HeapPoints.g1aScaleByCofactor
  repeat' first
    | with_reducible exact keeps_g1aMul ..
    | with_reducible refine Keeps.bind (keeps_g1aMul ..) fun _ _ => ?_
    | split

theorem keeps_g1aReturn (v : G1Affine)  : Keeps n S (fun _ => True) (HeapPoints.g1aReturn v) := by
  unfold HeapPoints.g1aReturn
  repeat' first
    | with_reducible exact keeps_alloc _
    | with_reducible refine Keeps.bind (keeps_alloc _) fun _ _ => ?_
    | with_reducible exact (keeps_alloc _).triv
    | with_reducible exact keeps_g1aCopy ..
    | with_reducible refine Keeps.bind (keeps_g1aCopy ..) fun _ _ => ?_
    | with_reducible exact Keeps.triv (keeps_g1aCopy ..)
    | split

theorem keeps_orNil {α : Type} {f : α → M Nat} (hf : ∀ a, Keeps n S (fun _ => True) (f a)) (o : Option α) :
    Keeps n S (fun _ => True) (orNil f o) := by
  cases o with
  | none => trivial
  | some v => exact (hf v).bind fun _ _ => trivial

theorem keeps_decompressG1Unchecked (b : List UInt8) : Keeps n S (fun _ => True) (HeapPoints.decompressG1Unchecked b) :=
  keeps_orNil (fun _ => keeps_g1aReturn ..) _

theorem keeps_decompressG1 (b : List UInt8) : Keeps n S (fun _ => True) (HeapPoints.decompressG1 b) :=
  keeps_orNil (fun _ => keeps_g1aReturn ..) _

theorem keeps_getG1PointFromX (x : FQ) (greatest : Bool) : Keeps n S (fun _ => True) (HeapPoints.getG1PointFromX x greatest) :=
  keeps_orNil (fun _ => (keeps_alloc _).triv) _

theorem keeps_g2aCopy (g : Nat)  : Keeps n S (fun p => n ≤ p) (HeapPoints.g2aCopy g) := by
  unfold HeapPoints.g2aCopy
  repeat' first
    | with_reducible exact keeps_alloc _
    | with_reducible refine Keeps.bind (keeps_alloc _) fun _ _ => ?_
    | with_reducible exact keeps_g2a ..
    | with_reducible refine Keeps.bind (keeps_g2a ..) fun _ _ => ?_
    | split

theorem keeps_g2pCopy (g : Nat)  : Keeps n S (fun p => n ≤ p) (HeapPoints.g2pCopy g) := by
  unfold HeapPoints.g2pCopy
  repeat' first
    | with_reducible exact keeps_alloc _
    | with_reducible refine Keeps.bind (keeps_alloc _) fun _ _ => ?_
    | with_reducible exact keeps_g2p ..
    | with_reducible refine Keeps.bind (keeps_g2p ..) fun _ _ => ?_
    | split

theorem keeps_g2aNeg (g : Nat) (h : n ≤ g ∨ S g) : Keeps n S (fun _ => True) (HeapPoints.g2aNeg g) := by
  unfold HeapPoints.g2aNeg
  repeat' first
    | with_reducible exact keeps_write ‹_› _
    | with_reducible refine Keeps.bind (keeps_write ‹_› _) fun _ _ => ?_
    | with_reducible exact keeps_pure ..
    | with_reducible refine Keeps.bind (keeps_pure ..) fun _ _ => ?_
    | with_reducible exact keeps_g2a ..
    | with_reducible refine Keeps.bind (keeps_g2a ..) fun _ _ => ?_
    | split

theorem keeps_g2aSetRawBytes (g : Nat) (b : List UInt8) (h : n ≤ g ∨ S g) : Keeps n S (fun _ => True) (HeapPoints.g2aSetRawBytes g b) := by
  unfold HeapPoints.g2aSetRawBytes
  repeat' first
    | with_reducible exact keeps_write ‹_› _
    | with_reducible refine Keeps.bind (keeps_write ‹_› _) fun _ _ => ?_
    | with_reducible exact keeps_g2a ..
    | with_reducible refine Keeps.bind (keeps_g2a ..) fun _ _ => ?_
    | split

theorem keeps_g2aToProjective (g : Nat)  : Keeps n S (fun _ => True) (HeapPoints.g2aToProjective g) := by
  unfold HeapPoints.g2aToProjective
  repeat' first
    | with_reducible exact keeps_alloc _
    | with_reducible refine Keeps.bind (keeps_alloc _) fun _ _ => ?_
    | with_reducible exact (keeps_alloc _).triv
    | with_reducible exact keeps_g2pCopy ..
    | with_reducible refine Keeps.bind (keeps_g2pCopy ..) fun _ _ => ?_
    | with_reducible exact Keeps.triv (keeps_g2pCopy ..)
    | with_reducible exact keeps_g2a ..
    | with_reducible refine Keeps.bind (keeps_g2a ..) fun _ _ => ?_
    | split

theorem keeps_g2pToAffine (g : Nat)  : Keeps n S (fun _ => True) (HeapPoints.g2pToAffine g) := by
  unfold HeapPoints.g2pToAffine
  repeat' first
    | with_reducible exact keeps_alloc _
    | with_reducible refine Keeps.bind (keeps_alloc _) fun _ _ => ?_
    | with_reducible exact (keeps_alloc _).triv
    | with_reducible exact keeps_pure ..
    | with_reducible refine Keeps.bind (keeps_pure ..) fun _ _ => ?_
    | with_reducible exact keeps_g2p ..
    | with_reducible refine Keeps.bind (keeps_g2p ..) fun _ _ => ?_
    | split

theorem keeps_g2pDouble (g : Nat)  : Keeps n S (fun _ => True) (HeapPoints.g2pDouble g) := by
  unfold HeapPoints.g2pDouble
  repeat' first
    | with_reducible exact keeps_alloc _
    | with_reducible refine Keeps.bind (keeps_alloc _) fun _ _ => ?_
    | with_reducible exact (keeps_alloc _).triv
    | with_reducible exact keeps_g2p ..
    | with_reducible refine Keeps.bind (keeps_g2p ..) fun _ _ => ?_
    | split

theorem keeps_g2pAdd (g other : Nat)  : Keeps n S (fun _ => True) (HeapPoints.g2pAdd g other) := by
  unfold HeapPoints.g2pAdd
  repeat' first
    | with_reducible exact keeps_alloc _
    | with_reducible refine Keeps.bind (keeps_alloc _) fun _ _ => ?_
    | with_reducible exact (keeps_alloc _).triv
    | with_reducible exact keeps_g2p ..
    | with_reducible refine Keeps.bind (keeps_g2p ..) fun _ _ => ?_
    | split

theorem keeps_g2pAddAffine (g other : Nat)  : Keeps n S (fun _ => True) (HeapPoints.g2pAddAffine g other) := by
  unfold HeapPoints.g2pAddAffine
  repeat' first
    | with_reducible exact keeps_alloc _
    | with_reducible refine Keeps.bind (keeps_alloc _) fun _ _ => ?_
    | with_reducible exact (keeps_alloc _).triv
    | with_reducible exact keeps_g2a ..
    | with_reducible refine Keeps.bind (keeps_g2a ..) fun _ _ => ?_
    | with_reducible exact keeps_g2p ..
    | with_reducible refine Keeps.bind (keeps_g2p ..) fun _ _ => ?_
    | split

theorem keeps_g2aMul (g : Nat) (bit : Nat → Option Bool) (bitLen : Nat)  : Keeps n S (fun _ => True) (HeapPoints.g2aMul g bit bitLen) := by
  unfold HeapPoints.g2aMul
  repeat' first
    | with_reducible exact keeps_alloc _
    | with_reducible refine Keeps.bind (keeps_alloc _) fun _ _ => ?_
    | with_reducible exact (keeps_alloc _).triv
    | with_reducible exact keeps_lift ..
    | with_reducible refine Keeps.bind (keeps_lift ..) fun _ _ => ?_
    | with_reducible exact keeps_g2a ..
    | with_reducible refine Keeps.bind (keeps_g2a ..) fun _ _ => ?_
    | with_reducible exact keeps_g2p ..
    | with_reducible refine Keeps.bind (keeps_g2p ..) fun _ _ => ?_
    | split

theorem keeps_g2pMul (g : Nat) (bit : Nat → Option Bool) (bitLen : Nat)  : Keeps n S (fun _ => True) (HeapPoints.g2pMul g bit bitLen) := by
  unfold HeapPoints.g2pMul
  repeat' first
    | with_reducible exact keeps_alloc _
    | with_reducible refine Keeps.bind (keeps_alloc _) fun _ _ => ?_
    | with_reducible exact (keeps_alloc _).triv
    | with_reducible exact keeps_lift ..
    | with_reducible refine Keeps.bind (keeps_lift ..) fun _ _ => ?_
    | with_reducible exact keeps_g2p ..
    | with_reducible refine Keeps.bind (keeps_g2p ..) fun _ _ => ?_
    | split

theorem keeps_g2aMulBig (g b : Nat)  : Keeps n S (fun _ => True) (HeapPoints.g2aMulBig g b) := by
  unfold HeapPoints.g2aMulBig
  repeat' first
    | with_reducible exact keeps_g2aMul ..
    | with_reducible refine Keeps.bind (keeps_g2aMul ..) fun _ _ => ?_
    | split

theorem keeps_g2aScaleByCofactor (g : Nat)  : Keeps n S (fun _ => True) (HeapPoints.g2aScaleByCofactor g) := by
  unfold HeapPoints.g2aScaleByCofactor
  repeat' first
    | with_reducible exact keeps_g2aMulBig ..
    | with_reducible refine Keeps.bind (keeps_g2aMulBig ..) fun _ _ => ?_
    | split

theorem keeps_g2aReturn (v : G2Affine)  : Keeps n S (fun _ => True) (HeapPoints.g2aReturn v) := by
  unfold HeapPoints.g2aReturn
  repeat' first
    | with_reducible exact keeps_alloc _
    | with_reducible refine Keeps.bind (keeps_alloc _) fun _ _ => ?_
    | with_reducible exact (keeps_alloc _).triv
    | with_reducible exact keeps_g2aCopy ..
    | with_reducible refine Keeps.bind (keeps_g2aCopy ..) fun _ _ => ?_
    | with_reducible exact Keeps.triv (keeps_g2aCopy ..)
    | split

theorem keeps_decompressG2Unchecked (b : List UInt8) : Keeps n S (fun _ => True) (HeapPoints.decompressG2Unchecked b) :=
  keeps_orNil (fun _ => keeps_g2aReturn ..) _

theorem keeps_decompressG2 (b : List UInt8) : Keeps n S (fun _ => True) (HeapPoints.decompressG2 b) :=
  keeps_orNil (fun _ => keeps_g2aReturn ..) _

theorem keeps_getG2PointFromX (x : FQ2) (greatest : Bool) : Keeps n S (fun _ => True) (HeapPoints.getG2PointFromX x greatest) :=
  keeps_orNil (fun _ => (keeps_alloc _).triv) _

theorem keeps_swEncodeG2 (t : FQ2) : Keeps n S (fun _ => True) (HeapPoints.swEncodeG2 t) :=
  keeps_orNil (fun _ => keeps_g2aReturn ..) _

theorem keeps_hashG2WithDomain (sha : List UInt8 → List UInt8) (m domain : List UInt8)  : Keeps n S (fun _ => True) (HeapPoints.hashG2WithDomain sha m domain) := by
  unfold HeapPoints.hashG2WithDomain
  repeat' first
    | with_reducible exact keeps_alloc _
    | with_reducible refine Keeps.bind (keeps_alloc _) fun _ _ => ?_
    | with_reducible exact (keeps_alloc _).triv
    | with_reducible exact keeps_lift ..
    | with_reducible refine Keeps.bind (keeps_lift ..) fun _ _ => ?_
    | split

theorem keeps_hashG1 (sha : List UInt8 → List UInt8) (m : List UInt8)  : Keeps n S (fun _ => True) (HeapPoints.hashG1 sha m) := by
  unfold HeapPoints.hashG1
  repeat' first
    | with_reducible exact keeps_g1aReturn ..
    | with_reducible refine Keeps.bind (keeps_g1aReturn ..) fun _ _ => ?_
    | with_reducible exact keeps_lift ..
    | with_reducible refine Keeps.bind (keeps_lift ..) fun _ _ => ?_
    | split

theorem keeps_hashG2 (sha : List UInt8 → List UInt8) (m : List UInt8)  : Keeps n S (fun _ => True) (HeapPoints.hashG2 sha m) := by
  unfold HeapPoints.hashG2
  repeat' first
    | with_reducible exact keeps_alloc _
    | with_reducible refine Keeps.bind (keeps_alloc _) fun _ _ => ?_
    | with_reducible exact (keeps_alloc _).triv
    | with_reducible exact keeps_pure ..
    | with_reducible refine Keeps.bind (keeps_pure ..) fun _ _ => ?_
    | with_reducible exact keeps_lift ..
    | with_reducible refine Keeps.bind (keeps_lift ..) fun _ _ => ?_
    | split

theorem keeps_pairing (p q : Nat)  : Keeps n S (fun _ => True) (HeapPoints.pairing p q) := by
  unfold HeapPoints.pairing
  repeat' first
    | with_reducible exact keeps_g2pToAffine ..
    | with_reducible refine Keeps.bind (keeps_g2pToAffine ..) fun _ _ => ?_
    | with_reducible exact keeps_g1pToAffine ..
    | with_reducible refine Keeps.bind (keeps_g1pToAffine ..) fun _ _ => ?_
    | with_reducible exact keeps_pure ..
    | with_reducible refine Keeps.bind (keeps_pure ..) fun _ _ => ?_
    | with_reducible exact keeps_lift ..
    | with_reducible refine Keeps.bind (keeps_lift ..) fun _ _ => ?_
    | with_reducible exact keeps_g1a ..
    | with_reducible refine Keeps.bind (keeps_g1a ..) fun _ _ => ?_
    | with_reducible exact keeps_g2a ..
    | with_reducible refine Keeps.bind (keeps_g2a ..) fun _ _ => ?_
    | split

theorem keeps_compareTwoPairings (p1 q1 p2 q2 : Nat)  : Keeps n S (fun _ => True) (HeapPoints.compareTwoPairings p1 q1 p2 q2) := by
  unfold HeapPoints.compareTwoPairings
  repeat' first
    | with_reducible exact keeps_g2pToAffine ..
    | with_reducible refine Keeps.bind (keeps_g2pToAffine ..) fun _ _ => ?_
    | with_reducible exact keeps_g1pToAffine ..
    | with_reducible refine Keeps.bind (keeps_g1pToAffine ..) fun _ _ => ?_
    | with_reducible exact keeps_g1pNeg (h := Or.inl ‹_›) ..
    | with_reducible refine Keeps.bind (keeps_g1pNeg (h := Or.inl ‹_›) ..) fun _ _ => ?_
    | with_reducible exact keeps_g1pCopy ..
    | with_reducible refine Keeps.bind (keeps_g1pCopy ..) fun _ _ => ?_
    | with_reducible exact Keeps.triv (keeps_g1pCopy ..)
    | with_reducible exact keeps_lift ..
    | with_reducible refine Keeps.bind (keeps_lift ..) fun _ _ => ?_
    | with_reducible exact keeps_g1a ..
    | with_reducible refine Keeps.bind (keeps_g1a ..) fun _ _ => ?_
    | with_reducible exact keeps_g2a ..
    | with_reducible refine Keeps.bind (keeps_g2a ..) fun _ _ => ?_
    | split

theorem keeps_G1Pubs_sigSerialize (g : Nat)  : Keeps n S (fun _ => True) (G1Pubs.sigSerialize g) := by
  unfold G1Pubs.sigSerialize
  repeat' first
    | with_reducible exact keeps_g2pToAffine ..
    | with_reducible refine Keeps.bind (keeps_g2pToAffine ..) fun _ _ => ?_
    | with_reducible exact keeps_pure ..
    | with_reducible refine Keeps.bind (keeps_pure ..) fun _ _ => ?_
    | with_reducible exact keeps_g2a ..
    | with_reducible refine Keeps.bind (keeps_g2a ..) fun _ _ => ?_
    | with_reducible exact keeps_sig1S ..
    | with_reducible refine Keeps.bind (keeps_sig1S ..) fun _ _ => ?_
    | split

theorem keeps_G1Pubs_sigGetPoint (g : Nat)  : Keeps n S (fun _ => True) (G1Pubs.sigGetPoint g) := by
  unfold G1Pubs.sigGetPoint
  repeat' first
    | with_reducible exact keeps_g2pCopy ..
    | with_reducible refine Keeps.bind (keeps_g2pCopy ..) fun _ _ => ?_
    | with_reducible exact Keeps.triv (keeps_g2pCopy ..)
    | with_reducible exact keeps_sig1S ..
    | with_reducible refine Keeps.bind (keeps_sig1S ..) fun _ _ => ?_
    | split

theorem keeps_G1Pubs_sigCopy (g : Nat)  : Keeps n S (fun _ => True) (G1Pubs.sigCopy g) := by
  unfold G1Pubs.sigCopy
  repeat' first
    | with_reducible exact keeps_alloc _
    | with_reducible refine Keeps.bind (keeps_alloc _) fun _ _ => ?_
    | with_reducible exact (keeps_alloc _).triv
    | with_reducible exact keeps_g2pCopy ..
    | with_reducible refine Keeps.bind (keeps_g2pCopy ..) fun _ _ => ?_
    | with_reducible exact Keeps.triv (keeps_g2pCopy ..)
    | with_reducible exact keeps_sig1S ..
    | with_reducible refine Keeps.bind (keeps_sig1S ..) fun _ _ => ?_
    | split

theorem keeps_G1Pubs_pubGetPoint (g : Nat)  : Keeps n S (fun _ => True) (G1Pubs.pubGetPoint g) := by
  unfold G1Pubs.pubGetPoint
  repeat' first
    | with_reducible exact keeps_g1pCopy ..
    | with_reducible refine Keeps.bind (keeps_g1pCopy ..) fun _ _ => ?_
    | with_reducible exact Keeps.triv (keeps_g1pCopy ..)
    | with_reducible exact keeps_pub1P ..
    | with_reducible refine Keeps.bind (keeps_pub1P ..) fun _ _ => ?_
    | split

theorem keeps_G1Pubs_pubSerialize (g : Nat)  : Keeps n S (fun _ => True) (G1Pubs.pubSerialize g) := by
  unfold G1Pubs.pubSerialize
  repeat' first
    | with_reducible exact keeps_g1pToAffine ..
    | with_reducible refine Keeps.bind (keeps_g1pToAffine ..) fun _ _ => ?_
    | with_reducible exact keeps_pure ..
    | with_reducible refine Keeps.bind (keeps_pure ..) fun _ _ => ?_
    | with_reducible exact keeps_g1a ..
    | with_reducible refine Keeps.bind (keeps_g1a ..) fun _ _ => ?_
    | with_reducible exact keeps_pub1P ..
    | with_reducible refine Keeps.bind (keeps_pub1P ..) fun _ _ => ?_
    | split

theorem keeps_G1Pubs_pubCopy (g : Nat)  : Keeps n S (fun _ => True) (G1Pubs.pubCopy g) := by
  unfold G1Pubs.pubCopy
  repeat' first
    | with_reducible exact keeps_alloc _
    | with_reducible refine Keeps.bind (keeps_alloc _) fun _ _ => ?_
    | with_reducible exact (keeps_alloc _).triv
    | with_reducible exact keeps_g1pCopy ..
    | with_reducible refine Keeps.bind (keeps_g1pCopy ..) fun _ _ => ?_
    | with_reducible exact Keeps.triv (keeps_g1pCopy ..)
    | with_reducible exact keeps_pub1P ..
    | with_reducible refine Keeps.bind (keeps_pub1P ..) fun _ _ => ?_
    | split

theorem keeps_G1Pubs_newSignatureFromG2 (g : Nat)  : Keeps n S (fun _ => True) (G1Pubs.newSignatureFromG2 g) := by
  unfold G1Pubs.newSignatureFromG2
  repeat' first
    | with_reducible exact keeps_alloc _
    | with_reducible refine Keeps.bind (keeps_alloc _) fun _ _ => ?_
    | with_reducible exact (keeps_alloc _).triv
    | with_reducible exact keeps_g2aToProjective ..
    | with_reducible refine Keeps.bind (keeps_g2aToProjective ..) fun _ _ => ?_
    | split

theorem keeps_G1Pubs_newPublicKeyFromG1 (g : Nat)  : Keeps n S (fun _ => True) (G1Pubs.newPublicKeyFromG1 g) := by
  unfold G1Pubs.newPublicKeyFromG1
  repeat' first
    | with_reducible exact keeps_alloc _
    | with_reducible refine Keeps.bind (keeps_alloc _) fun _ _ => ?_
    | with_reducible exact (keeps_alloc _).triv
    | with_reducible exact keeps_g1aToProjective ..
    | with_reducible refine Keeps.bind (keeps_g1aToProjective ..) fun _ _ => ?_
    | split

theorem keeps_G1Pubs_pubEquals (g other : Nat)  : Keeps n S (fun _ => True) (G1Pubs.pubEquals g other) := by
  unfold G1Pubs.pubEquals
  repeat' first
    | with_reducible exact keeps_pure ..
    | with_reducible refine Keeps.bind (keeps_pure ..) fun _ _ => ?_
    | with_reducible exact keeps_g1p ..
    | with_reducible refine Keeps.bind (keeps_g1p ..) fun _ _ => ?_
    | with_reducible exact keeps_pub1P ..
    | with_reducible refine Keeps.bind (keeps_pub1P ..) fun _ _ => ?_
    | split

theorem keeps_G1Pubs_deserializeSignature (b : List UInt8)  : Keeps n S (fun _ => True) (G1Pubs.deserializeSignature b) := by
  unfold G1Pubs.deserializeSignature
  repeat' first
    | with_reducible exact keeps_G1Pubs_newSignatureFromG2 ..
    | with_reducible refine Keeps.bind (keeps_G1Pubs_newSignatureFromG2 ..) fun _ _ => ?_
    | with_reducible exact keeps_decompressG2 ..
    | with_reducible refine Keeps.bind (keeps_decompressG2 ..) fun _ _ => ?_
    | with_reducible exact keeps_pure ..
    | with_reducible refine Keeps.bind (keeps_pure ..) fun _ _ => ?_
    | split

theorem keeps_G1Pubs_deserializePublicKey (b : List UInt8)  : Keeps n S (fun _ => True) (G1Pubs.deserializePublicKey b) := by
  unfold G1Pubs.deserializePublicKey
  repeat' first
    | with_reducible exact keeps_G1Pubs_newPublicKeyFromG1 ..
    | with_reducible refine Keeps.bind (keeps_G1Pubs_newPublicKeyFromG1 ..) fun _ _ => ?_
    | with_reducible exact keeps_decompressG1 ..
    | with_reducible refine Keeps.bind (keeps_decompressG1 ..) fun _ _ => ?_
    | with_reducible exact keeps_pure ..
    | with_reducible refine Keeps.bind (keeps_pure ..) fun _ _ => ?_
    | split

theorem keeps_G1Pubs_sign (sha : List UInt8 → List UInt8) (m : List UInt8) (f : FR)  : Keeps n S (fun _ => True) (G1Pubs.sign sha m f) := by
  unfold G1Pubs.sign
  repeat' first
    | with_reducible exact keeps_alloc _
    | with_reducible refine Keeps.bind (keeps_alloc _) fun _ _ => ?_
    | with_reducible exact (keeps_alloc _).triv
    | with_reducible exact keeps_hashG2 ..
    | with_reducible refine Keeps.bind (keeps_hashG2 ..) fun _ _ => ?_
    | with_reducible exact keeps_g2aMul ..
    | with_reducible refine Keeps.bind (keeps_g2aMul ..) fun _ _ => ?_
    | split

theorem keeps_G1Pubs_signWithDomain (sha : List UInt8 → List UInt8) (m : List UInt8) (f : FR) (d : List UInt8)  : Keeps n S (fun _ => True) (G1Pubs.signWithDomain sha m f d) := by
  unfold G1Pubs.signWithDomain
  repeat' first
    | with_reducible exact keeps_alloc _
    | with_reducible refine Keeps.bind (keeps_alloc _) fun _ _ => ?_
    | with_reducible exact (keeps_alloc _).triv
    | with_reducible exact keeps_hashG2WithDomain ..
    | with_reducible refine Keeps.bind (keeps_hashG2WithDomain ..) fun _ _ => ?_
    | with_reducible exact keeps_g2pMul ..
    | with_reducible refine Keeps.bind (keeps_g2pMul ..) fun _ _ => ?_
    | split

theorem keeps_G1Pubs_privToPub (f : FR)  : Keeps n S (fun _ => True) (G1Pubs.privToPub f) := by
  unfold G1Pubs.privToPub
  repeat' first
    | with_reducible exact keeps_alloc _
    | with_reducible refine Keeps.bind (keeps_alloc _) fun _ _ => ?_
    | with_reducible exact (keeps_alloc _).triv
    | with_reducible exact keeps_g1aMul ..
    | with_reducible refine Keeps.bind (keeps_g1aMul ..) fun _ _ => ?_
    | split

theorem keeps_G1Pubs_verify (sha : List UInt8 → List UInt8) (m : List UInt8) (pub sig : Nat)  : Keeps n S (fun _ => True) (G1Pubs.verify sha m pub sig) := by
  unfold G1Pubs.verify
  repeat' first
    | with_reducible exact keeps_compareTwoPairings ..
    | with_reducible refine Keeps.bind (keeps_compareTwoPairings ..) fun _ _ => ?_
    | with_reducible exact keeps_hashG2 ..
    | with_reducible refine Keeps.bind (keeps_hashG2 ..) fun _ _ => ?_
    | with_reducible exact keeps_g2aToProjective ..
    | with_reducible refine Keeps.bind (keeps_g2aToProjective ..) fun _ _ => ?_
    | with_reducible exact keeps_sig1S ..
    | with_reducible refine Keeps.bind (keeps_sig1S ..) fun _ _ => ?_
    | with_reducible exact keeps_pub1P ..
    | with_reducible refine Keeps.bind (keeps_pub1P ..) fun _ _ => ?_
    | split

theorem keeps_G1Pubs_verifyWithDomain (sha : List UInt8 → List UInt8) (m : List UInt8) (pub sig : Nat) (d : List UInt8)  : Keeps n S (fun _ => True) (G1Pubs.verifyWithDomain sha m pub sig d) := by
  unfold G1Pubs.verifyWithDomain
  repeat' first
    | with_reducible exact keeps_compareTwoPairings ..
    | with_reducible refine Keeps.bind (keeps_compareTwoPairings ..) fun _ _ => ?_
    | with_reducible exact keeps_hashG2WithDomain ..
    | with_reducible refine Keeps.bind (keeps_hashG2WithDomain ..) fun _ _ => ?_
    | with_reducible exact keeps_g2pToAffine ..
    | with_reducible refine Keeps.bind (keeps_g2pToAffine ..) fun _ _ => ?_
    | with_reducible exact keeps_g2aToProjective ..
    | with_reducible refine Keeps.bind (keeps_g2aToProjective ..) fun _ _ => ?_
    | with_reducible exact keeps_sig1S ..
    | with_reducible refine Keeps.bind (keeps_sig1S ..) fun _ _ => ?_
    | with_reducible exact keeps_pub1P ..
    | with_reducible refine Keeps.bind (keeps_pub1P ..) fun _ _ => ?_
    | split

theorem keeps_G1Pubs_newAggregateSignature   : Keeps n S (fun p => n ≤ p) (G1Pubs.newAggregateSignature) := by
  unfold G1Pubs.newAggregateSignature
  repeat' first
    | with_reducible exact keeps_alloc _
    | with_reducible refine Keeps.bind (keeps_alloc _) fun _ _ => ?_
    | with_reducible exact keeps_g2pCopy ..
    | with_reducible refine Keeps.bind (keeps_g2pCopy ..) fun _ _ => ?_
    | with_reducible exact Keeps.triv (keeps_g2pCopy ..)
    | split

theorem keeps_G1Pubs_newAggregatePubkey   : Keeps n S (fun p => n ≤ p) (G1Pubs.newAggregatePubkey) := by
  unfold G1Pubs.newAggregatePubkey
  repeat' first
    | with_reducible exact keeps_alloc _
    | with_reducible refine Keeps.bind (keeps_alloc _) fun _ _ => ?_
    | with_reducible exact keeps_g1pCopy ..
    | with_reducible refine Keeps.bind (keeps_g1pCopy ..) fun _ _ => ?_
    | with_reducible exact Keeps.triv (keeps_g1pCopy ..)
    | split

theorem keeps_G1Pubs_sigAggregate (g other : Nat) (h : n ≤ g ∨ S g) : Keeps n S (fun _ => True) (G1Pubs.sigAggregate g other) := by
  unfold G1Pubs.sigAggregate
  repeat' first
    | with_reducible exact keeps_write ‹_› _
    | with_reducible refine Keeps.bind (keeps_write ‹_› _) fun _ _ => ?_
    | with_reducible exact keeps_g2pAdd ..
    | with_reducible refine Keeps.bind (keeps_g2pAdd ..) fun _ _ => ?_
    | with_reducible exact keeps_sig1S ..
    | with_reducible refine Keeps.bind (keeps_sig1S ..) fun _ _ => ?_
    | split

theorem keeps_G1Pubs_aggregateSignaturesLoop {g : Nat} (h : n ≤ g ∨ S g) (l : List Nat) :
    Keeps n S (fun _ => True) (G1Pubs.aggregateSignaturesLoop g l) := by
  induction l with
  | nil => trivial
  | cons a l ih => exact (keeps_G1Pubs_sigAggregate g a h).bind fun _ _ => ih

theorem keeps_G1Pubs_aggregateSignatures (l : List Nat) : Keeps n S (fun _ => True) (G1Pubs.aggregateSignatures l) :=
  keeps_G1Pubs_newAggregateSignature.bind fun _ h => (keeps_G1Pubs_aggregateSignaturesLoop (Or.inl h) l).bind fun _ _ => trivial

theorem keeps_G1Pubs_pubAggregate (g other : Nat) (h : n ≤ g ∨ S g) : Keeps n S (fun _ => True) (G1Pubs.pubAggregate g other) := by
  unfold G1Pubs.pubAggregate
  repeat' first
    | with_reducible exact keeps_write ‹_› _
    | with_reducible refine Keeps.bind (keeps_write ‹_› _) fun _ _ => ?_
    | with_reducible exact keeps_g1pAdd ..
    | with_reducible refine Keeps.bind (keeps_g1pAdd ..) fun _ _ => ?_
    | with_reducible exact keeps_pub1P ..
    | with_reducible refine Keeps.bind (keeps_pub1P ..) fun _ _ => ?_
    | split

theorem keeps_G1Pubs_aggregatePublicKeysLoop {g : Nat} (h : n ≤ g ∨ S g) (l : List Nat) :
    Keeps n S (fun _ => True) (G1Pubs.aggregatePublicKeysLoop g l) := by
  induction l with
  | nil => trivial
  | cons a l ih => exact (keeps_G1Pubs_pubAggregate g a h).bind fun _ _ => ih

theorem keeps_G1Pubs_aggregatePublicKeys (l : List Nat) : Keeps n S (fun _ => True) (G1Pubs.aggregatePublicKeys l) :=
  keeps_G1Pubs_newAggregatePubkey.bind fun _ h => (keeps_G1Pubs_aggregatePublicKeysLoop (Or.inl h) l).bind fun _ _ => trivial

theorem keeps_G1Pubs_pairingProduct (sha : List UInt8 → List UInt8) (pks : List Nat) (ms : List (List UInt8)) (rhs : FQ12) :
    Keeps n S (fun _ => True) (G1Pubs.pairingProduct sha pks ms rhs) := by
  induction pks generalizing ms rhs with
  | nil => trivial
  | cons p pks ih =>
    cases ms with
    | nil => trivial
    | cons m ms =>
      rw [G1Pubs.pairingProduct]
      repeat' first
        | with_reducible exact ih ..
        | with_reducible refine Keeps.bind (keeps_pairing ..) fun _ _ => ?_
        | with_reducible refine Keeps.bind (keeps_hashG2 ..) fun _ _ => ?_
        | with_reducible refine Keeps.bind (keeps_g2aToProjective ..) fun _ _ => ?_
        | with_reducible refine Keeps.bind (keeps_pure ..) fun _ _ => ?_
        | with_reducible refine Keeps.bind (keeps_lift ..) fun _ _ => ?_
        | with_reducible refine Keeps.bind (keeps_pub1P ..) fun _ _ => ?_

theorem keeps_G1Pubs_pairingProductWithDomain (sha : List UInt8 → List UInt8) (d : List UInt8) (pks : List Nat) (ms : List (List UInt8)) (rhs : FQ12) :
    Keeps n S (fun _ => True) (G1Pubs.pairingProductWithDomain sha d pks ms rhs) := by
  induction pks generalizing ms rhs with
  | nil => trivial
  | cons p pks ih =>
    cases ms with
    | nil => trivial
    | cons m ms =>
      rw [G1Pubs.pairingProductWithDomain]
      repeat' first
        | with_reducible exact ih ..
        | with_reducible refine Keeps.bind (keeps_pairing ..) fun _ _ => ?_
        | with_reducible refine Keeps.bind (keeps_hashG2WithDomain ..) fun _ _ => ?_
        | with_reducible refine Keeps.bind (keeps_g2pToAffine ..) fun _ _ => ?_
        | with_reducible refine Keeps.bind (keeps_g2aToProjective ..) fun _ _ => ?_
        | with_reducible refine Keeps.bind (keeps_pure ..) fun _ _ => ?_
        | with_reducible refine Keeps.bind (keeps_lift ..) fun _ _ => ?_
        | with_reducible refine Keeps.bind (keeps_pub1P ..) fun _ _ => ?_

theorem keeps_G1Pubs_sortInPlace (g : Nat) (h : n ≤ g ∨ S g) : Keeps n S (fun _ => True) (G1Pubs.sortInPlace g) := by
  unfold G1Pubs.sortInPlace
  repeat' first
    | with_reducible exact keeps_write ‹_› _
    | with_reducible refine Keeps.bind (keeps_write ‹_› _) fun _ _ => ?_
    | with_reducible exact keeps_msgs ..
    | with_reducible refine Keeps.bind (keeps_msgs ..) fun _ _ => ?_
    | split

theorem keeps_G1Pubs_verifyAggregate (sha : List UInt8 → List UInt8) (s : Nat) (pks : List Nat) (ms : Nat)  : Keeps n S (fun _ => True) (G1Pubs.verifyAggregate sha s pks ms) := by
  unfold G1Pubs.verifyAggregate
  repeat' first
    | with_reducible exact keeps_alloc _
    | with_reducible refine Keeps.bind (keeps_alloc _) fun _ _ => ?_
    | with_reducible exact (keeps_alloc _).triv
    | with_reducible exact keeps_G1Pubs_sortInPlace (h := Or.inl ‹_›) ..
    | with_reducible refine Keeps.bind (keeps_G1Pubs_sortInPlace (h := Or.inl ‹_›) ..) fun _ _ => ?_
    | with_reducible exact keeps_G1Pubs_pairingProduct ..
    | with_reducible refine Keeps.bind (keeps_G1Pubs_pairingProduct ..) fun _ _ => ?_
    | with_reducible exact keeps_pairing ..
    | with_reducible refine Keeps.bind (keeps_pairing ..) fun _ _ => ?_
    | with_reducible exact keeps_pure ..
    | with_reducible refine Keeps.bind (keeps_pure ..) fun _ _ => ?_
    | with_reducible exact keeps_lift ..
    | with_reducible refine Keeps.bind (keeps_lift ..) fun _ _ => ?_
    | with_reducible exact keeps_sig1S ..
    | with_reducible refine Keeps.bind (keeps_sig1S ..) fun _ _ => ?_
    | with_reducible exact keeps_msgs ..
    | with_reducible refine Keeps.bind (keeps_msgs ..) fun _ _ => ?_
    | split

theorem keeps_G1Pubs_verifyAggregateCommon (sha : List UInt8 → List UInt8) (s : Nat) (pks : List Nat) (m : List UInt8)  : Keeps n S (fun _ => True) (G1Pubs.verifyAggregateCommon sha s pks m) := by
  unfold G1Pubs.verifyAggregateCommon
  repeat' first
    | with_reducible exact keeps_G1Pubs_aggregatePublicKeys ..
    | with_reducible refine Keeps.bind (keeps_G1Pubs_aggregatePublicKeys ..) fun _ _ => ?_
    | with_reducible exact keeps_G1Pubs_verify ..
    | with_reducible refine Keeps.bind (keeps_G1Pubs_verify ..) fun _ _ => ?_
    | split

theorem keeps_G1Pubs_verifyAggregateCommonWithDomain (sha : List UInt8 → List UInt8) (s : Nat) (pks : List Nat) (m d : List UInt8)  : Keeps n S (fun _ => True) (G1Pubs.verifyAggregateCommonWithDomain sha s pks m d) := by
  unfold G1Pubs.verifyAggregateCommonWithDomain
  repeat' first
    | with_reducible exact keeps_G1Pubs_aggregatePublicKeys ..
    | with_reducible refine Keeps.bind (keeps_G1Pubs_aggregatePublicKeys ..) fun _ _ => ?_
    | with_reducible exact keeps_G1Pubs_verifyWithDomain ..
    | with_reducible refine Keeps.bind (keeps_G1Pubs_verifyWithDomain ..) fun _ _ => ?_
    | split

theorem keeps_G1Pubs_verifyAggregateWithDomain (sha : List UInt8 → List UInt8) (s : Nat) (pks : List Nat) (ms : Nat) (d : List UInt8)  : Keeps n S (fun _ => True) (G1Pubs.verifyAggregateWithDomain sha s pks ms d) := by
  unfold G1Pubs.verifyAggregateWithDomain
  repeat' first
    | with_reducible exact keeps_G1Pubs_pairingProductWithDomain ..
    | with_reducible refine Keeps.bind (keeps_G1Pubs_pairingProductWithDomain ..) fun _ _ => ?_
    | with_reducible exact keeps_pairing ..
    | with_reducible refine Keeps.bind (keeps_pairing ..) fun _ _ => ?_
    | with_reducible exact keeps_pure ..
    | with_reducible refine Keeps.bind (keeps_pure ..) fun _ _ => ?_
    | with_reducible exact keeps_lift ..
    | with_reducible refine Keeps.bind (keeps_lift ..) fun _ _ => ?_
    | with_reducible exact keeps_sig1S ..
    | with_reducible refine Keeps.bind (keeps_sig1S ..) fun _ _ => ?_
    | with_reducible exact keeps_msgs ..
    | with_reducible refine Keeps.bind (keeps_msgs ..) fun _ _ => ?_
    | split

theorem keeps_G2Pubs_sigSerialize (g : Nat)  : Keeps n S (fun _ => True) (G2Pubs.sigSerialize g) := by
  unfold G2Pubs.sigSerialize
  repeat' first
    | with_reducible exact keeps_g1pToAffine ..
    | with_reducible refine Keeps.bind (keeps_g1pToAffine ..) fun _ _ => ?_
    | with_reducible exact keeps_pure ..
    | with_reducible refine Keeps.bind (keeps_pure ..) fun _ _ => ?_
    | with_reducible exact keeps_g1a ..
    | with_reducible refine Keeps.bind (keeps_g1a ..) fun _ _ => ?_
    | with_reducible exact keeps_sig2S ..
    | with_reducible refine Keeps.bind (keeps_sig2S ..) fun _ _ => ?_
    | split

theorem keeps_G2Pubs_sigGetPoint (g : Nat)  : Keeps n S (fun _ => True) (G2Pubs.sigGetPoint g) := by
  unfold G2Pubs.sigGetPoint
  repeat' first
    | with_reducible exact keeps_g1pCopy ..
    | with_reducible refine Keeps.bind (keeps_g1pCopy ..) fun _ _ => ?_
    | with_reducible exact Keeps.triv (keeps_g1pCopy ..)
    | with_reducible exact keeps_sig2S ..
    | with_reducible refine Keeps.bind (keeps_sig2S ..) fun _ _ => ?_
    | split

theorem keeps_G2Pubs_sigCopy (g : Nat)  : Keeps n S (fun _ => True) (G2Pubs.sigCopy g) := by
  unfold G2Pubs.sigCopy
  repeat' first
    | with_reducible exact keeps_alloc _
    | with_reducible refine Keeps.bind (keeps_alloc _) fun _ _ => ?_
    | with_reducible exact (keeps_alloc _).triv
    | with_reducible exact keeps_g1pCopy ..
    | with_reducible refine Keeps.bind (keeps_g1pCopy ..) fun _ _ => ?_
    | with_reducible exact Keeps.triv (keeps_g1pCopy ..)
    | with_reducible exact keeps_sig2S ..
    | with_reducible refine Keeps.bind (keeps_sig2S ..) fun _ _ => ?_
    | split

theorem keeps_G2Pubs_pubGetPoint (g : Nat)  : Keeps n S (fun _ => True) (G2Pubs.pubGetPoint g) := by
  unfold G2Pubs.pubGetPoint
  repeat' first
    | with_reducible exact keeps_g2pCopy ..
    | with_reducible refine Keeps.bind (keeps_g2pCopy ..) fun _ _ => ?_
    | with_reducible exact Keeps.triv (keeps_g2pCopy ..)
    | with_reducible exact keeps_pub2P ..
    | with_reducible refine Keeps.bind (keeps_pub2P ..) fun _ _ => ?_
    | split

theorem keeps_G2Pubs_pubSerialize (g : Nat)  : Keeps n S (fun _ => True) (G2Pubs.pubSerialize g) := by
  unfold G2Pubs.pubSerialize
  repeat' first
    | with_reducible exact keeps_g2pToAffine ..
    | with_reducible refine Keeps.bind (keeps_g2pToAffine ..) fun _ _ => ?_
    | with_reducible exact keeps_pure ..
    | with_reducible refine Keeps.bind (keeps_pure ..) fun _ _ => ?_
    | with_reducible exact keeps_g2a ..
    | with_reducible refine Keeps.bind (keeps_g2a ..) fun _ _ => ?_
    | with_reducible exact keeps_pub2P ..
    | with_reducible refine Keeps.bind (keeps_pub2P ..) fun _ _ => ?_
    | split

theorem keeps_G2Pubs_pubCopy (g : Nat)  : Keeps n S (fun _ => True) (G2Pubs.pubCopy g) := by
  unfold G2Pubs.pubCopy
  repeat' first
    | with_reducible exact keeps_alloc _
    | with_reducible refine Keeps.bind (keeps_alloc _) fun _ _ => ?_
    | with_reducible exact (keeps_alloc _).triv
    | with_reducible exact keeps_g2pCopy ..
    | with_reducible refine Keeps.bind (keeps_g2pCopy ..) fun _ _ => ?_
    | with_reducible exact Keeps.triv (keeps_g2pCopy ..)
    | with_reducible exact keeps_pub2P ..
    | with_reducible refine Keeps.bind (keeps_pub2P ..) fun _ _ => ?_
    | split

theorem keeps_G2Pubs_newSignatureFromG1 (g : Nat)  : Keeps n S (fun _ => True) (G2Pubs.newSignatureFromG1 g) := by
  unfold G2Pubs.newSignatureFromG1
  repeat' first
    | with_reducible exact keeps_alloc _
    | with_reducible refine Keeps.bind (keeps_alloc _) fun _ _ => ?_
    | with_reducible exact (keeps_alloc _).triv
    | with_reducible exact keeps_g1aToProjective ..
    | with_reducible refine Keeps.bind (keeps_g1aToProjective ..) fun _ _ => ?_
    | split

theorem keeps_G2Pubs_newPublicKeyFromG2 (g : Nat)  : Keeps n S (fun _ => True) (G2Pubs.newPublicKeyFromG2 g) := by
  unfold G2Pubs.newPublicKeyFromG2
  repeat' first
    | with_reducible exact keeps_alloc _
    | with_reducible refine Keeps.bind (keeps_alloc _) fun _ _ => ?_
    | with_reducible exact (keeps_alloc _).triv
    | with_reducible exact keeps_g2aToProjective ..
    | with_reducible refine Keeps.bind (keeps_g2aToProjective ..) fun _ _ => ?_
    | split

theorem keeps_G2Pubs_pubEquals (g other : Nat)  : Keeps n S (fun _ => True) (G2Pubs.pubEquals g other) := by
  unfold G2Pubs.pubEquals
  repeat' first
    | with_reducible exact keeps_pure ..
    | with_reducible refine Keeps.bind (keeps_pure ..) fun _ _ => ?_
    | with_reducible exact keeps_g2p ..
    | with_reducible refine Keeps.bind (keeps_g2p ..) fun _ _ => ?_
    | with_reducible exact keeps_pub2P ..
    | with_reducible refine Keeps.bind (keeps_pub2P ..) fun _ _ => ?_
    | split

theorem keeps_G2Pubs_deserializeSignature (b : List UInt8)  : Keeps n S (fun _ => True) (G2Pubs.deserializeSignature b) := by
  unfold G2Pubs.deserializeSignature
  repeat' first
    | with_reducible exact keeps_G2Pubs_newSignatureFromG1 ..
    | with_reducible refine Keeps.bind (keeps_G2Pubs_newSignatureFromG1 ..) fun _ _ => ?_
    | with_reducible exact keeps_decompressG1 ..
    | with_reducible refine Keeps.bind (keeps_decompressG1 ..) fun _ _ => ?_
    | with_reducible exact keeps_pure ..
    | with_reducible refine Keeps.bind (keeps_pure ..) fun _ _ => ?_
    | split

theorem keeps_G2Pubs_deserializePublicKey (b : List UInt8)  : Keeps n S (fun _ => True) (G2Pubs.deserializePublicKey b) := by
  unfold G2Pubs.deserializePublicKey
  repeat' first
    | with_reducible exact keeps_G2Pubs_newPublicKeyFromG2 ..
    | with_reducible refine Keeps.bind (keeps_G2Pubs_newPublicKeyFromG2 ..) fun _ _ => ?_
    | with_reducible exact keeps_decompressG2 ..
    | with_reducible refine Keeps.bind (keeps_decompressG2 ..) fun _ _ => ?_
    | with_reducible exact keeps_pure ..
    | with_reducible refine Keeps.bind (keeps_pure ..) fun _ _ => ?_
    | split

theorem keeps_G2Pubs_sign (sha : List UInt8 → List UInt8) (m : List UInt8) (f : FR)  : Keeps n S (fun _ => True) (G2Pubs.sign sha m f) := by
  unfold G2Pubs.sign
  repeat' first
    | with_reducible exact keeps_alloc _
    | with_reducible refine Keeps.bind (keeps_alloc _) fun _ _ => ?_
    | with_reducible exact (keeps_alloc _).triv
    | with_reducible exact keeps_hashG1 ..
    | with_reducible refine Keeps.bind (keeps_hashG1 ..) fun _ _ => ?_
    | with_reducible exact keeps_g1aMul ..
    | with_reducible refine Keeps.bind (keeps_g1aMul ..) fun _ _ => ?_
    | split

theorem keeps_G2Pubs_privToPub (f : FR)  : Keeps n S (fun _ => True) (G2Pubs.privToPub f) := by
  unfold G2Pubs.privToPub
  repeat' first
    | with_reducible exact keeps_alloc _
    | with_reducible refine Keeps.bind (keeps_alloc _) fun _ _ => ?_
    | with_reducible exact (keeps_alloc _).triv
    | with_reducible exact keeps_g2aMul ..
    | with_reducible refine Keeps.bind (keeps_g2aMul ..) fun _ _ => ?_
    | split

theorem keeps_G2Pubs_verify (sha : List UInt8 → List UInt8) (m : List UInt8) (pub sig : Nat)  : Keeps n S (fun _ => True) (G2Pubs.verify sha m pub sig) := by
  unfold G2Pubs.verify
  repeat' first
    | with_reducible exact keeps_compareTwoPairings ..
    | with_reducible refine Keeps.bind (keeps_compareTwoPairings ..) fun _ _ => ?_
    | with_reducible exact keeps_hashG1 ..
    | with_reducible refine Keeps.bind (keeps_hashG1 ..) fun _ _ => ?_
    | with_reducible exact keeps_g1aToProjective ..
    | with_reducible refine Keeps.bind (keeps_g1aToProjective ..) fun _ _ => ?_
    | with_reducible exact keeps_sig2S ..
    | with_reducible refine Keeps.bind (keeps_sig2S ..) fun _ _ => ?_
    | with_reducible exact keeps_pub2P ..
    | with_reducible refine Keeps.bind (keeps_pub2P ..) fun _ _ => ?_
    | split

theorem keeps_G2Pubs_newAggregateSignature   : Keeps n S (fun p => n ≤ p) (G2Pubs.newAggregateSignature) := by
  unfold G2Pubs.newAggregateSignature
  repeat' first
    | with_reducible exact keeps_alloc _
    | with_reducible refine Keeps.bind (keeps_alloc _) fun _ _ => ?_
    | with_reducible exact keeps_g1pCopy ..
    | with_reducible refine Keeps.bind (keeps_g1pCopy ..) fun _ _ => ?_
    | with_reducible exact Keeps.triv (keeps_g1pCopy ..)
    | split

theorem keeps_G2Pubs_newAggregatePubkey   : Keeps n S (fun p => n ≤ p) (G2Pubs.newAggregatePubkey) := by
  unfold G2Pubs.newAggregatePubkey
  repeat' first
    | with_reducible exact keeps_alloc _
    | with_reducible refine Keeps.bind (keeps_alloc _) fun _ _ => ?_
    | with_reducible exact keeps_g2pCopy ..
    | with_reducible refine Keeps.bind (keeps_g2pCopy ..) fun _ _ => ?_
    | with_reducible exact Keeps.triv (keeps_g2pCopy ..)
    | split

theorem keeps_G2Pubs_sigAggregate (g other : Nat) (h : n ≤ g ∨ S g) : Keeps n S (fun _ => True) (G2Pubs.sigAggregate g other) := by
  unfold G2Pubs.sigAggregate
  repeat' first
    | with_reducible exact keeps_write ‹_› _
    | with_reducible refine Keeps.bind (keeps_write ‹_› _) fun _ _ => ?_
    | with_reducible exact keeps_g1pAdd ..
    | with_reducible refine Keeps.bind (keeps_g1pAdd ..) fun _ _ => ?_
    | with_reducible exact keeps_sig2S ..
    | with_reducible refine Keeps.bind (keeps_sig2S ..) fun _ _ => ?_
    | split

theorem keeps_G2Pubs_aggregateSignaturesLoop {g : Nat} (h : n ≤ g ∨ S g) (l : List Nat) :
    Keeps n S (fun _ => True) (G2Pubs.aggregateSignaturesLoop g l) := by
  induction l with
  | nil => trivial
  | cons a l ih => exact (keeps_G2Pubs_sigAggregate g a h).bind fun _ _ => ih

theorem keeps_G2Pubs_aggregateSignatures (l : List Nat) : Keeps n S (fun _ => True) (G2Pubs.aggregateSignatures l) :=
  keeps_G2Pubs_newAggregateSignature.bind fun _ h => (keeps_G2Pubs_aggregateSignaturesLoop (Or.inl h) l).bind fun _ _ => trivial

theorem keeps_G2Pubs_pubAggregate (g other : Nat) (h : n ≤ g ∨ S g) : Keeps n S (fun _ => True) (G2Pubs.pubAggregate g other) := by
  unfold G2Pubs.pubAggregate
  repeat' first
    | with_reducible exact keeps_write ‹_› _
    | with_reducible refine Keeps.bind (keeps_write ‹_› _) fun _ _ => ?_
    | with_reducible exact keeps_g2pAdd ..
    | with_reducible refine Keeps.bind (keeps_g2pAdd ..) fun _ _ => ?_
    | with_reducible exact keeps_pub2P ..
    | with_reducible refine Keeps.bind (keeps_pub2P ..) fun _ _ => ?_
    | split

theorem keeps_G2Pubs_aggregatePublicKeysLoop {g : Nat} (h : n ≤ g ∨ S g) (l : List Nat) :
    Keeps n S (fun _ => True) (G2Pubs.aggregatePublicKeysLoop g l) := by
  induction l with
  | nil => trivial
  | cons a l ih => exact (keeps_G2Pubs_pubAggregate g a h).bind fun _ _ => ih

theorem keeps_G2Pubs_aggregatePublicKeys (l : List Nat) : Keeps n S (fun _ => True) (G2Pubs.aggregatePublicKeys l) :=
  keeps_G2Pubs_newAggregatePubkey.bind fun _ h => (keeps_G2Pubs_aggregatePublicKeysLoop (Or.inl h) l).bind fun _ _ => trivial

theorem keeps_G2Pubs_pairingProduct (sha : List UInt8 → List UInt8) (pks : List Nat) (ms : List (List UInt8)) (rhs : FQ12) :
    Keeps n S (fun _ => True) (G2Pubs.pairingProduct sha pks ms rhs) := by
  induction pks generalizing ms rhs with
  | nil => trivial
  | cons p pks ih =>
    cases ms with
    | nil => trivial
    | cons m ms =>
      rw [G2Pubs.pairingProduct]
      repeat' first
        | with_reducible exact ih ..
        | with_reducible refine Keeps.bind (keeps_pairing ..) fun _ _ => ?_
        | with_reducible refine Keeps.bind (keeps_hashG1 ..) fun _ _ => ?_
        | with_reducible refine Keeps.bind (keeps_g1aToProjective ..) fun _ _ => ?_
        | with_reducible refine Keeps.bind (keeps_pure ..) fun _ _ => ?_
        | with_reducible refine Keeps.bind (keeps_lift ..) fun _ _ => ?_
        | with_reducible refine Keeps.bind (keeps_pub2P ..) fun _ _ => ?_

theorem keeps_G2Pubs_verifyAggregate (sha : List UInt8 → List UInt8) (s : Nat) (pks : List Nat) (ms : Nat)  : Keeps n S (fun _ => True) (G2Pubs.verifyAggregate sha s pks ms) := by
  unfold G2Pubs.verifyAggregate
  repeat' first
    | with_reducible exact keeps_alloc _
    | with_reducible refine Keeps.bind (keeps_alloc _) fun _ _ => ?_
    | with_reducible exact (keeps_alloc _).triv
    | with_reducible exact keeps_G2Pubs_pairingProduct ..
    | with_reducible refine Keeps.bind (keeps_G2Pubs_pairingProduct ..) fun _ _ => ?_
    | with_reducible exact keeps_G1Pubs_sortInPlace (h := Or.inl ‹_›) ..
    | with_reducible refine Keeps.bind (keeps_G1Pubs_sortInPlace (h := Or.inl ‹_›) ..) fun _ _ => ?_
    | with_reducible exact keeps_pairing ..
    | with_reducible refine Keeps.bind (keeps_pairing ..) fun _ _ => ?_
    | with_reducible exact keeps_pure ..
    | with_reducible refine Keeps.bind (keeps_pure ..) fun _ _ => ?_
    | with_reducible exact keeps_lift ..
    | with_reducible refine Keeps.bind (keeps_lift ..) fun _ _ => ?_
    | with_reducible exact keeps_sig2S ..
    | with_reducible refine Keeps.bind (keeps_sig2S ..) fun _ _ => ?_
    | with_reducible exact keeps_msgs ..
    | with_reducible refine Keeps.bind (keeps_msgs ..) fun _ _ => ?_
    | split

theorem keeps_G2Pubs_verifyAggregateCommon (sha : List UInt8 → List UInt8) (s : Nat) (pks : List Nat) (m : List UInt8)  : Keeps n S (fun _ => True) (G2Pubs.verifyAggregateCommon sha s pks m) := by
  unfold G2Pubs.verifyAggregateCommon
  repeat' first
    | with_reducible exact keeps_G2Pubs_aggregatePublicKeys ..
    | with_reducible refine Keeps.bind (keeps_G2Pubs_aggregatePublicKeys ..) fun _ _ => ?_
    | with_reducible exact keeps_G2Pubs_verify ..
    | with_reducible refine Keeps.bind (keeps_G2Pubs_verify ..) fun _ _ => ?_
    | split

theorem keeps_arg (e : List Nat) (i : Nat) : Keeps n S (fun t => e[i]? = some t.1) (arg e i) := by
  unfold arg
  split
  · next h => exact fun _ => h
  · trivial

theorem keeps_ownArg (e : List Nat) (i : Nat) : Keeps n S (fun t => e[i]? = some t.1) (ownArg e i) := by
  unfold ownArg
  split
  · exact keeps_arg e i
  · trivial

theorem keeps_argOf (is : Obj → Bool) (e : List Nat) (i : Nat) : Keeps n S (fun _ => True) (argOf is e i) := by
  refine (keeps_arg e i).bind fun t _ => ?_
  split <;> trivial

theorem keeps_argsOf (is : Obj → Bool) (e l : List Nat) : Keeps n S (fun _ => True) (argsOf is e l) := by
  induction l with
  | nil => trivial
  | cons i l ih => exact (keeps_argOf is e i).bind fun _ _ => ih.bind fun _ _ => trivial

theorem keeps_ret {x : M Nat} (h : Keeps n S (fun _ => True) x) : Keeps n S (fun _ => True) (ret x) := h.bind fun _ _ => trivial
theorem keeps_retOr {x : M (Option Nat)} (h : Keeps n S (fun _ => True) x) : Keeps n S (fun _ => True) (retOr x) :=
  h.bind fun _ _ => trivial
theorem keeps_act (i p : Nat) {x : M Unit} (h : Keeps n S (fun _ => True) x) : Keeps n S (fun _ => True) (act i p x) :=
  h.bind fun _ _ => trivial
theorem keeps_retBool {x : M Bool} (h : Keeps n S (fun _ => True) x) : Keeps n S (fun _ => True) (retBool x) :=
  h.bind fun _ _ => trivial
theorem keeps_retBytes {x : M (List UInt8)} (h : Keeps n S (fun _ => True) x) : Keeps n S (fun _ => True) (retBytes x) :=
  h.bind fun _ _ => trivial

/-- A call overwrites, of the objects that exist, at most the one in its receiver. -/
theorem keeps_onMemory (sha : List UInt8 → List UInt8) (e : List Nat) (op : Op) :
    Keeps n (fun p => ∃ i, op.receiver = some i ∧ e[i]? = some p) (fun _ => True) (op.onMemory sha e) := by
  cases op
  case newG1Affine =>
    all_goals unfold Op.onMemory
    all_goals
      repeat' first
        | with_reducible refine keeps_ret ?_
        | with_reducible exact (keeps_alloc _).triv
        | split
  case newG1Projective =>
    all_goals unfold Op.onMemory
    all_goals
      repeat' first
        | with_reducible refine keeps_ret ?_
        | with_reducible exact (keeps_alloc _).triv
        | split
  case newG2Affine =>
    all_goals unfold Op.onMemory
    all_goals
      repeat' first
        | with_reducible refine keeps_ret ?_
        | with_reducible exact (keeps_alloc _).triv
        | split
  case newG2Projective =>
    all_goals unfold Op.onMemory
    all_goals
      repeat' first
        | with_reducible refine keeps_ret ?_
        | with_reducible exact (keeps_alloc _).triv
        | split
  case newMsgs =>
    all_goals unfold Op.onMemory
    all_goals
      repeat' first
        | with_reducible refine keeps_ret ?_
        | with_reducible exact (keeps_alloc _).triv
        | split
  case neg =>
    all_goals unfold Op.onMemory
    all_goals
      repeat' first
        | with_reducible refine Keeps.bind (keeps_ownArg ..) fun _ _ => ?_
        | with_reducible refine keeps_act _ _ ?_
        | with_reducible exact keeps_lift ..
        | with_reducible exact keeps_g2aNeg (h := Or.inr ⟨_, rfl, ‹_›⟩) ..
        | with_reducible exact keeps_g1pNeg (h := Or.inr ⟨_, rfl, ‹_›⟩) ..
        | with_reducible exact keeps_g1aNeg (h := Or.inr ⟨_, rfl, ‹_›⟩) ..
        | split
  case setRawBytes =>
    all_goals unfold Op.onMemory
    all_goals
      repeat' first
        | with_reducible refine Keeps.bind (keeps_ownArg ..) fun _ _ => ?_
        | with_reducible refine keeps_act _ _ ?_
        | with_reducible exact keeps_lift ..
        | with_reducible exact keeps_g2aSetRawBytes (h := Or.inr ⟨_, rfl, ‹_›⟩) ..
        | with_reducible exact keeps_g1aSetRawBytes (h := Or.inr ⟨_, rfl, ‹_›⟩) ..
        | split
  case aggregate =>
    all_goals unfold Op.onMemory
    all_goals
      repeat' first
        | with_reducible refine Keeps.bind (keeps_ownArg ..) fun _ _ => ?_
        | with_reducible refine Keeps.bind (keeps_arg ..) fun _ _ => ?_
        | with_reducible refine keeps_act _ _ ?_
        | with_reducible exact keeps_lift ..
        | with_reducible exact keeps_G2Pubs_pubAggregate (h := Or.inr ⟨_, rfl, ‹_›⟩) ..
        | with_reducible exact keeps_G2Pubs_sigAggregate (h := Or.inr ⟨_, rfl, ‹_›⟩) ..
        | with_reducible exact keeps_G1Pubs_pubAggregate (h := Or.inr ⟨_, rfl, ‹_›⟩) ..
        | with_reducible exact keeps_G1Pubs_sigAggregate (h := Or.inr ⟨_, rfl, ‹_›⟩) ..
        | split
  case copy =>
    all_goals unfold Op.onMemory
    all_goals
      repeat' first
        | with_reducible refine Keeps.bind (keeps_arg ..) fun _ _ => ?_
        | with_reducible refine keeps_ret ?_
        | with_reducible exact keeps_lift ..
        | with_reducible exact keeps_G2Pubs_pubCopy ..
        | with_reducible exact keeps_G2Pubs_sigCopy ..
        | with_reducible exact keeps_G1Pubs_pubCopy ..
        | with_reducible exact keeps_G1Pubs_sigCopy ..
        | with_reducible exact Keeps.triv (keeps_g2pCopy ..)
        | with_reducible exact Keeps.triv (keeps_g2aCopy ..)
        | with_reducible exact Keeps.triv (keeps_g1pCopy ..)
        | with_reducible exact Keeps.triv (keeps_g1aCopy ..)
        | split
  case toProjective =>
    all_goals unfold Op.onMemory
    all_goals
      repeat' first
        | with_reducible refine Keeps.bind (keeps_arg ..) fun _ _ => ?_
        | with_reducible refine keeps_ret ?_
        | with_reducible exact keeps_lift ..
        | with_reducible exact keeps_g2aToProjective ..
        | with_reducible exact keeps_g1aToProjective ..
        | split
  case toAffine =>
    all_goals unfold Op.onMemory
    all_goals
      repeat' first
        | with_reducible refine Keeps.bind (keeps_arg ..) fun _ _ => ?_
        | with_reducible refine keeps_ret ?_
        | with_reducible exact keeps_lift ..
        | with_reducible exact keeps_g2pToAffine ..
        | with_reducible exact keeps_g1pToAffine ..
        | split
  case double =>
    all_goals unfold Op.onMemory
    all_goals
      repeat' first
        | with_reducible refine Keeps.bind (keeps_arg ..) fun _ _ => ?_
        | with_reducible refine keeps_ret ?_
        | with_reducible exact keeps_lift ..
        | with_reducible exact keeps_g2pDouble ..
        | with_reducible exact keeps_g1pDouble ..
        | split
  case add =>
    all_goals unfold Op.onMemory
    all_goals
      repeat' first
        | with_reducible refine Keeps.bind (keeps_arg ..) fun _ _ => ?_
        | with_reducible refine keeps_ret ?_
        | with_reducible exact keeps_lift ..
        | with_reducible exact keeps_g2pAdd ..
        | with_reducible exact keeps_g1pAdd ..
        | split
  case addAffine =>
    all_goals unfold Op.onMemory
    all_goals
      repeat' first
        | with_reducible refine Keeps.bind (keeps_arg ..) fun _ _ => ?_
        | with_reducible refine keeps_ret ?_
        | with_reducible exact keeps_lift ..
        | with_reducible exact keeps_g2pAddAffine ..
        | with_reducible exact keeps_g1pAddAffine ..
        | split
  case mul =>
    all_goals unfold Op.onMemory
    all_goals
      repeat' first
        | with_reducible refine Keeps.bind (keeps_arg ..) fun _ _ => ?_
        | with_reducible refine keeps_ret ?_
        | with_reducible exact keeps_lift ..
        | with_reducible exact keeps_g2pMul ..
        | with_reducible exact keeps_g2aMul ..
        | with_reducible exact keeps_g1pMul ..
        | with_reducible exact keeps_g1aMul ..
        | split
  case mulFR =>
    all_goals unfold Op.onMemory
    all_goals
      repeat' first
        | with_reducible refine Keeps.bind (keeps_arg ..) fun _ _ => ?_
        | with_reducible refine keeps_ret ?_
        | with_reducible exact keeps_lift ..
        | with_reducible exact keeps_g2pMul ..
        | with_reducible exact keeps_g2aMul ..
        | with_reducible exact keeps_g1pMul ..
        | with_reducible exact keeps_g1aMul ..
        | split
  case mulBig =>
    all_goals unfold Op.onMemory
    all_goals
      repeat' first
        | with_reducible refine Keeps.bind (keeps_arg ..) fun _ _ => ?_
        | with_reducible refine keeps_ret ?_
        | with_reducible exact keeps_lift ..
        | with_reducible exact keeps_g2aMulBig ..
        | split
  case scaleByCofactor =>
    all_goals unfold Op.onMemory
    all_goals
      repeat' first
        | with_reducible refine Keeps.bind (keeps_arg ..) fun _ _ => ?_
        | with_reducible refine keeps_ret ?_
        | with_reducible exact keeps_lift ..
        | with_reducible exact keeps_g2aScaleByCofactor ..
        | with_reducible exact keeps_g1aScaleByCofactor ..
        | split
  case getG1PointFromX =>
    all_goals unfold Op.onMemory
    all_goals
      repeat' first
        | with_reducible refine keeps_retOr ?_
        | with_reducible exact keeps_getG1PointFromX ..
        | split
  case getG2PointFromX =>
    all_goals unfold Op.onMemory
    all_goals
      repeat' first
        | with_reducible refine keeps_retOr ?_
        | with_reducible exact keeps_getG2PointFromX ..
        | split
  case decompressG1 =>
    all_goals unfold Op.onMemory
    all_goals
      repeat' first
        | with_reducible refine keeps_retOr ?_
        | with_reducible exact keeps_decompressG1 ..
        | split
  case decompressG1Unchecked =>
    all_goals unfold Op.onMemory
    all_goals
      repeat' first
        | with_reducible refine keeps_retOr ?_
        | with_reducible exact keeps_decompressG1Unchecked ..
        | split
  case decompressG2 =>
    all_goals unfold Op.onMemory
    all_goals
      repeat' first
        | with_reducible refine keeps_retOr ?_
        | with_reducible exact keeps_decompressG2 ..
        | split
  case decompressG2Unchecked =>
    all_goals unfold Op.onMemory
    all_goals
      repeat' first
        | with_reducible refine keeps_retOr ?_
        | with_reducible exact keeps_decompressG2Unchecked ..
        | split
  case swEncodeG2 =>
    all_goals unfold Op.onMemory
    all_goals
      repeat' first
        | with_reducible refine keeps_retOr ?_
        | with_reducible exact keeps_swEncodeG2 ..
        | split
  case hashG1 =>
    all_goals unfold Op.onMemory
    all_goals
      repeat' first
        | with_reducible refine keeps_ret ?_
        | with_reducible exact keeps_hashG1 ..
        | split
  case hashG2 =>
    all_goals unfold Op.onMemory
    all_goals
      repeat' first
        | with_reducible refine keeps_ret ?_
        | with_reducible exact keeps_hashG2 ..
        | split
  case hashG2WithDomain =>
    all_goals unfold Op.onMemory
    all_goals
      repeat' first
        | with_reducible refine keeps_ret ?_
        | with_reducible exact keeps_hashG2WithDomain ..
        | split
  case newSignature =>
    all_goals unfold Op.onMemory
    all_goals
      repeat' first
        | with_reducible refine Keeps.bind (keeps_arg ..) fun _ _ => ?_
        | with_reducible refine keeps_ret ?_
        | with_reducible exact keeps_lift ..
        | with_reducible exact keeps_G2Pubs_newSignatureFromG1 ..
        | with_reducible exact keeps_G1Pubs_newSignatureFromG2 ..
        | split
  case newPublicKey =>
    all_goals unfold Op.onMemory
    all_goals
      repeat' first
        | with_reducible refine Keeps.bind (keeps_arg ..) fun _ _ => ?_
        | with_reducible refine keeps_ret ?_
        | with_reducible exact keeps_lift ..
        | with_reducible exact keeps_G2Pubs_newPublicKeyFromG2 ..
        | with_reducible exact keeps_G1Pubs_newPublicKeyFromG1 ..
        | split
  case deserializeSignature =>
    cases ‹Pkg›
    all_goals unfold Op.onMemory
    all_goals
      repeat' first
        | with_reducible refine keeps_retOr ?_
        | with_reducible exact keeps_G2Pubs_deserializeSignature ..
        | with_reducible exact keeps_G1Pubs_deserializeSignature ..
        | split
  case deserializePublicKey =>
    cases ‹Pkg›
    all_goals unfold Op.onMemory
    all_goals
      repeat' first
        | with_reducible refine keeps_retOr ?_
        | with_reducible exact keeps_G2Pubs_deserializePublicKey ..
        | with_reducible exact keeps_G1Pubs_deserializePublicKey ..
        | split
  case getPoint =>
    all_goals unfold Op.onMemory
    all_goals
      repeat' first
        | with_reducible refine Keeps.bind (keeps_arg ..) fun _ _ => ?_
        | with_reducible refine keeps_ret ?_
        | with_reducible exact keeps_lift ..
        | with_reducible exact keeps_G2Pubs_pubGetPoint ..
        | with_reducible exact keeps_G2Pubs_sigGetPoint ..
        | with_reducible exact keeps_G1Pubs_pubGetPoint ..
        | with_reducible exact keeps_G1Pubs_sigGetPoint ..
        | split
  case sign =>
    cases ‹Pkg›
    all_goals unfold Op.onMemory
    all_goals
      repeat' first
        | with_reducible refine keeps_ret ?_
        | with_reducible exact keeps_G2Pubs_sign ..
        | with_reducible exact keeps_G1Pubs_sign ..
        | split
  case signWithDomain =>
    all_goals unfold Op.onMemory
    all_goals
      repeat' first
        | with_reducible refine keeps_ret ?_
        | with_reducible exact keeps_G1Pubs_signWithDomain ..
        | split
  case privToPub =>
    cases ‹Pkg›
    all_goals unfold Op.onMemory
    all_goals
      repeat' first
        | with_reducible refine keeps_ret ?_
        | with_reducible exact keeps_G2Pubs_privToPub ..
        | with_reducible exact keeps_G1Pubs_privToPub ..
        | split
  case newAggregateSignature =>
    cases ‹Pkg›
    all_goals unfold Op.onMemory
    all_goals
      repeat' first
        | with_reducible refine keeps_ret ?_
        | with_reducible exact Keeps.triv (keeps_G2Pubs_newAggregateSignature ..)
        | with_reducible exact Keeps.triv (keeps_G1Pubs_newAggregateSignature ..)
        | split
  case newAggregatePubkey =>
    cases ‹Pkg›
    all_goals unfold Op.onMemory
    all_goals
      repeat' first
        | with_reducible refine keeps_ret ?_
        | with_reducible exact Keeps.triv (keeps_G2Pubs_newAggregatePubkey ..)
        | with_reducible exact Keeps.triv (keeps_G1Pubs_newAggregatePubkey ..)
        | split
  case aggregateSignatures =>
    cases ‹Pkg›
    all_goals unfold Op.onMemory
    all_goals
      repeat' first
        | with_reducible refine Keeps.bind (keeps_argsOf ..) fun _ _ => ?_
        | with_reducible refine keeps_ret ?_
        | with_reducible exact keeps_G2Pubs_aggregateSignatures ..
        | with_reducible exact keeps_G1Pubs_aggregateSignatures ..
        | split
  case aggregatePublicKeys =>
    cases ‹Pkg›
    all_goals unfold Op.onMemory
    all_goals
      repeat' first
        | with_reducible refine Keeps.bind (keeps_argsOf ..) fun _ _ => ?_
        | with_reducible refine keeps_ret ?_
        | with_reducible exact keeps_G2Pubs_aggregatePublicKeys ..
        | with_reducible exact keeps_G1Pubs_aggregatePublicKeys ..
        | split
  case isZero =>
    all_goals unfold Op.onMemory
    all_goals
      repeat' first
        | with_reducible refine Keeps.bind (keeps_arg ..) fun _ _ => ?_
        | with_reducible refine keeps_retBool ?_
        | with_reducible exact keeps_lift ..
        | with_reducible exact keeps_pure ..
        | with_reducible exact keeps_g1a ..
        | with_reducible refine Keeps.bind (keeps_g1a ..) fun _ _ => ?_
        | with_reducible exact keeps_g1p ..
        | with_reducible refine Keeps.bind (keeps_g1p ..) fun _ _ => ?_
        | with_reducible exact keeps_g2a ..
        | with_reducible refine Keeps.bind (keeps_g2a ..) fun _ _ => ?_
        | with_reducible exact keeps_g2p ..
        | with_reducible refine Keeps.bind (keeps_g2p ..) fun _ _ => ?_
        | split
  case isOnCurve =>
    all_goals unfold Op.onMemory
    all_goals
      repeat' first
        | with_reducible refine Keeps.bind (keeps_arg ..) fun _ _ => ?_
        | with_reducible refine keeps_retBool ?_
        | with_reducible exact keeps_lift ..
        | with_reducible exact keeps_pure ..
        | with_reducible exact keeps_g1a ..
        | with_reducible refine Keeps.bind (keeps_g1a ..) fun _ _ => ?_
        | with_reducible exact keeps_g2a ..
        | with_reducible refine Keeps.bind (keeps_g2a ..) fun _ _ => ?_
        | split
  case isInCorrectSubgroup =>
    all_goals unfold Op.onMemory
    all_goals
      repeat' first
        | with_reducible refine Keeps.bind (keeps_arg ..) fun _ _ => ?_
        | with_reducible refine keeps_retBool ?_
        | with_reducible exact keeps_lift ..
        | with_reducible exact keeps_pure ..
        | with_reducible exact keeps_g1a ..
        | with_reducible refine Keeps.bind (keeps_g1a ..) fun _ _ => ?_
        | with_reducible exact keeps_g2a ..
        | with_reducible refine Keeps.bind (keeps_g2a ..) fun _ _ => ?_
        | split
  case equals =>
    all_goals unfold Op.onMemory
    all_goals
      repeat' first
        | with_reducible refine Keeps.bind (keeps_arg ..) fun _ _ => ?_
        | with_reducible refine keeps_retBool ?_
        | with_reducible exact keeps_lift ..
        | with_reducible exact keeps_pure ..
        | with_reducible exact keeps_G2Pubs_pubEquals ..
        | with_reducible exact keeps_G1Pubs_pubEquals ..
        | with_reducible exact keeps_g1a ..
        | with_reducible refine Keeps.bind (keeps_g1a ..) fun _ _ => ?_
        | with_reducible exact keeps_g1p ..
        | with_reducible refine Keeps.bind (keeps_g1p ..) fun _ _ => ?_
        | with_reducible exact keeps_g2a ..
        | with_reducible refine Keeps.bind (keeps_g2a ..) fun _ _ => ?_
        | with_reducible exact keeps_g2p ..
        | with_reducible refine Keeps.bind (keeps_g2p ..) fun _ _ => ?_
        | split
  case serialize =>
    all_goals unfold Op.onMemory
    all_goals
      repeat' first
        | with_reducible refine Keeps.bind (keeps_arg ..) fun _ _ => ?_
        | with_reducible refine keeps_retBytes ?_
        | with_reducible exact keeps_lift ..
        | with_reducible exact keeps_pure ..
        | with_reducible exact keeps_G2Pubs_pubSerialize ..
        | with_reducible exact keeps_G2Pubs_sigSerialize ..
        | with_reducible exact keeps_G1Pubs_pubSerialize ..
        | with_reducible exact keeps_G1Pubs_sigSerialize ..
        | with_reducible exact keeps_g1a ..
        | with_reducible refine Keeps.bind (keeps_g1a ..) fun _ _ => ?_
        | with_reducible exact keeps_g2a ..
        | with_reducible refine Keeps.bind (keeps_g2a ..) fun _ _ => ?_
        | split
  case compress =>
    all_goals unfold Op.onMemory
    all_goals
      repeat' first
        | with_reducible refine Keeps.bind (keeps_arg ..) fun _ _ => ?_
        | with_reducible refine keeps_retBytes ?_
        | with_reducible exact keeps_lift ..
        | with_reducible exact keeps_pure ..
        | with_reducible exact keeps_g1a ..
        | with_reducible refine Keeps.bind (keeps_g1a ..) fun _ _ => ?_
        | with_reducible exact keeps_g2a ..
        | with_reducible refine Keeps.bind (keeps_g2a ..) fun _ _ => ?_
        | split
  case compareTwoPairings =>
    all_goals unfold Op.onMemory
    all_goals
      repeat' first
        | with_reducible refine Keeps.bind (keeps_arg ..) fun _ _ => ?_
        | with_reducible refine keeps_retBool ?_
        | with_reducible exact keeps_lift ..
        | with_reducible exact keeps_compareTwoPairings ..
        | split
  case verify =>
    cases ‹Pkg›
    all_goals unfold Op.onMemory
    all_goals
      repeat' first
        | with_reducible refine Keeps.bind (keeps_argOf ..) fun _ _ => ?_
        | with_reducible refine keeps_retBool ?_
        | with_reducible exact keeps_G2Pubs_verify ..
        | with_reducible exact keeps_G1Pubs_verify ..
        | split
  case verifyWithDomain =>
    all_goals unfold Op.onMemory
    all_goals
      repeat' first
        | with_reducible refine Keeps.bind (keeps_argOf ..) fun _ _ => ?_
        | with_reducible refine keeps_retBool ?_
        | with_reducible exact keeps_G1Pubs_verifyWithDomain ..
        | split
  case verifyAggregate =>
    cases ‹Pkg›
    all_goals unfold Op.onMemory
    all_goals
      repeat' first
        | with_reducible refine Keeps.bind (keeps_argOf ..) fun _ _ => ?_
        | with_reducible refine Keeps.bind (keeps_argsOf ..) fun _ _ => ?_
        | with_reducible refine keeps_retBool ?_
        | with_reducible exact keeps_G2Pubs_verifyAggregate ..
        | with_reducible exact keeps_G1Pubs_verifyAggregate ..
        | split
  case verifyAggregateCommon =>
    cases ‹Pkg›
    all_goals unfold Op.onMemory
    all_goals
      repeat' first
        | with_reducible refine Keeps.bind (keeps_argOf ..) fun _ _ => ?_
        | with_reducible refine Keeps.bind (keeps_argsOf ..) fun _ _ => ?_
        | with_reducible refine keeps_retBool ?_
        | with_reducible exact keeps_G2Pubs_verifyAggregateCommon ..
        | with_reducible exact keeps_G1Pubs_verifyAggregateCommon ..
        | split
  case verifyAggregateCommonWithDomain =>
    all_goals unfold Op.onMemory
    all_goals
      repeat' first
        | with_reducible refine Keeps.bind (keeps_argOf ..) fun _ _ => ?_
        | with_reducible refine Keeps.bind (keeps_argsOf ..) fun _ _ => ?_
        | with_reducible refine keeps_retBool ?_
        | with_reducible exact keeps_G1Pubs_verifyAggregateCommonWithDomain ..
        | split
  case verifyAggregateWithDomain =>
    all_goals unfold Op.onMemory
    all_goals
      repeat' first
        | with_reducible refine Keeps.bind (keeps_argOf ..) fun _ _ => ?_
        | with_reducible refine Keeps.bind (keeps_argsOf ..) fun _ _ => ?_
        | with_reducible refine keeps_retBool ?_
        | with_reducible exact keeps_G1Pubs_verifyAggregateWithDomain ..
        | split

end Bls.HeapPoints
