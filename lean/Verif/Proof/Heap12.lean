import Verif.Model.Heap12
import Mathlib.Tactic.Ring
/-
The memory of `FQ12` values: every method called on an object that owns its two cells acts as the
value function, and leaves all other objects as they are.
-/
namespace Bls.Heap12
open Function

namespace Mem

@[simp] theorem six_set6 (m : Mem) (p : Nat) (v : FQ6) : (m.set6 p v).six = update m.six p v := rfl
@[simp] theorem twelve_set6 (m : Mem) (p : Nat) (v : FQ6) : (m.set6 p v).twelve = m.twelve := rfl
@[simp] theorem next6_set6 (m : Mem) (p : Nat) (v : FQ6) : (m.set6 p v).next6 = m.next6 := rfl
@[simp] theorem next12_set6 (m : Mem) (p : Nat) (v : FQ6) : (m.set6 p v).next12 = m.next12 := rfl
@[simp] theorem c0_set6 (m : Mem) (p : Nat) (v : FQ6) : (m.set6 p v).c0 = m.c0 := rfl
@[simp] theorem c1_set6 (m : Mem) (p : Nat) (v : FQ6) : (m.set6 p v).c1 = m.c1 := rfl

/-- The memory with a new cell. -/
def push (m : Mem) (v : FQ6) : Mem := { m with six := update m.six m.next6 v, next6 := m.next6 + 1 }
theorem new6_eq (m : Mem) (v : FQ6) : m.new6 v = (m.next6, m.push v) := rfl
@[simp] theorem six_push (m : Mem) (v : FQ6) : (m.push v).six = update m.six m.next6 v := rfl
@[simp] theorem twelve_push (m : Mem) (v : FQ6) : (m.push v).twelve = m.twelve := rfl
@[simp] theorem next6_push (m : Mem) (v : FQ6) : (m.push v).next6 = m.next6 + 1 := rfl
@[simp] theorem next12_push (m : Mem) (v : FQ6) : (m.push v).next12 = m.next12 := rfl
@[simp] theorem c0_push (m : Mem) (v : FQ6) : (m.push v).c0 = m.c0 := rfl
@[simp] theorem c1_push (m : Mem) (v : FQ6) : (m.push v).c1 = m.c1 := rfl

/-- The memory with a new object. -/
def push12 (m : Mem) (p t : Nat) : Mem :=
  { m with twelve := update m.twelve m.next12 (p, t), next12 := m.next12 + 1 }
theorem new12_eq (m : Mem) (p t : Nat) : m.new12 p t = (m.next12, m.push12 p t) := rfl
@[simp] theorem six_push12 (m : Mem) (p t : Nat) : (m.push12 p t).six = m.six := rfl
@[simp] theorem next6_push12 (m : Mem) (p t : Nat) : (m.push12 p t).next6 = m.next6 := rfl
@[simp] theorem next12_push12 (m : Mem) (p t : Nat) : (m.push12 p t).next12 = m.next12 + 1 := rfl
theorem twelve_push12 (m : Mem) (p t : Nat) : (m.push12 p t).twelve = update m.twelve m.next12 (p, t) := rfl
theorem c0_push12 (m : Mem) (p t : Nat) : (m.push12 p t).c0 = update m.c0 m.next12 p := by
  funext g; unfold c0 push12; by_cases h : g = m.next12
  · subst h; simp
  · simp [update_of_ne h]
theorem c1_push12 (m : Mem) (p t : Nat) : (m.push12 p t).c1 = update m.c1 m.next12 t := by
  funext g; unfold c1 push12; by_cases h : g = m.next12
  · subst h; simp
  · simp [update_of_ne h]

@[simp] theorem six_putC0 (m : Mem) (f p : Nat) : (m.putC0 f p).six = m.six := rfl
@[simp] theorem next6_putC0 (m : Mem) (f p : Nat) : (m.putC0 f p).next6 = m.next6 := rfl
@[simp] theorem next12_putC0 (m : Mem) (f p : Nat) : (m.putC0 f p).next12 = m.next12 := rfl
theorem twelve_putC0 (m : Mem) (f p : Nat) : (m.putC0 f p).twelve = update m.twelve f (p, m.c1 f) := rfl
theorem c0_putC0 (m : Mem) (f p : Nat) : (m.putC0 f p).c0 = update m.c0 f p := by
  funext g; unfold c0 putC0; by_cases h : g = f
  · subst h; simp
  · simp [update_of_ne h]
theorem c1_putC0 (m : Mem) (f p : Nat) : (m.putC0 f p).c1 = m.c1 := by
  funext g; unfold c1 putC0; by_cases h : g = f
  · subst h; simp [c1]
  · simp [update_of_ne h]
@[simp] theorem six_putC1 (m : Mem) (f p : Nat) : (m.putC1 f p).six = m.six := rfl
@[simp] theorem next6_putC1 (m : Mem) (f p : Nat) : (m.putC1 f p).next6 = m.next6 := rfl
@[simp] theorem next12_putC1 (m : Mem) (f p : Nat) : (m.putC1 f p).next12 = m.next12 := rfl
theorem twelve_putC1 (m : Mem) (f p : Nat) : (m.putC1 f p).twelve = update m.twelve f (m.c0 f, p) := rfl
theorem c1_putC1 (m : Mem) (f p : Nat) : (m.putC1 f p).c1 = update m.c1 f p := by
  funext g; unfold c1 putC1; by_cases h : g = f
  · subst h; simp
  · simp [update_of_ne h]
theorem c0_putC1 (m : Mem) (f p : Nat) : (m.putC1 f p).c0 = m.c0 := by
  funext g; unfold c0 putC1; by_cases h : g = f
  · subst h; simp [c0]
  · simp [update_of_ne h]

theorem set6_set6 (m : Mem) (p : Nat) (v w : FQ6) : (m.set6 p v).set6 p w = m.set6 p w := by
  unfold set6; simp

end Mem

theorem mulByNonresidue6_eq (m : Mem) (p : Nat) :
    mulByNonresidue6 m p = m.set6 p (m.six p).mulByNonresidue := by
  unfold mulByNonresidue6 Mem.setC0 FQ6.mulByNonresidue
  simp [Mem.set6_set6]

theorem neg6_eq (m : Mem) (p : Nat) : neg6 m p = m.set6 p (m.six p).neg := by
  unfold neg6 Mem.setC0 Mem.setC1 Mem.setC2 FQ6.neg
  simp [Mem.set6_set6]

theorem double6_eq (m : Mem) (p : Nat) : double6 m p = m.set6 p (m.six p).double := by
  unfold double6 Mem.setC0 Mem.setC1 Mem.setC2 FQ6.double
  simp [Mem.set6_set6]

theorem add6_eq (m : Mem) (p o : Nat) : add6 m p o = m.set6 p ((m.six p).add (m.six o)) := by
  unfold add6 Mem.setC0 Mem.setC1 Mem.setC2 FQ6.add
  by_cases h : o = p
  · subst h; simp [Mem.set6_set6]
  · simp [Mem.set6_set6, update_of_ne h]

theorem sub6_eq (m : Mem) (p o : Nat) : sub6 m p o = m.set6 p ((m.six p).sub (m.six o)) := by
  unfold sub6 Mem.setC0 Mem.setC1 Mem.setC2 FQ6.sub
  by_cases h : o = p
  · subst h; simp [Mem.set6_set6]
  · simp [Mem.set6_set6, update_of_ne h]

theorem frobenius6_eq (m : Mem) (p : Nat) (k : UInt8) :
    frobenius6 m p k = m.set6 p ((m.six p).frobeniusMap k) := by
  unfold frobenius6 Mem.setC0 Mem.setC1 Mem.setC2 FQ6.frobeniusMap
  simp [Mem.set6_set6]

theorem mul6_ne (m : Mem) {p o : Nat} (h : p ≠ o) : mul6 m p o = m.set6 p ((m.six p).mul (m.six o)) := by
  unfold mul6 Mem.setC0 Mem.setC1 Mem.setC2 FQ6.mul
  simp [Mem.set6_set6, update_of_ne h.symm]

theorem mul6_self (m : Mem) (p : Nat) : mul6 m p p = m.set6 p (m.six p).mulSelf := by
  unfold mul6 Mem.setC0 Mem.setC1 Mem.setC2 FQ6.mulSelf
  simp [Mem.set6_set6]

/-- The value of an object. -/
def val (m : Mem) (f : Nat) : FQ12 := ⟨m.six (m.c0 f), m.six (m.c1 f)⟩

/-- The cells of `f` are two cells of its own. -/
structure Owns (m : Mem) (f : Nat) : Prop where
  lt0 : m.c0 f < m.next6
  lt1 : m.c1 f < m.next6
  ge0 : 2 ≤ m.c0 f
  ge1 : 2 ≤ m.c1 f
  ne : m.c0 f ≠ m.c1 f
  sep : ∀ g, 2 ≤ g → g < m.next12 → g ≠ f → m.c0 g ≠ m.c0 f ∧ m.c0 g ≠ m.c1 f ∧ m.c1 g ≠ m.c0 f ∧ m.c1 g ≠ m.c1 f

structure Inv (m : Mem) : Prop where
  le6 : 2 ≤ m.next6
  le12 : 2 ≤ m.next12
  zero : m.twelve aFQ12Zero = (aFQ6Zero, aFQ6Zero)
  one : m.twelve aFQ12One = (aFQ6One, aFQ6Zero)
  six0 : m.six aFQ6Zero = FQ6.zero
  six1 : m.six aFQ6One = FQ6.one
  owns : ∀ f, 2 ≤ f → f < m.next12 → Owns m f

/-- An `FQ6` that is no coordinate of an object. -/
structure Loose (m : Mem) (p : Nat) : Prop where
  lt : p < m.next6
  ne : ∀ g, g < m.next12 → p ≠ m.c0 g ∧ p ≠ m.c1 g

/-- The `FQ6` that are no coordinates of an object stay so, with their values. -/
def Frees (m m' : Mem) : Prop := ∀ p, Loose m p → Loose m' p ∧ m'.six p = m.six p

theorem Frees.refl (m : Mem) : Frees m m := fun _ h => ⟨h, rfl⟩
theorem Frees.trans {m m' m'' : Mem} (h : Frees m m') (h' : Frees m' m'') : Frees m m'' := fun p hp =>
  ⟨(h' p (h p hp).1).1, by rw [(h' p (h p hp).1).2, (h p hp).2]⟩

/-- `m'` is `m` with the value of `f` changed to `v`. -/
structure Upd (m m' : Mem) (f : Nat) (v : FQ12) : Prop where
  inv : Inv m'
  next : m'.next12 = m.next12
  val : val m' f = v
  others : ∀ g, g < m.next12 → g ≠ f → Heap12.val m' g = Heap12.val m g
  free : Frees m m'

/-- `m'` is `m` with a new object of value `v` at `f`. -/
structure New (m m' : Mem) (f : Nat) (v : FQ12) : Prop where
  inv : Inv m'
  addr : f = m.next12
  next : m.next12 < m'.next12
  val : val m' f = v
  others : ∀ g, g < m.next12 → Heap12.val m' g = Heap12.val m g
  free : Frees m m'

theorem Inv.lt {m : Mem} (h : Inv m) {g : Nat} (hg : g < m.next12) : m.c0 g < m.next6 ∧ m.c1 g < m.next6 := by
  have := h.le6
  by_cases h2 : 2 ≤ g
  · exact ⟨(h.owns g h2 hg).lt0, (h.owns g h2 hg).lt1⟩
  · have : g = 0 ∨ g = 1 := by omega
    have hz := h.zero; have ho := h.one
    simp only [aFQ12Zero, aFQ12One, aFQ6Zero, aFQ6One] at hz ho
    rcases this with rfl | rfl <;> unfold Mem.c0 Mem.c1
    · rw [hz]; omega
    · rw [ho]; omega

/-- The cells of another object are not those of an owned one. -/
theorem Inv.sep {m : Mem} (h : Inv m) {f g : Nat} (hf : 2 ≤ f) (hf' : f < m.next12) (hg : g < m.next12) (hne : g ≠ f) :
    m.c0 g ≠ m.c0 f ∧ m.c0 g ≠ m.c1 f ∧ m.c1 g ≠ m.c0 f ∧ m.c1 g ≠ m.c1 f := by
  have o := h.owns f hf hf'
  by_cases h2 : 2 ≤ g
  · exact o.sep g h2 hg hne
  · have : g = 0 ∨ g = 1 := by omega
    have hz := h.zero; have ho := h.one
    have := o.ge0; have := o.ge1
    simp only [aFQ12Zero, aFQ12One, aFQ6Zero, aFQ6One] at hz ho
    have e0 : m.c0 0 = 0 ∧ m.c1 0 = 0 := ⟨by rw [Mem.c0, hz], by rw [Mem.c1, hz]⟩
    have e1 : m.c0 1 = 1 ∧ m.c1 1 = 0 := ⟨by rw [Mem.c0, ho], by rw [Mem.c1, ho]⟩
    rcases ‹g = 0 ∨ g = 1› with rfl | rfl <;> omega

/-- A change that touches only the cells of `f`, the object `f` and new cells. -/
theorem Upd.mk' {m m' : Mem} {f : Nat} (h : Inv m) (hf : 2 ≤ f) (hf' : f < m.next12)
    (n12 : m'.next12 = m.next12) (n6 : m.next6 ≤ m'.next6)
    (hs : ∀ p, p < m.next6 → p ≠ m.c0 f → p ≠ m.c1 f → m'.six p = m.six p)
    (ht : ∀ g, g < m.next12 → g ≠ f → m'.twelve g = m.twelve g)
    (hc0 : m'.c0 f = m.c0 f ∨ m'.c0 f = m.c1 f ∨ m.next6 ≤ m'.c0 f)
    (hc1 : m'.c1 f = m.c0 f ∨ m'.c1 f = m.c1 f ∨ m.next6 ≤ m'.c1 f)
    (hl0 : m'.c0 f < m'.next6) (hl1 : m'.c1 f < m'.next6) (hne : m'.c0 f ≠ m'.c1 f) {v : FQ12}
    (hv : Heap12.val m' f = v) : Upd m m' f v := by
  have o := h.owns f hf hf'
  have l6 := h.le6
  have := o.ge0; have := o.ge1; have := o.lt0; have := o.lt1
  have c0e : ∀ g, g < m.next12 → g ≠ f → m'.c0 g = m.c0 g := fun g hg hgf => by rw [Mem.c0, Mem.c0, ht g hg hgf]
  have c1e : ∀ g, g < m.next12 → g ≠ f → m'.c1 g = m.c1 g := fun g hg hgf => by rw [Mem.c1, Mem.c1, ht g hg hgf]
  have l12 := h.le12
  refine ⟨⟨by omega, by omega, ?_, ?_, ?_, ?_, ?_⟩, n12, hv, ?_, ?_⟩
  · rw [ht _ (by unfold aFQ12Zero; omega) (by unfold aFQ12Zero; omega)]; exact h.zero
  · rw [ht _ (by unfold aFQ12One; omega) (by unfold aFQ12One; omega)]; exact h.one
  · rw [hs _ (by unfold aFQ6Zero; omega) (by unfold aFQ6Zero; omega) (by unfold aFQ6Zero; omega)]; exact h.six0
  · rw [hs _ (by unfold aFQ6One; omega) (by unfold aFQ6One; omega) (by unfold aFQ6One; omega)]; exact h.six1
  · intro g hg hg'
    rw [n12] at hg'
    by_cases hgf : g = f
    · subst hgf
      refine ⟨hl0, hl1, by omega, by omega, hne, ?_⟩
      intro k hk hk' hkg
      rw [n12] at hk'
      have s := h.sep hf hf' hk' hkg
      have l := h.lt hk'
      rw [c0e k hk' hkg, c1e k hk' hkg]
      omega
    · have o' := h.owns g hg hg'
      have e0 := c0e g hg' hgf
      have e1 := c1e g hg' hgf
      have := o'.lt0; have := o'.lt1
      refine ⟨by omega, by omega, by have := o'.ge0; omega, by have := o'.ge1; omega, by have := o'.ne; omega, ?_⟩
      intro k hk hk' hkg
      rw [n12] at hk'
      rw [e0, e1]
      by_cases hkf : k = f
      · subst hkf
        have s := h.sep hf hf' hg' hgf
        omega
      · have s := h.sep hg hg' hk' hkg
        rw [c0e k hk' hkf, c1e k hk' hkf]
        exact s
  · intro g hg hgf
    have s := h.sep hf hf' hg hgf
    have l := h.lt hg
    unfold Heap12.val
    rw [c0e g hg hgf, c1e g hg hgf, hs _ l.1 s.1 s.2.1, hs _ l.2 s.2.2.1 s.2.2.2]
  · intro p hp
    have lp := hp.lt
    have np := hp.ne f hf'
    refine ⟨⟨by omega, fun g hg => ?_⟩, hs p lp np.1 np.2⟩
    rw [n12] at hg
    by_cases hgf : g = f
    · subst hgf; omega
    · rw [c0e g hg hgf, c1e g hg hgf]; exact hp.ne g hg

theorem Upd.of_eq {m m' : Mem} {f : Nat} {v w : FQ12} (h : Upd m m' f v) (e : v = w) : Upd m m' f w := e ▸ h

/-! ### Steps of a method -/

/-- What a memory holds. -/
structure Is (m' : Mem) (s : Nat → FQ6) (t : Nat → Nat × Nat) (c0 c1 : Nat → Nat) (n k : Nat) : Prop where
  s : m'.six = s
  t : m'.twelve = t
  c0 : m'.c0 = c0
  c1 : m'.c1 = c1
  n : m'.next6 = n
  k : m'.next12 = k

section
variable {m : Mem} {s : Nat → FQ6} {t : Nat → Nat × Nat} {c0 c1 : Nat → Nat} {n k : Nat} (h : Is m s t c0 c1 n k)
include h

theorem Is.push {v w : FQ6} (e : v = w) : Is (m.push v) (update s n w) t c0 c1 (n + 1) k := by
  obtain ⟨rfl, rfl, rfl, rfl, rfl, rfl⟩ := h; subst e; exact ⟨rfl, rfl, rfl, rfl, rfl, rfl⟩
theorem Is.set6 {p : Nat} {v w : FQ6} (e : v = w) : Is (m.set6 p v) (update s p w) t c0 c1 n k := by
  obtain ⟨rfl, rfl, rfl, rfl, rfl, rfl⟩ := h; subst e; exact ⟨rfl, rfl, rfl, rfl, rfl, rfl⟩
theorem Is.putC0 {f p : Nat} : Is (m.putC0 f p) s (update t f (p, c1 f)) (update c0 f p) c1 n k := by
  obtain ⟨rfl, rfl, rfl, rfl, rfl, rfl⟩ := h
  exact ⟨rfl, rfl, Mem.c0_putC0 .., Mem.c1_putC0 .., rfl, rfl⟩
theorem Is.putC1 {f p : Nat} : Is (m.putC1 f p) s (update t f (c0 f, p)) c0 (update c1 f p) n k := by
  obtain ⟨rfl, rfl, rfl, rfl, rfl, rfl⟩ := h
  exact ⟨rfl, rfl, Mem.c0_putC1 .., Mem.c1_putC1 .., rfl, rfl⟩
theorem Is.push12 {p q : Nat} :
    Is (m.push12 p q) s (update t k (p, q)) (update c0 k p) (update c1 k q) n (k + 1) := by
  obtain ⟨rfl, rfl, rfl, rfl, rfl, rfl⟩ := h
  exact ⟨rfl, rfl, Mem.c0_push12 .., Mem.c1_push12 .., rfl, rfl⟩
end
theorem Is.refl (m : Mem) : Is m m.six m.twelve m.c0 m.c1 m.next6 m.next12 := ⟨rfl, rfl, rfl, rfl, rfl, rfl⟩

section
variable {m m' : Mem} {s : Nat → FQ6} {t : Nat → Nat × Nat} {c0 c1 : Nat → Nat} {n k p o : Nat} {x y : FQ6}
  (h : Is m s t c0 c1 n k)
include h

theorem Is.copy6 {w : Nat} (e : Heap12.copy6 m p = (w, m')) (hx : s p = x) :
    w = n ∧ Is m' (update s n x) t c0 c1 (n + 1) k := by
  unfold Heap12.copy6 at e
  rw [Mem.new6_eq, h.s, hx, h.n] at e
  obtain ⟨rfl, rfl⟩ := Prod.mk.inj e
  exact ⟨rfl, h.push rfl⟩
theorem Is.mul6 (e : Heap12.mul6 m p o = m') (hne : p ≠ o) (hx : s p = x) (hy : s o = y) :
    Is m' (update s p (x.mul y)) t c0 c1 n k := by
  rw [mul6_ne _ hne, h.s, hx, hy] at e; subst e; exact h.set6 rfl
theorem Is.add6 (e : Heap12.add6 m p o = m') (hx : s p = x) (hy : s o = y) :
    Is m' (update s p (x.add y)) t c0 c1 n k := by
  rw [add6_eq, h.s, hx, hy] at e; subst e; exact h.set6 rfl
theorem Is.sub6 (e : Heap12.sub6 m p o = m') (hx : s p = x) (hy : s o = y) :
    Is m' (update s p (x.sub y)) t c0 c1 n k := by
  rw [sub6_eq, h.s, hx, hy] at e; subst e; exact h.set6 rfl
theorem Is.nonres6 (e : mulByNonresidue6 m p = m') (hx : s p = x) :
    Is m' (update s p x.mulByNonresidue) t c0 c1 n k := by
  rw [mulByNonresidue6_eq, h.s, hx] at e; subst e; exact h.set6 rfl
theorem Is.neg6 (e : Heap12.neg6 m p = m') (hx : s p = x) :
    Is m' (update s p x.neg) t c0 c1 n k := by
  rw [neg6_eq, h.s, hx] at e; subst e; exact h.set6 rfl
theorem Is.double6 (e : Heap12.double6 m p = m') (hx : s p = x) :
    Is m' (update s p x.double) t c0 c1 n k := by
  rw [double6_eq, h.s, hx] at e; subst e; exact h.set6 rfl
theorem Is.frob6 {j : UInt8} (e : frobenius6 m p j = m') (hx : s p = x) :
    Is m' (update s p (x.frobeniusMap j)) t c0 c1 n k := by
  rw [frobenius6_eq, h.s, hx] at e; subst e; exact h.set6 rfl
theorem Is.setC0 {c : FQ2} (e : m.setC0 p c = m') (hx : s p = x) :
    Is m' (update s p ⟨c, x.c1, x.c2⟩) t c0 c1 n k := by
  rw [Mem.setC0, h.s, hx] at e; subst e; exact h.set6 rfl
theorem Is.setC1 {c : FQ2} (e : m.setC1 p c = m') (hx : s p = x) :
    Is m' (update s p ⟨x.c0, c, x.c2⟩) t c0 c1 n k := by
  rw [Mem.setC1, h.s, hx] at e; subst e; exact h.set6 rfl
theorem Is.setC2 {c : FQ2} (e : m.setC2 p c = m') (hx : s p = x) :
    Is m' (update s p ⟨x.c0, x.c1, c⟩) t c0 c1 n k := by
  rw [Mem.setC2, h.s, hx] at e; subst e; exact h.set6 rfl
theorem Is.square6 (e : Heap12.square6 m p = m') (hx : s p = x) :
    Is m' (update s p x.square) t c0 c1 n k := by
  rw [Heap12.square6, h.s, hx] at e; subst e; exact h.set6 rfl
theorem Is.by1 {c : FQ2} (e : mulBy1_6 m p c = m') (hx : s p = x) :
    Is m' (update s p (x.mulBy1 c)) t c0 c1 n k := by
  rw [mulBy1_6, h.s, hx] at e; subst e; exact h.set6 rfl
theorem Is.by01 {c d : FQ2} (e : mulBy01_6 m p c d = m') (hx : s p = x) :
    Is m' (update s p (x.mulBy01 c d)) t c0 c1 n k := by
  rw [mulBy01_6, h.s, hx] at e; subst e; exact h.set6 rfl
end

/-- Read a memory that has been written at other places. -/
macro "rd" : tactic =>
  `(tactic| ((repeat first | rewrite [update_self] | rewrite [update_of_ne (by omega)]); rfl))

theorem mul_chain (m : Mem) (f o : Nat) : ∃ aa m1 m2 bb m3 m4 t m5 m6 m7 m8 m9 m10 u m11 m12 m13,
    copy6 m (m.c0 f) = (aa, m1) ∧ mul6 m1 aa (m1.c0 o) = m2 ∧ copy6 m2 (m2.c1 f) = (bb, m3) ∧
    mul6 m3 bb (m3.c1 o) = m4 ∧ copy6 m4 (m4.c0 o) = (t, m5) ∧ add6 m5 t (m5.c1 o) = m6 ∧
    add6 m6 (m6.c1 f) (m6.c0 f) = m7 ∧ mul6 m7 (m7.c1 f) t = m8 ∧ sub6 m8 (m8.c1 f) aa = m9 ∧
    sub6 m9 (m9.c1 f) bb = m10 ∧ copy6 m10 bb = (u, m11) ∧ m11.putC0 f u = m12 ∧
    mulByNonresidue6 m12 (m12.c0 f) = m13 ∧ add6 m13 (m13.c0 f) aa = mul m f o :=
  ⟨_, _, _, _, _, _, _, _, _, _, _, _, _, _, _, _, _, rfl, rfl, rfl, rfl, rfl, rfl, rfl, rfl, rfl, rfl, rfl, rfl, rfl, rfl⟩

theorem mul_is {m : Mem} {f g : Nat} {a b a' b' : Nat} (ha : m.c0 f = a) (hb : m.c1 f = b) (ha' : m.c0 g = a')
    (hb' : m.c1 g = b') (la : a < m.next6) (lb : b < m.next6) (la' : a' < m.next6) (lb' : b' < m.next6) : ∃ s', Is (mul m f g) s' (update m.twelve f (m.next6 + 3, b))
      (update m.c0 f (m.next6 + 3)) m.c1 (m.next6 + 4) m.next12 ∧
      (∀ p, p < m.next6 → p ≠ b → s' p = m.six p) ∧ 
      (⟨s' (m.next6 + 3), s' b⟩ : FQ12) = FQ12.mul ⟨m.six a, m.six b⟩ ⟨m.six a', m.six b'⟩ := by
  obtain ⟨aa, m1, m2, bb, m3, m4, t, m5, m6, m7, m8, m9, m10, u, m11, m12, m13, e1, e2, e3, e4, e5, e6, e7, e8, e9, e10,
    e11, e12, e13, e14⟩ := mul_chain m f g
  have h0 := Is.refl m
  rw [h0.c0, ha] at e1
  obtain ⟨rfl, h1⟩ := h0.copy6 e1 rfl
  rw [h1.c0, ha'] at e2
  have h2 := h1.mul6 e2 (by omega) (by rd) (by rd)
  rw [h2.c1, hb] at e3
  obtain ⟨rfl, h3⟩ := h2.copy6 e3 (by rd)
  rw [h3.c1, hb'] at e4
  have h4 := h3.mul6 e4 (by omega) (by rd) (by rd)
  rw [h4.c0, ha'] at e5
  obtain ⟨rfl, h5⟩ := h4.copy6 e5 (by rd)
  rw [h5.c1, hb'] at e6
  have h6 := h5.add6 e6 (by rd) (by rd)
  rw [h6.c0, h6.c1, ha, hb] at e7
  have h7 := h6.add6 e7 (by rd) (by rd)
  rw [h7.c1, hb] at e8
  have h8 := h7.mul6 e8 (by omega) (by rd) (by rd)
  rw [h8.c1, hb] at e9
  have h9 := h8.sub6 e9 (by rd) (by rd)
  rw [h9.c1, hb] at e10
  have h10 := h9.sub6 e10 (by rd) (by rd)
  obtain ⟨rfl, h11⟩ := h10.copy6 e11 (by rd)
  have h12 := h11.putC0 (f := f) (p := m.next6 + 1 + 1 + 1)
  rw [e12] at h12
  rw [h12.c0, update_self] at e13
  have h13 := h12.nonres6 e13 (by rd)
  rw [h13.c0, update_self] at e14
  have h14 := h13.add6 e14 (by rd) (by rd)
  rw [hb] at h14
  clear e1 e2 e3 e4 e5 e6 e7 e8 e9 e10 e11 e12 e13 e14 h1 h2 h3 h4 h5 h6 h7 h8 h9 h10 h11 h12 h13
  refine ⟨_, h14, ?_, ?_⟩
  · clear h14; intro p _ _; rd
  · unfold FQ12.mul
    clear h14
    dsimp only
    congr 1
    · rd
    · rd

section
variable {m : Mem} {f : Nat} (h : Inv m) (hf : 2 ≤ f) (hf' : f < m.next12)
include h hf hf'

theorem conjugate_upd : Upd m (conjugate m f) f (val m f).conjugate := by
  have o := h.owns f hf hf'
  have l0 := o.lt0
  have l1 := o.lt1
  have hne := o.ne
  generalize e : conjugate m f = m'
  have i := (Is.refl m).neg6 e rfl
  apply Upd.mk' h hf hf' i.k (le_of_eq i.n.symm)
  · intro p _ _ _; rw [i.s]; rd
  · intro g _ _; rw [i.t]
  · rw [i.c0]; exact .inl rfl
  · rw [i.c1]; exact .inr (.inl rfl)
  · rw [i.c0, i.n]; exact l0
  · rw [i.c1, i.n]; exact l1
  · rw [i.c0, i.c1]; exact hne
  · unfold val FQ12.conjugate; rw [i.c0, i.c1, i.s]
    congr 1 <;> rd

theorem double_upd : Upd m (double m f) f (val m f).double := by
  have o := h.owns f hf hf'
  have l0 := o.lt0
  have l1 := o.lt1
  have hne := o.ne
  generalize e1 : double6 m (m.c0 f) = m1
  generalize e : double m f = m'
  unfold double at e
  rw [e1] at e
  dsimp only at e
  have i1 := (Is.refl m).double6 e1 rfl
  rw [i1.c1] at e
  have i := i1.double6 e (by rd)
  apply Upd.mk' h hf hf' i.k (le_of_eq i.n.symm)
  · intro p _ _ _; rw [i.s]; rd
  · intro g _ _; rw [i.t]
  · rw [i.c0]; exact .inl rfl
  · rw [i.c1]; exact .inr (.inl rfl)
  · rw [i.c0, i.n]; exact l0
  · rw [i.c1, i.n]; exact l1
  · rw [i.c0, i.c1]; exact hne
  · unfold val FQ12.double; rw [i.c0, i.c1, i.s]
    congr 1 <;> rd

theorem neg_upd : Upd m (neg m f) f (val m f).neg := by
  have o := h.owns f hf hf'
  have l0 := o.lt0
  have l1 := o.lt1
  have hne := o.ne
  generalize e1 : neg6 m (m.c1 f) = m1
  generalize e : neg m f = m'
  unfold neg at e
  rw [e1] at e
  dsimp only at e
  have i1 := (Is.refl m).neg6 e1 rfl
  rw [i1.c0] at e
  have i := i1.neg6 e (by rd)
  apply Upd.mk' h hf hf' i.k (le_of_eq i.n.symm)
  · intro p _ _ _; rw [i.s]; rd
  · intro g _ _; rw [i.t]
  · rw [i.c0]; exact .inl rfl
  · rw [i.c1]; exact .inr (.inl rfl)
  · rw [i.c0, i.n]; exact l0
  · rw [i.c1, i.n]; exact l1
  · rw [i.c0, i.c1]; exact hne
  · unfold val FQ12.neg; rw [i.c0, i.c1, i.s]
    congr 1 <;> rd

theorem add_upd {g : Nat} (hg : g < m.next12) : Upd m (add m f g) f ((val m f).add (val m g)) := by
  have o := h.owns f hf hf'
  have l0 := o.lt0
  have l1 := o.lt1
  have hne := o.ne
  have hs : m.c1 g ≠ m.c0 f := by
    by_cases e : g = f
    · subst e; exact hne.symm
    · exact (h.sep hf hf' hg e).2.2.1
  generalize e1 : add6 m (m.c0 f) (m.c0 g) = m1
  generalize e : add m f g = m'
  unfold add at e
  rw [e1] at e
  dsimp only at e
  have i1 := (Is.refl m).add6 e1 rfl rfl
  rw [i1.c1] at e
  have i := i1.add6 e (by rd) (by rd)
  apply Upd.mk' h hf hf' i.k (le_of_eq i.n.symm)
  · intro p _ _ _; rw [i.s]; rd
  · intro g _ _; rw [i.t]
  · rw [i.c0]; exact .inl rfl
  · rw [i.c1]; exact .inr (.inl rfl)
  · rw [i.c0, i.n]; exact l0
  · rw [i.c1, i.n]; exact l1
  · rw [i.c0, i.c1]; exact hne
  · unfold val FQ12.add; rw [i.c0, i.c1, i.s]
    congr 1 <;> rd

theorem sub_upd {g : Nat} (hg : g < m.next12) : Upd m (sub m f g) f ((val m f).sub (val m g)) := by
  have o := h.owns f hf hf'
  have l0 := o.lt0
  have l1 := o.lt1
  have hne := o.ne
  have hs : m.c1 g ≠ m.c0 f := by
    by_cases e : g = f
    · subst e; exact hne.symm
    · exact (h.sep hf hf' hg e).2.2.1
  generalize e1 : sub6 m (m.c0 f) (m.c0 g) = m1
  generalize e : sub m f g = m'
  unfold sub at e
  rw [e1] at e
  dsimp only at e
  have i1 := (Is.refl m).sub6 e1 rfl rfl
  rw [i1.c1] at e
  have i := i1.sub6 e (by rd) (by rd)
  apply Upd.mk' h hf hf' i.k (le_of_eq i.n.symm)
  · intro p _ _ _; rw [i.s]; rd
  · intro g _ _; rw [i.t]
  · rw [i.c0]; exact .inl rfl
  · rw [i.c1]; exact .inr (.inl rfl)
  · rw [i.c0, i.n]; exact l0
  · rw [i.c1, i.n]; exact l1
  · rw [i.c0, i.c1]; exact hne
  · unfold val FQ12.sub; rw [i.c0, i.c1, i.s]
    congr 1 <;> rd

theorem frobeniusMap_upd (k : UInt8) : Upd m (frobeniusMap m f k) f ((val m f).frobeniusMap k) := by
  have o := h.owns f hf hf'
  have l0 := o.lt0
  have l1 := o.lt1
  have hne := o.ne
  obtain ⟨m1, m2, m3, m4, e1, e2, e3, e4, e5⟩ : ∃ m1 m2 m3 m4, frobenius6 m (m.c0 f) k = m1 ∧
    frobenius6 m1 (m1.c1 f) k = m2 ∧
    m2.setC0 (m2.c1 f) ((m2.six (m2.c1 f)).c0.mul (FQ12.frobeniusCoeffC1 (k.toNat % 12))) = m3 ∧
    m3.setC1 (m3.c1 f) ((m3.six (m3.c1 f)).c1.mul (FQ12.frobeniusCoeffC1 (k.toNat % 12))) = m4 ∧
    m4.setC2 (m4.c1 f) ((m4.six (m4.c1 f)).c2.mul (FQ12.frobeniusCoeffC1 (k.toNat % 12))) = frobeniusMap m f k :=
    ⟨_, _, _, _, rfl, rfl, rfl, rfl, rfl⟩
  generalize frobeniusMap m f k = m' at *
  have i1 := (Is.refl m).frob6 e1 rfl
  rw [i1.c1] at e2
  have i2 := i1.frob6 e2 (by rd)
  rw [i2.c1, i2.s, update_self] at e3
  have i3 := i2.setC0 e3 (by rd)
  rw [i3.c1, i3.s, update_self] at e4
  have i4 := i3.setC1 e4 (by rd)
  rw [i4.c1, i4.s, update_self] at e5
  have i := i4.setC2 e5 (by rd)
  clear e1 e2 e3 e4 e5 i1 i2 i3 i4
  apply Upd.mk' h hf hf' i.k (le_of_eq i.n.symm)
  · intro p _ _ _; rw [i.s]; rd
  · intro g _ _; rw [i.t]
  · rw [i.c0]; exact .inl rfl
  · rw [i.c1]; exact .inr (.inl rfl)
  · rw [i.c0, i.n]; exact l0
  · rw [i.c1, i.n]; exact l1
  · rw [i.c0, i.c1]; exact hne
  · unfold val FQ12.frobeniusMap; rw [i.c0, i.c1, i.s]
    dsimp only
    congr 1 <;> rd

theorem mul_upd' {g : Nat} (hg : g < m.next12) : Upd m (mul m f g) f ((val m f).mul (val m g)) ∧
    (mul m f g).six (m.c0 f) = m.six (m.c0 f) ∧ (mul m f g).c1 f = m.c1 f := by
  have o := h.owns f hf hf'
  have la := o.lt0
  have lb := o.lt1
  have hab := o.ne
  obtain ⟨la', lb'⟩ := h.lt hg
  have i := mul_is (f := f) (g := g) rfl rfl rfl rfl la lb la' lb'
  obtain ⟨s', i, hs, hv⟩ := i
  refine ⟨?_, by rw [i.s]; exact hs _ la hab, by rw [i.c1]⟩
  apply Upd.mk' h hf hf' i.k (by rw [i.n]; omega)
  · intro p h1 _ h2; rw [i.s]; exact hs p h1 h2
  · intro g _ _; rw [i.t]; rd
  · rw [i.c0, update_self]; exact .inr (.inr (by omega))
  · rw [i.c1]; exact .inr (.inl rfl)
  · rw [i.c0, i.n, update_self]; omega
  · rw [i.c1, i.n]; omega
  · rw [i.c0, i.c1, update_self]; omega
  · unfold val; rw [i.c0, i.c1, i.s, update_self]; exact hv

theorem mul_upd {g : Nat} (hg : g < m.next12) : Upd m (mul m f g) f ((val m f).mul (val m g)) := (mul_upd' h hf hf' hg).1

theorem square_upd' : Upd m (square m f) f (val m f).square ∧
    (square m f).six (m.c0 f) = m.six (m.c0 f) ∧ (square m f).six (m.c1 f) = m.six (m.c1 f) := by
  have o := h.owns f hf hf'
  have la := o.lt0
  have lb := o.lt1
  have hab := o.ne
  obtain ⟨ab, m1, m2, c0c1, m3, m4, c0, m5, m6, m7, m8, m9, t, m10, m11, m12, m13, m14, e1, e2, e3, e4, e5, e6, e7, e8,
    e9, e10, e11, e12, e13, e14, e15⟩ : ∃ ab m1 m2 c0c1 m3 m4 c0 m5 m6 m7 m8 m9 t m10 m11 m12 m13 m14,
    copy6 m (m.c0 f) = (ab, m1) ∧ mul6 m1 ab (m1.c1 f) = m2 ∧ copy6 m2 (m2.c0 f) = (c0c1, m3) ∧
    add6 m3 c0c1 (m3.c1 f) = m4 ∧ copy6 m4 (m4.c1 f) = (c0, m5) ∧ mulByNonresidue6 m5 c0 = m6 ∧
    add6 m6 c0 (m6.c0 f) = m7 ∧ mul6 m7 c0 c0c1 = m8 ∧ sub6 m8 c0 ab = m9 ∧ copy6 m9 ab = (t, m10) ∧
    m10.putC1 f t = m11 ∧ add6 m11 (m11.c1 f) ab = m12 ∧ mulByNonresidue6 m12 ab = m13 ∧ sub6 m13 c0 ab = m14 ∧
    m14.putC0 f c0 = square m f :=
    ⟨_, _, _, _, _, _, _, _, _, _, _, _, _, _, _, _, _, _, rfl, rfl, rfl, rfl, rfl, rfl, rfl, rfl, rfl, rfl, rfl, rfl,
      rfl, rfl, rfl⟩
  generalize square m f = m' at *
  have h0 := Is.refl m
  obtain ⟨rfl, h1⟩ := h0.copy6 e1 rfl
  rw [h1.c1] at e2
  have h2 := h1.mul6 e2 (by omega) (by rd) (by rd)
  rw [h2.c0] at e3
  obtain ⟨rfl, h3⟩ := h2.copy6 e3 (by rd)
  rw [h3.c1] at e4
  have h4 := h3.add6 e4 (by rd) (by rd)
  rw [h4.c1] at e5
  obtain ⟨rfl, h5⟩ := h4.copy6 e5 (by rd)
  have h6 := h5.nonres6 e6 (by rd)
  rw [h6.c0] at e7
  have h7 := h6.add6 e7 (by rd) (by rd)
  have h8 := h7.mul6 e8 (by omega) (by rd) (by rd)
  have h9 := h8.sub6 e9 (by rd) (by rd)
  obtain ⟨rfl, h10⟩ := h9.copy6 e10 (by rd)
  have h11 := h10.putC1 (f := f) (p := m.next6 + 1 + 1 + 1)
  rw [e11] at h11
  rw [h11.c1, update_self] at e12
  have h12 := h11.add6 e12 (by rd) (by rd)
  have h13 := h12.nonres6 e13 (by rd)
  have h14 := h13.sub6 e14 (by rd) (by rd)
  have i := h14.putC0 (f := f) (p := m.next6 + 1 + 1)
  rw [e15] at i
  clear e1 e2 e3 e4 e5 e6 e7 e8 e9 e10 e11 e12 e13 e14 e15 h1 h2 h3 h4 h5 h6 h7 h8 h9 h10 h11 h12 h13 h14
  refine ⟨?_, by rw [i.s]; rd, by rw [i.s]; rd⟩
  apply Upd.mk' h hf hf' i.k (by rw [i.n]; omega)
  · intro p _ _ _; rw [i.s]; rd
  · intro g _ _; rw [i.t]; rd
  · rw [i.c0, update_self]; exact .inr (.inr (by omega))
  · rw [i.c1, update_self]; exact .inr (.inr (by omega))
  · rw [i.c0, i.n, update_self]; omega
  · rw [i.c1, i.n, update_self]; omega
  · rw [i.c0, i.c1, update_self, update_self]; omega
  · unfold val FQ12.square; rw [i.c0, i.c1, i.s, update_self, update_self]
    dsimp only
    congr 1 <;> rd

theorem square_upd : Upd m (square m f) f (val m f).square := (square_upd' h hf hf').1

theorem mulBy014_upd' (c0 c1 c4 : FQ2) : Upd m (mulBy014 m f c0 c1 c4) f ((val m f).mulBy014 c0 c1 c4) ∧
    (mulBy014 m f c0 c1 c4).six (m.c0 f) = m.six (m.c0 f) ∧ (mulBy014 m f c0 c1 c4).c1 f = m.c1 f := by
  have o := h.owns f hf hf'
  have la := o.lt0
  have lb := o.lt1
  have hab := o.ne
  obtain ⟨aa, m1, m2, bb, m3, m4, m5, m6, m7, m8, t, m9, m10, m11, e1, e2, e3, e4, e5, e6, e7, e8, e9, e10, e11, e12⟩ :
    ∃ aa m1 m2 bb m3 m4 m5 m6 m7 m8 t m9 m10 m11,
    copy6 m (m.c0 f) = (aa, m1) ∧ mulBy01_6 m1 aa c0 c1 = m2 ∧ copy6 m2 (m2.c1 f) = (bb, m3) ∧
    mulBy1_6 m3 bb c4 = m4 ∧ add6 m4 (m4.c1 f) (m4.c0 f) = m5 ∧ mulBy01_6 m5 (m5.c1 f) c0 (c1.add c4) = m6 ∧
    sub6 m6 (m6.c1 f) aa = m7 ∧ sub6 m7 (m7.c1 f) bb = m8 ∧ copy6 m8 bb = (t, m9) ∧ m9.putC0 f t = m10 ∧
    mulByNonresidue6 m10 (m10.c0 f) = m11 ∧ add6 m11 (m11.c0 f) aa = mulBy014 m f c0 c1 c4 :=
    ⟨_, _, _, _, _, _, _, _, _, _, _, _, _, _, rfl, rfl, rfl, rfl, rfl, rfl, rfl, rfl, rfl, rfl, rfl, rfl⟩
  generalize mulBy014 m f c0 c1 c4 = m' at *
  have h0 := Is.refl m
  obtain ⟨rfl, h1⟩ := h0.copy6 e1 rfl
  have h2 := h1.by01 e2 (by rd)
  rw [h2.c1] at e3
  obtain ⟨rfl, h3⟩ := h2.copy6 e3 (by rd)
  have h4 := h3.by1 e4 (by rd)
  rw [h4.c1, h4.c0] at e5
  have h5 := h4.add6 e5 (by rd) (by rd)
  rw [h5.c1] at e6
  have h6 := h5.by01 e6 (by rd)
  rw [h6.c1] at e7
  have h7 := h6.sub6 e7 (by rd) (by rd)
  rw [h7.c1] at e8
  have h8 := h7.sub6 e8 (by rd) (by rd)
  obtain ⟨rfl, h9⟩ := h8.copy6 e9 (by rd)
  have h10 := h9.putC0 (f := f) (p := m.next6 + 1 + 1)
  rw [e10] at h10
  rw [h10.c0, update_self] at e11
  have h11 := h10.nonres6 e11 (by rd)
  rw [h11.c0, update_self] at e12
  have i := h11.add6 e12 (by rd) (by rd)
  clear e1 e2 e3 e4 e5 e6 e7 e8 e9 e10 e11 e12 h1 h2 h3 h4 h5 h6 h7 h8 h9 h10 h11
  refine ⟨?_, by rw [i.s]; rd, by rw [i.c1]⟩
  apply Upd.mk' h hf hf' i.k (by rw [i.n]; omega)
  · intro p _ _ _; rw [i.s]; rd
  · intro g _ _; rw [i.t]; rd
  · rw [i.c0, update_self]; exact .inr (.inr (by omega))
  · rw [i.c1]; exact .inr (.inl rfl)
  · rw [i.c0, i.n, update_self]; omega
  · rw [i.c1, i.n]; omega
  · rw [i.c0, i.c1, update_self]; omega
  · unfold val FQ12.mulBy014; rw [i.c0, i.c1, i.s, update_self]
    dsimp only
    congr 1 <;> rd

theorem mulBy014_upd (c0 c1 c4 : FQ2) : Upd m (mulBy014 m f c0 c1 c4) f ((val m f).mulBy014 c0 c1 c4) :=
  (mulBy014_upd' h hf hf' c0 c1 c4).1

omit h hf hf' in
theorem inverse6_cases {p : Nat} {x : FQ6} (hx : m.six p = x) :
    x.inverse.2 = false ∧ inverse6 m p = (false, m) ∨
    x.inverse.2 = true ∧ inverse6 m p = (true, m.set6 p x.inverse.1) := by
  unfold inverse6
  rw [hx]
  generalize x.inverse = y
  obtain ⟨y, ok⟩ := y
  cases ok
  · exact .inl ⟨rfl, rfl⟩
  · exact .inr ⟨rfl, rfl⟩

omit h hf hf' in
theorem inverseHead_chain (m : Mem) (f : Nat) : ∃ c0s m1 m2 c1s m3 m4 m5 m6,
    copy6 m (m.c0 f) = (c0s, m1) ∧ square6 m1 c0s = m2 ∧ copy6 m2 (m2.c1 f) = (c1s, m3) ∧ square6 m3 c1s = m4 ∧
    mulByNonresidue6 m4 c1s = m5 ∧ sub6 m5 c0s c1s = m6 ∧ inverseHead m f = (c0s, m6) :=
  ⟨_, _, _, _, _, _, _, _, rfl, rfl, rfl, rfl, rfl, rfl, rfl⟩

omit h hf hf' in
theorem inverseTail_chain (m : Mem) (f c0s : Nat) : ∃ p m8 t m9 m10 m11 m12 m13,
      copy6 m c0s = (p, m8) ∧ copy6 m8 c0s = (t, m9) ∧ mul6 m9 p (m9.c0 f) = m10 ∧
      mul6 m10 t (m10.c1 f) = m11 ∧ neg6 m11 t = m12 ∧ m12.putC0 f p = m13 ∧
      m13.putC1 f t = inverseTail m f c0s :=
  ⟨_, _, _, _, _, _, _, _, rfl, rfl, rfl, rfl, rfl, rfl, rfl⟩

omit h hf hf' in
theorem inverse_of {m m6 m7 : Mem} {f c0s : Nat} {ok : Bool} (e : inverseHead m f = (c0s, m6))
    (er : inverse6 m6 c0s = (ok, m7)) :
    inverse m f = if !ok then (false, m7) else (true, inverseTail m7 f c0s) := by
  have key : inverse m f = if !(inverse6 (inverseHead m f).2 (inverseHead m f).1).1 then
      (false, (inverse6 (inverseHead m f).2 (inverseHead m f).1).2) else
      (true, inverseTail (inverse6 (inverseHead m f).2 (inverseHead m f).1).2 f (inverseHead m f).1) := rfl
  rw [key, e, er]

omit h hf hf' in
theorem inverse_eq (x : FQ12) : x.inverse = if !(x.c0.square.sub x.c1.square.mulByNonresidue).inverse.2 then
      (x, false) else (⟨(x.c0.square.sub x.c1.square.mulByNonresidue).inverse.1.mul x.c0,
        ((x.c0.square.sub x.c1.square.mulByNonresidue).inverse.1.mul x.c1).neg⟩, true) := by
  unfold FQ12.inverse; rfl

theorem inverse_upd' : ((inverse m f).1 = (val m f).inverse.2 ∧ Upd m (inverse m f).2 f (val m f).inverse.1) ∧
    (inverse m f).2.six (m.c0 f) = m.six (m.c0 f) ∧ (inverse m f).2.six (m.c1 f) = m.six (m.c1 f) := by
  have o := h.owns f hf hf'
  have la := o.lt0
  have lb := o.lt1
  have hab := o.ne
  obtain ⟨c0s, m1, m2, c1s, m3, m4, m5, m6, e1, e2, e3, e4, e5, e6, e7⟩ := inverseHead_chain m f
  have h0 := Is.refl m
  obtain ⟨rfl, h1⟩ := h0.copy6 e1 rfl
  have h2 := h1.square6 e2 (by rd)
  rw [h2.c1] at e3
  obtain ⟨rfl, h3⟩ := h2.copy6 e3 (by rd)
  have h4 := h3.square6 e4 (by rd)
  have h5 := h4.nonres6 e5 (by rd)
  have h6 := h5.sub6 e6 (by rd) (by rd)
  clear e1 e2 e3 e4 e5 e6 h1 h2 h3 h4 h5
  have ev : m6.six m.next6 = (m.six (m.c0 f)).square.sub (m.six (m.c1 f)).square.mulByNonresidue := by
    rw [h6.s]; rd
  have hF := inverse_eq (val m f)
  have v0 : (val m f).c0 = m.six (m.c0 f) := rfl
  have v1 : (val m f).c1 = m.six (m.c1 f) := rfl
  rw [v0, v1] at hF
  rw [hF]
  clear hF
  have hc := inverse6_cases ev
  generalize ((m.six (m.c0 f)).square.sub (m.six (m.c1 f)).square.mulByNonresidue) = x at *
  generalize x.inverse = y at *
  obtain ⟨y, ok⟩ := y
  rcases hc with ⟨ho, hc⟩ | ⟨ho, hc⟩ <;> rw [inverse_of e7 hc] <;> dsimp only at ho <;> subst ho <;> clear hc ev e7
  · have i := h6
    refine ⟨⟨rfl, ?_⟩, by show m6.six _ = _; rw [i.s]; rd, by show m6.six _ = _; rw [i.s]; rd⟩
    show Upd m m6 f (val m f)
    apply Upd.mk' h hf hf' i.k (by rw [i.n]; omega)
    · intro p _ _ _; rw [i.s]; rd
    · intro g _ _; rw [i.t]
    · rw [i.c0]; exact .inl rfl
    · rw [i.c1]; exact .inr (.inl rfl)
    · rw [i.c0, i.n]; omega
    · rw [i.c1, i.n]; omega
    · rw [i.c0, i.c1]; omega
    · unfold val; rw [i.c0, i.c1, i.s]
      congr 1 <;> rd
  · have h7 := h6.set6 (p := m.next6) (v := y) (w := y) rfl
    suffices hs : Upd m (inverseTail (m6.set6 m.next6 y) f m.next6) f
        ⟨y.mul (m.six (m.c0 f)), (y.mul (m.six (m.c1 f))).neg⟩ ∧
        (inverseTail (m6.set6 m.next6 y) f m.next6).six (m.c0 f) = m.six (m.c0 f) ∧
        (inverseTail (m6.set6 m.next6 y) f m.next6).six (m.c1 f) = m.six (m.c1 f) from ⟨⟨rfl, hs.1⟩, hs.2⟩
    generalize m6.set6 m.next6 y = m7 at *
    obtain ⟨p, m8, t, m9, m10, m11, m12, m13, e8, e9, e10, e11, e12, e13, e14⟩ := inverseTail_chain m7 f m.next6
    obtain ⟨rfl, h8⟩ := h7.copy6 e8 (by rd)
    obtain ⟨rfl, h9⟩ := h8.copy6 e9 (by rd)
    rw [h9.c0] at e10
    have h10 := h9.mul6 e10 (by omega) (by rd) (by rd)
    rw [h10.c1] at e11
    have h11 := h10.mul6 e11 (by omega) (by rd) (by rd)
    have h12 := h11.neg6 e12 (by rd)
    have h13 := h12.putC0 (f := f) (p := m.next6 + 1 + 1)
    rw [e13] at h13
    have i := h13.putC1 (f := f) (p := m.next6 + 1 + 1 + 1)
    rw [e14] at i
    clear e8 e9 e10 e11 e12 e13 e14 h6 h7 h8 h9 h10 h11 h12 h13
    refine ⟨?_, by rw [i.s]; rd, by rw [i.s]; rd⟩
    apply Upd.mk' h hf hf' i.k (by rw [i.n]; omega)
    · intro p _ _ _; rw [i.s]; rd
    · intro g _ _; rw [i.t]; rd
    · rw [i.c0, update_self]; exact .inr (.inr (by omega))
    · rw [i.c1, update_self]; exact .inr (.inr (by omega))
    · rw [i.c0, i.n, update_self]; omega
    · rw [i.c1, i.n, update_self]; omega
    · rw [i.c0, i.c1, update_self, update_self]; omega
    · unfold val; rw [i.c0, i.c1, i.s, update_self, update_self]
      congr 1 <;> rd

theorem inverse_upd : (inverse m f).1 = (val m f).inverse.2 ∧ Upd m (inverse m f).2 f (val m f).inverse.1 :=
  (inverse_upd' h hf hf').1
end

/-! ### Allocation -/

/-- A change that adds an object with two new cells and touches no old cell or object. -/
theorem New.mk' {m m' : Mem} {f : Nat} (h : Inv m) (n12 : m'.next12 = m.next12 + 1) (hfe : f = m.next12)
    (n6 : m.next6 ≤ m'.next6)
    (hs : ∀ p, p < m.next6 → m'.six p = m.six p) (ht : ∀ g, g < m.next12 → m'.twelve g = m.twelve g)
    (hc0 : m.next6 ≤ m'.c0 f) (hc1 : m.next6 ≤ m'.c1 f)
    (hl0 : m'.c0 f < m'.next6) (hl1 : m'.c1 f < m'.next6) (hne : m'.c0 f ≠ m'.c1 f) {v : FQ12}
    (hv : Heap12.val m' f = v) : New m m' f v := by
  have l6 := h.le6
  have l12 := h.le12
  have c0e : ∀ g, g < m.next12 → m'.c0 g = m.c0 g := fun g hg => by rw [Mem.c0, Mem.c0, ht g hg]
  have c1e : ∀ g, g < m.next12 → m'.c1 g = m.c1 g := fun g hg => by rw [Mem.c1, Mem.c1, ht g hg]
  refine ⟨⟨by omega, by omega, ?_, ?_, ?_, ?_, ?_⟩, hfe, by omega, hv, ?_, ?_⟩
  · rw [ht _ (by unfold aFQ12Zero; omega)]; exact h.zero
  · rw [ht _ (by unfold aFQ12One; omega)]; exact h.one
  · rw [hs _ (by unfold aFQ6Zero; omega)]; exact h.six0
  · rw [hs _ (by unfold aFQ6One; omega)]; exact h.six1
  · intro g hg hg'
    by_cases hgf : g = f
    · subst hgf
      refine ⟨hl0, hl1, by omega, by omega, hne, ?_⟩
      intro k hk hk' hkg
      have hk2 : k < m.next12 := by omega
      have l := h.lt hk2
      rw [c0e k hk2, c1e k hk2]
      omega
    · have hg2 : g < m.next12 := by omega
      have o' := h.owns g hg hg2
      have e0 := c0e g hg2
      have e1 := c1e g hg2
      have := o'.lt0; have := o'.lt1
      refine ⟨by omega, by omega, by have := o'.ge0; omega, by have := o'.ge1; omega, by have := o'.ne; omega, ?_⟩
      intro k hk hk' hkg
      rw [e0, e1]
      by_cases hkf : k = f
      · subst hkf; omega
      · have hk2 : k < m.next12 := by omega
        have s := h.sep hg hg2 hk2 hkg
        rw [c0e k hk2, c1e k hk2]
        exact s
  · intro g hg
    have l := h.lt hg
    unfold Heap12.val
    rw [c0e g hg, c1e g hg, hs _ l.1, hs _ l.2]
  · intro p hp
    have lp := hp.lt
    refine ⟨⟨by omega, fun g hg => ?_⟩, hs p lp⟩
    by_cases hgf : g = f
    · subst hgf; omega
    · have hg2 : g < m.next12 := by omega
      rw [c0e g hg2, c1e g hg2]; exact hp.ne g hg2

theorem rand_new {m : Mem} (h : Inv m) (a b : FQ6) : New m (rand m a b).2 (rand m a b).1 ⟨a, b⟩ := by
  have i := (((Is.refl m).push (v := a) rfl).push (v := b) rfl).push12 (p := m.next6) (q := m.next6 + 1)
  obtain ⟨m', e, e2⟩ : ∃ m', m' = ((m.push a).push b).push12 m.next6 (m.next6 + 1) ∧ rand m a b = (m.next12, m') :=
    ⟨_, rfl, rfl⟩
  rw [← e] at i
  rw [e2]
  apply New.mk' h i.k rfl (by rw [i.n]; omega)
  · intro p _; rw [i.s]; rd
  · intro g _; rw [i.t]; rd
  · rw [i.c0, update_self]
  · rw [i.c1, update_self]; omega
  · rw [i.c0, i.n, update_self]; omega
  · rw [i.c1, i.n, update_self]; omega
  · rw [i.c0, i.c1, update_self, update_self]; omega
  · unfold val; rw [i.c0, i.c1, i.s, update_self, update_self]
    congr 1 <;> rd

theorem copy_new {m : Mem} (h : Inv m) {f : Nat} (hf : f < m.next12) : New m (copy m f).2 (copy m f).1 (val m f) := by
  have l := h.lt hf
  obtain ⟨p, m1, t, m2, e1, e2, e3⟩ : ∃ p m1 t m2, copy6 m (m.c0 f) = (p, m1) ∧ copy6 m1 (m1.c1 f) = (t, m2) ∧
    copy m f = (m2.next12, m2.push12 p t) := ⟨_, _, _, _, rfl, rfl, rfl⟩
  obtain ⟨rfl, h1⟩ := (Is.refl m).copy6 e1 rfl
  rw [h1.c1] at e2
  obtain ⟨rfl, h2⟩ := h1.copy6 e2 (by rd)
  have i := h2.push12 (p := m.next6) (q := m.next6 + 1)
  rw [e3, h2.k]
  generalize m2.push12 m.next6 (m.next6 + 1) = m' at *
  apply New.mk' h i.k rfl (by rw [i.n]; omega)
  · intro p _; rw [i.s]; rd
  · intro g _; rw [i.t]; rd
  · rw [i.c0, update_self]
  · rw [i.c1, update_self]; omega
  · rw [i.c0, i.n, update_self]; omega
  · rw [i.c1, i.n, update_self]; omega
  · rw [i.c0, i.c1, update_self, update_self]; omega
  · unfold val; rw [i.c0, i.c1, i.s, update_self, update_self]
    congr 1 <;> rd

end Bls.Heap12
