import Verif.Proof.Field6
import Verif.Props.Tower
/-
C82: programs that use `FQ6` and `FQ12` together, with `NewFQ12`, which keeps the pointers it is given. Programs and
their three readings (values, memory, fields) are in Verif/Spec/History6.lean.
-/
set_option exponentiation.threshold 1000
namespace Bls.Props
open Bls.Heap12

/-! ## C82 -/

/-- Every program on `FQ6` and `FQ12` that does not use an `FQ6` again after passing it to `NewFQ12` gives the variables
and the booleans that it gives when elements are plain values. -/
theorem C82_values (cs : List Call) : executeCalls cs =
    callsOnValues cs ⟨[some FQ6.zero, some FQ6.one], [FQ12.zero, FQ12.one]⟩ := executeCalls_eq cs

/-- If it also uses canonical coordinates, never calls `x.MulAssign(x)` or `Exp` on an `FQ6`, and computes no pairing, it
computes in the fields with `q⁶` and `q¹²` elements, and all its variables stay canonical. -/
theorem C82_field (cs : List Call) (c : ∀ x ∈ cs, x.Canonical) :
    (executeCalls cs).map (fun t => (⟨t.1.six.map (Option.map FQ6.fld), t.1.twelve.map FQ12.fld⟩, t.2)) =
      callsOnField cs ⟨[some 0, some 1], [0, 1]⟩ ∧
    ∀ s o, executeCalls cs = some (s, o) → (∀ a, some a ∈ s.six → a.isValid) ∧ ∀ a ∈ s.twelve, a.isValid :=
  executeCalls_field cs c

/-- `x := NewFQ6(…); y := x.Copy(); y.InverseAssign(); y.MulAssign(x); y.SubAssign(FQ6One); y.IsZero();
y.AddAssign(x); y.Equals(x); f := NewFQ12(x, y); g := f.Copy(); g.SquareAssign(); f.MulAssign(f); f.Equals(g)`. -/
def prog6 : List Call := [.six (.new ex12.c0.c0 ex12.c0.c1 ex12.c0.c2), .six (.copy 2), .six (.inverse 3),
  .six (.mul 3 2), .six (.sub 3 1), .six (.isZero 3), .six (.add 3 2), .six (.equals 3 2), .newFQ12 2 3,
  .twelve (.copy 2), .twelve (.square 3), .twelve (.mul 2 2), .twelve (.equals 2 3)]

example : ∀ op ∈ prog6, op.Canonical := by
  intro op h
  simp only [prog6, List.mem_cons, List.not_mem_nil, or_false] at h
  rcases h with rfl | rfl | rfl | rfl | rfl | rfl | rfl | rfl | rfl | rfl | rfl | rfl | rfl <;>
    first | exact True.intro | (simp only [Call.Canonical]; decide +kernel)

/-- What the program returns: invertible, zero, equal, equal. -/
example : (executeCalls prog6).map (·.2) = some [true, true, true, true] := by
  rw [C82_values]; decide +kernel

/-- The state after a program. -/
def After (cs : List Call) (m : Mem) (e : Vars Nat Nat) : Prop :=
  ∃ o, callsOnMemory cs init ⟨[some aFQ6Zero, some aFQ6One], [aFQ12Zero, aFQ12One]⟩ = some ((m, e), o)

theorem After.sim {cs : List Call} {m : Mem} {e : Vars Nat Nat} (h : After cs m e) : ∃ s, SimV m e s := by
  obtain ⟨o, h⟩ := h
  rcases calls_agree cs init_simV with ⟨a, _⟩ | ⟨m', e', s, o', a, _, hs⟩
  · rw [h] at a; cases a
  · rw [h] at a; cases a; exact ⟨s, hs⟩

/-- What a program may do with `NewFQ12(p, t)`. -/
theorem After.new {cs : List Call} {m : Mem} {e : Vars Nat Nat} (h : After cs m e) {i j p t : Nat} (hij : i ≠ j)
    (hp : mine e.six i = some p) (ht : mine e.six j = some t) : Inv (m.push12 p t) ∧ 2 ≤ m.next12 ∧ p ≠ t ∧
      (m.push12 p t).c0 m.next12 = p ∧ (m.push12 p t).c1 m.next12 = t ∧
      (∀ g ∈ e.twelve, g < m.next12 ∧ val (m.push12 p t) g = val m g) ∧ Loose m p ∧ Loose m t := by
  obtain ⟨s, hs⟩ := h.sim
  obtain ⟨i2, hp⟩ := mine_some hp
  obtain ⟨j2, ht⟩ := mine_some ht
  have hi := hs.twelve.inv
  have lp := hs.six.loose i p i2 hp
  have lt := hs.six.loose j t j2 ht
  have hne := hs.six.ne hi i2 hp ht hij
  refine ⟨(hs.twelve.push12 lp lt hne).inv, hi.le12, hne, by rw [Mem.c0_push12, Function.update_self],
    by rw [Mem.c1_push12, Function.update_self], fun g hg => ⟨hs.twelve.lt g hg, ?_⟩, lp, lt⟩
  have := hs.twelve.lt g hg
  unfold val
  rw [Mem.c0_push12, Mem.c1_push12, Mem.six_push12, Function.update_of_ne (by omega), Function.update_of_ne (by omega)]

private theorem pairs_cons {α β : Type} (P : α → β → Prop) {a : α} {b : β} {l : List (α × β)} (h : P a b)
    (hl : ∀ x ∈ l, P x.1 x.2) : ∀ x ∈ (a, b) :: l, P x.1 x.2 := by
  intro x hx
  rcases List.mem_cons.mp hx with rfl | hx
  · exact h
  · exact hl x hx

/-- What `NewFQ12` gives is the pair of the two `FQ6`, and a later change of either `FQ6` changes the `FQ12`. -/
theorem C82_write (cs : List Call) (m : Mem) (e : Vars Nat Nat) (h : After cs m e) (i j p t o : Nat) (hij : i ≠ j)
    (hp : mine e.six i = some p) (ht : mine e.six j = some t) (k : UInt8) (c d : FQ2)
    (n : Mem) (f : Nat) (hn : m.new12 p t = (f, n)) :
    n.read f = ⟨m.six p, m.six t⟩ ∧
    (∀ x ∈ [(double6 n p, (m.six p).double), (neg6 n p, (m.six p).neg), (square6 n p, (m.six p).square),
      (mulByNonresidue6 n p, (m.six p).mulByNonresidue), (frobenius6 n p k, (m.six p).frobeniusMap k),
      (add6 n p o, (m.six p).add (m.six o)), (sub6 n p o, (m.six p).sub (m.six o)),
      (mulBy1_6 n p c, (m.six p).mulBy1 c), (mulBy01_6 n p c d, (m.six p).mulBy01 c d),
      ((inverse6 n p).2, (m.six p).inverse.1)], x.1.read f = ⟨x.2, m.six t⟩) ∧
    (∀ x ∈ [(double6 n t, (m.six t).double), (neg6 n t, (m.six t).neg), (square6 n t, (m.six t).square),
      (mulByNonresidue6 n t, (m.six t).mulByNonresidue), (frobenius6 n t k, (m.six t).frobeniusMap k),
      (add6 n t o, (m.six t).add (m.six o)), (sub6 n t o, (m.six t).sub (m.six o)),
      (mulBy1_6 n t c, (m.six t).mulBy1 c), (mulBy01_6 n t c d, (m.six t).mulBy01 c d),
      ((inverse6 n t).2, (m.six t).inverse.1)], x.1.read f = ⟨m.six p, x.2⟩) := by
  obtain ⟨_, _, hne, c0, c1, _, _, _⟩ := h.new hij hp ht
  rw [Mem.new12_eq] at hn
  obtain ⟨rfl, rfl⟩ := Prod.mk.inj hn
  have s6 : (m.push12 p t).six = m.six := rfl
  have k0 : ∀ v, ((m.push12 p t).set6 p v).read m.next12 = ⟨v, m.six t⟩ := fun v => by
    unfold Mem.read
    rw [Mem.c0_set6, Mem.c1_set6, c0, c1, Mem.six_set6, Function.update_self, Function.update_of_ne hne.symm, s6]
  have k1 : ∀ v, ((m.push12 p t).set6 t v).read m.next12 = ⟨m.six p, v⟩ := fun v => by
    unfold Mem.read
    rw [Mem.c0_set6, Mem.c1_set6, c0, c1, Mem.six_set6, Function.update_self, Function.update_of_ne hne, s6]
  refine ⟨by unfold Mem.read; rw [c0, c1, s6], ?_, ?_⟩
  · have r {a b l} := pairs_cons (fun (y : Mem) (v : FQ6) => y.read m.next12 = ⟨v, m.six t⟩) (a := a) (b := b) (l := l)
    refine r ?_ (r ?_ (r ?_ (r ?_ (r ?_ (r ?_ (r ?_ (r ?_ (r ?_ (r ?_ (List.forall_mem_nil _))))))))))
    · rw [double6_eq, s6]; exact k0 _
    · rw [neg6_eq, s6]; exact k0 _
    · rw [square6_eq, s6]; exact k0 _
    · rw [mulByNonresidue6_eq, s6]; exact k0 _
    · rw [frobenius6_eq, s6]; exact k0 _
    · rw [add6_eq, s6]; exact k0 _
    · rw [sub6_eq, s6]; exact k0 _
    · rw [mulBy1_6_eq, s6]; exact k0 _
    · rw [mulBy01_6_eq, s6]; exact k0 _
    · rw [inverse6_eq, s6]; exact k0 _
  · have r {a b l} := pairs_cons (fun (y : Mem) (v : FQ6) => y.read m.next12 = ⟨m.six p, v⟩) (a := a) (b := b) (l := l)
    refine r ?_ (r ?_ (r ?_ (r ?_ (r ?_ (r ?_ (r ?_ (r ?_ (r ?_ (r ?_ (List.forall_mem_nil _))))))))))
    · rw [double6_eq, s6]; exact k1 _
    · rw [neg6_eq, s6]; exact k1 _
    · rw [square6_eq, s6]; exact k1 _
    · rw [mulByNonresidue6_eq, s6]; exact k1 _
    · rw [frobenius6_eq, s6]; exact k1 _
    · rw [add6_eq, s6]; exact k1 _
    · rw [sub6_eq, s6]; exact k1 _
    · rw [mulBy1_6_eq, s6]; exact k1 _
    · rw [mulBy01_6_eq, s6]; exact k1 _
    · rw [inverse6_eq, s6]; exact k1 _

/-- In the other direction: after `AddAssign`, `SubAssign`, `DoubleAssign`, `NegAssign`, `ConjugateAssign` and
`FrobeniusMapAssign` on the `FQ12`, the two `FQ6` are its new coordinates; after `MulAssign` and `MulBy014Assign` the
first `FQ6` is as it was and the second is the new coordinate; after `SquareAssign` and `InverseAssign` both are as they
were. The `FQ12` itself has the right value in all cases. -/
theorem C82_back (cs : List Call) (m : Mem) (e : Vars Nat Nat) (h : After cs m e) (i j p t : Nat) (hij : i ≠ j)
    (hp : mine e.six i = some p) (ht : mine e.six j = some t) (g : Nat) (hg : g ∈ e.twelve) (k : UInt8) (c d b : FQ2)
    (n : Mem) (f : Nat) (hn : m.new12 p t = (f, n)) (v : FQ12) (hv : v = ⟨m.six p, m.six t⟩) :
    (∀ x ∈ [(Heap12.add n f g, v.add (m.read g)), (Heap12.sub n f g, v.sub (m.read g)), (Heap12.double n f, v.double),
        (Heap12.neg n f, v.neg), (Heap12.conjugate n f, v.conjugate), (Heap12.frobeniusMap n f k, v.frobeniusMap k)],
      x.1.read f = x.2 ∧ x.1.six p = x.2.c0 ∧ x.1.six t = x.2.c1) ∧
    (∀ x ∈ [(Heap12.mul n f g, v.mul (m.read g)), (Heap12.mulBy014 n f c d b, v.mulBy014 c d b)],
      x.1.read f = x.2 ∧ x.1.six p = m.six p ∧ x.1.six t = x.2.c1) ∧
    (∀ x ∈ [(Heap12.square n f, v.square), ((Heap12.inverse n f).2, v.inverse.1)],
      x.1.read f = x.2 ∧ x.1.six p = m.six p ∧ x.1.six t = m.six t) := by
  obtain ⟨inv, l2, hne, c0, c1, hg', _, _⟩ := h.new hij hp ht
  obtain ⟨lg, vg⟩ := hg' g hg
  rw [Mem.new12_eq] at hn
  obtain ⟨rfl, rfl⟩ := Prod.mk.inj hn
  have s6 : (m.push12 p t).six = m.six := rfl
  have lf : m.next12 < (m.push12 p t).next12 := Nat.lt_succ_self _
  have lg' : g < (m.push12 p t).next12 := lt_trans lg lf
  have vf : val (m.push12 p t) m.next12 = v := by unfold val; rw [c0, c1, s6, hv]
  have rg : m.read g = val (m.push12 p t) g := vg.symm
  have both : ∀ {m' : Mem} {w : FQ12}, Upd (m.push12 p t) m' m.next12 w → m'.c0 = (m.push12 p t).c0 →
      m'.c1 = (m.push12 p t).c1 → m'.read m.next12 = w ∧ m'.six p = w.c0 ∧ m'.six t = w.c1 := by
    intro m' w u e0 e1
    have hr : m'.read m.next12 = w := u.val
    refine ⟨hr, ?_, ?_⟩
    · rw [← hr]; unfold Mem.read; rw [e0, c0]
    · rw [← hr]; unfold Mem.read; rw [e1, c1]
  have one : ∀ {m' : Mem} {w : FQ12}, Upd (m.push12 p t) m' m.next12 w ∧ m'.six ((m.push12 p t).c0 m.next12) =
      (m.push12 p t).six ((m.push12 p t).c0 m.next12) ∧ m'.c1 m.next12 = (m.push12 p t).c1 m.next12 →
      m'.read m.next12 = w ∧ m'.six p = m.six p ∧ m'.six t = w.c1 := by
    intro m' w u
    rw [c0, c1, s6] at u
    have hr : m'.read m.next12 = w := u.1.val
    refine ⟨hr, u.2.1, ?_⟩
    rw [← hr]; unfold Mem.read; rw [u.2.2]
  have none' : ∀ {m' : Mem} {w : FQ12}, Upd (m.push12 p t) m' m.next12 w ∧ m'.six ((m.push12 p t).c0 m.next12) =
      (m.push12 p t).six ((m.push12 p t).c0 m.next12) ∧ m'.six ((m.push12 p t).c1 m.next12) =
      (m.push12 p t).six ((m.push12 p t).c1 m.next12) →
      m'.read m.next12 = w ∧ m'.six p = m.six p ∧ m'.six t = m.six t := by
    intro m' w u
    rw [c0, c1, s6] at u
    exact ⟨u.1.val, u.2.1, u.2.2⟩
  rw [rg, ← vf]
  refine ⟨?_, ?_, ?_⟩
  · have r {a b l} := pairs_cons (fun (y : Mem) (w : FQ12) => y.read m.next12 = w ∧ y.six p = w.c0 ∧ y.six t = w.c1)
      (a := a) (b := b) (l := l)
    refine r ?_ (r ?_ (r ?_ (r ?_ (r ?_ (r ?_ (List.forall_mem_nil _))))))
    · exact both (add_upd inv l2 lf lg') (by unfold Heap12.add; rw [add6_eq, add6_eq]; rfl)
        (by unfold Heap12.add; rw [add6_eq, add6_eq]; rfl)
    · exact both (sub_upd inv l2 lf lg') (by unfold Heap12.sub; rw [sub6_eq, sub6_eq]; rfl)
        (by unfold Heap12.sub; rw [sub6_eq, sub6_eq]; rfl)
    · exact both (double_upd inv l2 lf) (by unfold Heap12.double; rw [double6_eq, double6_eq]; rfl)
        (by unfold Heap12.double; rw [double6_eq, double6_eq]; rfl)
    · exact both (neg_upd inv l2 lf) (by unfold Heap12.neg; rw [neg6_eq, neg6_eq]; rfl)
        (by unfold Heap12.neg; rw [neg6_eq, neg6_eq]; rfl)
    · exact both (conjugate_upd inv l2 lf) (by unfold Heap12.conjugate; rw [neg6_eq]; rfl)
        (by unfold Heap12.conjugate; rw [neg6_eq]; rfl)
    · exact both (frobeniusMap_upd inv l2 lf k) (by unfold Heap12.frobeniusMap; simp only [frobenius6_eq]; rfl)
        (by unfold Heap12.frobeniusMap; simp only [frobenius6_eq]; rfl)
  · have r {a b l} := pairs_cons (fun (y : Mem) (w : FQ12) => y.read m.next12 = w ∧ y.six p = m.six p ∧ y.six t = w.c1)
      (a := a) (b := b) (l := l)
    refine r ?_ (r ?_ (List.forall_mem_nil _))
    · exact one (mul_upd' inv l2 lf lg')
    · exact one (mulBy014_upd' inv l2 lf c d b)
  · have r {a b l} := pairs_cons (fun (y : Mem) (w : FQ12) => y.read m.next12 = w ∧ y.six p = m.six p ∧ y.six t = m.six t)
      (a := a) (b := b) (l := l)
    refine r ?_ (r ?_ (List.forall_mem_nil _))
    · exact none' (square_upd' inv l2 lf)
    · have u := inverse_upd' inv l2 lf
      exact none' ⟨u.1.2, u.2⟩

/-- With the same `FQ6` twice, `DoubleAssign` on the `FQ12` multiplies it by four and `NegAssign` leaves it as it is. -/
theorem C82_twice (cs : List Call) (m : Mem) (e : Vars Nat Nat) (_h : After cs m e) (i p : Nat)
    (_hp : mine e.six i = some p) (n : Mem) (f : Nat) (hn : m.new12 p p = (f, n)) :
    (Heap12.double n f).read f = (⟨m.six p, m.six p⟩ : FQ12).double.double ∧
    (Heap12.neg n f).read f = (⟨m.six p, m.six p⟩ : FQ12).neg.neg := by
  rw [Mem.new12_eq] at hn
  obtain ⟨rfl, rfl⟩ := Prod.mk.inj hn
  have c0 : (m.push12 p p).c0 m.next12 = p := by rw [Mem.c0_push12, Function.update_self]
  have c1 : (m.push12 p p).c1 m.next12 = p := by rw [Mem.c1_push12, Function.update_self]
  have s6 : (m.push12 p p).six = m.six := rfl
  constructor
  · unfold Heap12.double FQ12.double Mem.read
    rw [double6_eq, double6_eq]
    simp only [Mem.c0_set6, Mem.c1_set6, Mem.six_set6, c0, c1, Function.update_self, s6]
  · unfold Heap12.neg FQ12.neg Mem.read
    rw [neg6_eq, neg6_eq]
    simp only [Mem.c0_set6, Mem.c1_set6, Mem.six_set6, c0, c1, Function.update_self, s6]

/-- A program that has two `FQ6` variables to pass on and an `FQ12` variable of its own. -/
example : ∃ m e, After (prog6.take 4) m e ∧ mine e.six 2 = some 2 ∧ mine e.six 3 = some 3 ∧ aFQ12One ∈ e.twelve := by
  have h : callsOnMemory (prog6.take 4) init ⟨[some aFQ6Zero, some aFQ6One], [aFQ12Zero, aFQ12One]⟩ ≠ none := by
    have := calls_agree (prog6.take 4) init_simV
    rcases this with ⟨_, b⟩ | ⟨m, e, s, o, a, _, _⟩
    · exact absurd b (by decide +kernel)
    · rw [a]; exact Option.some_ne_none _
  obtain ⟨⟨⟨m, e⟩, o⟩, h⟩ := Option.ne_none_iff_exists'.mp h
  refine ⟨m, e, ⟨o, h⟩, ?_⟩
  have hv : (callsOnMemory (prog6.take 4) init ⟨[some aFQ6Zero, some aFQ6One], [aFQ12Zero, aFQ12One]⟩).map
      (fun t => (t.1.2.six, t.1.2.twelve)) = some ([some 0, some 1, some 2, some 3], [0, 1]) := by decide +kernel
  rw [h] at hv
  simp only [Option.map_some, Option.some.injEq, Prod.mk.injEq] at hv
  rw [hv.1, hv.2]
  exact ⟨rfl, rfl, by decide⟩

/-- The package variables are shared in the same way: `FQ6One.DoubleAssign()` makes `FQ12One` two, and
`FQ6Zero.AddAssign(FQ6One)` makes it `1 + w` and `FQ12Zero` the same. -/
theorem C82_package : ((double6 init aFQ6One).read aFQ12One).fld = 2 ∧
    ((add6 init aFQ6Zero aFQ6One).read aFQ12One).fld = 1 + Fq12.w ∧
    ((add6 init aFQ6Zero aFQ6One).read aFQ12Zero).fld = 1 + Fq12.w := by
  have i0 := init_inv.six0
  have i1 := init_inv.six1
  have n01 : aFQ6Zero ≠ aFQ6One := by decide
  have one0 : init.c0 aFQ12One = aFQ6One := rfl
  have one1 : init.c1 aFQ12One = aFQ6Zero := rfl
  have z0 : init.c0 aFQ12Zero = aFQ6Zero := rfl
  have z1 : init.c1 aFQ12Zero = aFQ6Zero := rfl
  have w : (1 : Fq12) + Fq12.w = ⟨1, 1⟩ := by
    have := of_add_w 1 1
    rwa [map_one, one_mul] at this
  have e1 : (double6 init aFQ6One).read aFQ12One = ⟨FQ6.one.double, FQ6.zero⟩ := by
    unfold Mem.read
    rw [double6_eq, Mem.c0_set6, Mem.c1_set6, Mem.six_set6, one0, one1, i1, Function.update_self,
      Function.update_of_ne n01, i0]
  have e2 : (add6 init aFQ6Zero aFQ6One).read aFQ12One = ⟨FQ6.one, FQ6.zero.add FQ6.one⟩ := by
    unfold Mem.read
    rw [add6_eq, Mem.c0_set6, Mem.c1_set6, Mem.six_set6, one0, one1, i1, i0, Function.update_self,
      Function.update_of_ne n01.symm, i1]
  have e3 : (add6 init aFQ6Zero aFQ6One).read aFQ12Zero = ⟨FQ6.zero.add FQ6.one, FQ6.zero.add FQ6.one⟩ := by
    unfold Mem.read
    rw [add6_eq, Mem.c0_set6, Mem.c1_set6, Mem.six_set6, z0, z1, i1, i0, Function.update_self]
  have a := (FQ6.zero_rep.add FQ6.one_rep)
  rw [zero_add] at a
  have d := FQ6.one_rep.double
  refine ⟨?_, ?_, ?_⟩
  · have r : FQ12.Rep ⟨FQ6.one.double, FQ6.zero⟩ (⟨1 + 1, 0⟩ : Fq12) := ⟨d, FQ6.zero_rep⟩
    rw [e1, r.out.2]
    have := of_add_w (1 + 1) 0
    rw [map_zero, zero_mul, add_zero, map_add, map_one] at this
    rw [← this, one_add_one_eq_two]
  · have r : FQ12.Rep ⟨FQ6.one, FQ6.zero.add FQ6.one⟩ (⟨1, 1⟩ : Fq12) := ⟨FQ6.one_rep, a⟩
    rw [e2, r.out.2, w]
  · have r : FQ12.Rep ⟨FQ6.zero.add FQ6.one, FQ6.zero.add FQ6.one⟩ (⟨1, 1⟩ : Fq12) := ⟨a, a⟩
    rw [e3, r.out.2, w]

end Bls.Props
