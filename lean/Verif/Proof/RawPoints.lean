import Verif.Proof.HashCases
/-
The point formulas of the code on coordinates that need not be on the curve, computed on natural numbers.
-/
set_option exponentiation.threshold 1000
namespace Bls

namespace N2

def zero : N2 := ⟨0, 0⟩

theorem toF_zero : toF zero = 0 := by ext <;> exact Nat.cast_zero

/-- Equality modulo q. -/
def eqv (a b : N2) : Bool := Nat.beq (a.re % qLit) (b.re % qLit) && Nat.beq (a.im % qLit) (b.im % qLit)

theorem eqv_iff {a b : N2} : a.eqv b = true ↔ a.toF = b.toF := by
  rw [eqv, Bool.and_eq_true, Nat.beq_eq, Nat.beq_eq, ← q_eq, Fq2.ext_iff]
  exact and_congr (ZMod.natCast_eq_natCast_iff ..).symm (ZMod.natCast_eq_natCast_iff ..).symm

end N2

/-- A natural number standing for an element of Fq. -/
structure N1 where
  v : ℕ
deriving DecidableEq, Repr

namespace N1

def toF (a : N1) : Fq := (a.v : Fq)
def zero : N1 := ⟨0⟩
def one : N1 := ⟨1⟩
def mul (a b : N1) : N1 := ⟨a.v * b.v % qLit⟩
def add (a b : N1) : N1 := ⟨(a.v + b.v) % qLit⟩
def neg (a : N1) : N1 := ⟨(qLit - a.v % qLit) % qLit⟩
def sub (a b : N1) : N1 := add a (neg b)

theorem toF_zero : toF zero = 0 := Nat.cast_zero
theorem toF_one : toF one = 1 := Nat.cast_one
theorem toF_mul (a b : N1) : toF (mul a b) = toF a * toF b := by
  simp only [toF, mul, N2.cast_mod]; exact Nat.cast_mul ..
theorem toF_add (a b : N1) : toF (add a b) = toF a + toF b := by
  simp only [toF, add, N2.cast_mod]; exact Nat.cast_add ..
theorem toF_neg (a : N1) : toF (neg a) = -toF a := by
  simp only [toF, neg, N2.cast_mod, N2.cast_neg]
theorem toF_sub (a b : N1) : toF (sub a b) = toF a - toF b := by
  rw [sub, toF_add, toF_neg, sub_eq_add_neg]

/-- Equality modulo q. -/
def eqv (a b : N1) : Bool := Nat.beq (a.v % qLit) (b.v % qLit)

theorem eqv_iff {a b : N1} : a.eqv b = true ↔ a.toF = b.toF := by
  rw [eqv, Nat.beq_eq, ← q_eq]
  exact (ZMod.natCast_eq_natCast_iff ..).symm

end N1

/-- `a` holds the element of Fq that `n` stands for. -/
def FQ.RepN (a : FQ) (n : N1) : Prop := a.Rep n.toF

namespace FQ.RepN
variable {a b : FQ} {n m : N1}

theorem add (h : a.RepN n) (h' : b.RepN m) : (a.add b).RepN (N1.add n m) := by
  unfold RepN; rw [N1.toF_add]; exact FQ.Rep.add h h'
theorem sub (h : a.RepN n) (h' : b.RepN m) : (a.sub b).RepN (N1.sub n m) := by
  unfold RepN; rw [N1.toF_sub]; exact FQ.Rep.sub h h'
theorem mul (h : a.RepN n) (h' : b.RepN m) : (a.mul b).RepN (N1.mul n m) := by
  unfold RepN; rw [N1.toF_mul]; exact FQ.Rep.mul h h'
theorem square (h : a.RepN n) : a.square.RepN (N1.mul n n) := by
  unfold RepN; rw [N1.toF_mul]; exact FQ.Rep.square h
theorem double (h : a.RepN n) : a.double.RepN (N1.add n n) := by
  unfold RepN; rw [N1.toF_add]; exact FQ.Rep.double h
theorem neg (h : a.RepN n) : a.neg.RepN (N1.neg n) := by
  unfold RepN; rw [N1.toF_neg]; exact FQ.Rep.neg h
theorem isZero (h : a.RepN n) : a.isZero = n.eqv N1.zero := by
  rw [Bool.eq_iff_iff, FQ.Rep.isZero h, N1.eqv_iff, N1.toF_zero]
theorem equals (h : a.RepN n) (h' : b.RepN m) : a.equals b = n.eqv m := by
  rw [Bool.eq_iff_iff, FQ.Rep.equals h h', N1.eqv_iff]
theorem one : FQ.one.RepN N1.one := by
  unfold RepN; rw [N1.toF_one]; exact FQ.one_rep

end FQ.RepN

/-- Jacobian coordinates, on or off the curve. -/
structure J1 where
  x : N1
  y : N1
  z : N1
deriving DecidableEq, Repr

namespace J1

/-- The formulas of `Double`. -/
def double (g : J1) : J1 :=
  if g.z.eqv N1.zero then g
  else
    let a := N1.mul g.x g.x
    let b := N1.mul g.y g.y
    let c := N1.mul b b
    let d := N1.add g.x b
    let d := N1.sub (N1.sub (N1.mul d d) a) c
    let d := N1.add d d
    let e := N1.add (N1.add a a) a
    let f := N1.mul e e
    let z := N1.mul g.z g.y
    let z := N1.add z z
    let x := N1.sub (N1.sub f d) d
    let c := N1.add c c
    let c := N1.add c c
    let c := N1.add c c
    let y := N1.sub (N1.mul (N1.sub d x) e) c
    ⟨x, y, z⟩

/-- The formulas of `AddAffine`, for a finite point. -/
def addAffine (g : J1) (ox oy : N1) : J1 :=
  if g.z.eqv N1.zero then ⟨ox, oy, N1.one⟩
  else
    let z1z1 := N1.mul g.z g.z
    let u2 := N1.mul ox z1z1
    let s2 := N1.mul (N1.mul oy g.z) z1z1
    if g.x.eqv u2 && g.y.eqv s2 then g.double
    else
      let u2 := N1.sub u2 g.x
      let hh := N1.mul u2 u2
      let i := N1.add hh hh
      let i := N1.add i i
      let j := N1.mul u2 i
      let s2 := N1.sub s2 g.y
      let s2 := N1.add s2 s2
      let v := N1.mul g.x i
      let x := N1.sub (N1.sub (N1.sub (N1.mul s2 s2) j) v) v
      let i0 := N1.mul g.y j
      let y := N1.sub (N1.mul (N1.sub v x) s2) (N1.add i0 i0)
      let z := N1.add g.z u2
      ⟨x, y, N1.sub (N1.sub (N1.mul z z) z1z1) hh⟩

/-- The formulas of `Add`. -/
def add (g o : J1) : J1 :=
  if g.z.eqv N1.zero then o
  else if o.z.eqv N1.zero then g
  else
    let z1z1 := N1.mul g.z g.z
    let z2z2 := N1.mul o.z o.z
    let u1 := N1.mul g.x z2z2
    let u2 := N1.mul o.x z1z1
    let s1 := N1.mul (N1.mul g.y o.z) z2z2
    let s2 := N1.mul (N1.mul o.y g.z) z1z1
    if u1.eqv u2 && s1.eqv s2 then g.double
    else
      let h := N1.sub u2 u1
      let i := N1.add h h
      let i := N1.mul i i
      let j := N1.mul h i
      let r := N1.sub s2 s1
      let r := N1.add r r
      let u1 := N1.mul u1 i
      let x := N1.sub (N1.sub (N1.sub (N1.mul r r) j) u1) u1
      let s1 := N1.mul s1 j
      let y := N1.sub (N1.mul (N1.sub u1 x) r) (N1.add s1 s1)
      let z := N1.add g.z o.z
      ⟨x, y, N1.mul (N1.sub (N1.sub (N1.mul z z) z1z1) z2z2) h⟩

/-- Double and add, over the bits of `|u|` from the highest down. -/
def ladder (dbl plus : J1 → J1) : List Bool → J1 → J1
  | [], g => g
  | o :: l, g => ladder dbl plus l (if o then plus (dbl g) else dbl g)

end J1

/-- `g` holds these coordinates. -/
structure G1Projective.RepN (g : G1Projective) (j : J1) : Prop where
  x : g.x.RepN j.x
  y : g.y.RepN j.y
  z : g.z.RepN j.z

/-- `a` is finite with these coordinates. -/
structure G1Affine.RepN (a : G1Affine) (x y : N1) : Prop where
  inf : a.infinity = false
  x : a.x.RepN x
  y : a.y.RepN y

theorem G1Affine.RepN.neg {a : G1Affine} {x y : N1} (h : a.RepN x y) : a.neg.RepN x (N1.neg y) := by
  unfold G1Affine.neg G1Affine.isZero
  rw [if_pos (by rw [h.inf]; rfl)]
  exact ⟨h.inf, h.x, h.y.neg⟩

theorem G1Affine.RepN.toProjective {a : G1Affine} {x y : N1} (h : a.RepN x y) : a.toProjective.RepN ⟨x, y, N1.one⟩ := by
  unfold G1Affine.toProjective G1Affine.isZero
  rw [if_neg (by rw [h.inf]; decide)]
  exact ⟨h.x, h.y, FQ.RepN.one⟩

namespace G1Projective.RepN
variable {g k : G1Projective} {j l : J1}

theorem zero : G1Projective.zero.RepN ⟨N1.zero, N1.one, N1.zero⟩ := by
  unfold G1Projective.zero
  have h0 : FQ.zero.RepN N1.zero := by unfold FQ.RepN; rw [N1.toF_zero]; exact FQ.zero_rep
  exact ⟨h0, FQ.RepN.one, h0⟩

theorem double (h : g.RepN j) : g.double.RepN j.double := by
  unfold G1Projective.double G1Projective.isZero J1.double
  rw [h.z.isZero]
  split
  · exact h
  have hx := h.x
  have hy := h.y
  have hz := h.z
  have a := hx.square
  have b := hy.square
  have c := b.square
  have d := (((hx.add b).square.sub a).sub c).double
  have e := a.double.add a
  have f := e.square
  have nz := (hz.mul hy).double
  have nx := (f.sub d).sub d
  have ny := ((d.sub nx).mul e).sub c.double.double.double
  exact ⟨nx, ny, nz⟩

theorem addAffine (h : g.RepN j) {a : G1Affine} {x y : N1} (h' : a.RepN x y) :
    (g.addAffine a).RepN (j.addAffine x y) := by
  unfold G1Projective.addAffine J1.addAffine G1Projective.isZero
  rw [h.z.isZero]
  split
  · exact h'.toProjective
  rw [if_neg (by rw [G1Affine.isZero, h'.inf]; decide)]
  have z1 := h.z.square
  have u2 := h'.x.mul z1
  have s2 := (h'.y.mul h.z).mul z1
  dsimp only
  rw [h.x.equals u2, h.y.equals s2]
  split
  · exact h.double
  have hh := u2.sub h.x
  have h2 := hh.square
  have i := h2.double.double
  have jj := hh.mul i
  have r := (s2.sub h.y).double
  have v := h.x.mul i
  have nx := ((r.square.sub jj).sub v).sub v
  have ny := ((v.sub nx).mul r).sub (h.y.mul jj).double
  have nz := ((h.z.add hh).square.sub z1).sub h2
  exact ⟨nx, ny, nz⟩

theorem add (h : g.RepN j) (h' : k.RepN l) : (g.add k).RepN (j.add l) := by
  unfold G1Projective.add J1.add G1Projective.isZero
  rw [h.z.isZero, h'.z.isZero]
  split
  · exact h'
  split
  · exact h
  have z1 := h.z.square
  have z2 := h'.z.square
  have u1 := h.x.mul z2
  have u2 := h'.x.mul z1
  have s1 := (h.y.mul h'.z).mul z2
  have s2 := (h'.y.mul h.z).mul z1
  dsimp only
  rw [u1.equals u2, s1.equals s2]
  split
  · exact h.double
  have hh := u2.sub u1
  have i := hh.double.square
  have jj := hh.mul i
  have r := (s2.sub s1).double
  have v := u1.mul i
  have nx := ((r.square.sub jj).sub v).sub v
  have ny := ((v.sub nx).mul r).sub (s1.mul jj).double
  have nz := (((h.z.add h'.z).square.sub z1).sub z2).mul hh
  exact ⟨nx, ny, nz⟩

theorem ladder {dbl plus : G1Projective → G1Projective} {d p : J1 → J1} (hd : ∀ g j, g.RepN j → (dbl g).RepN (d j))
    (hp : ∀ g j, g.RepN j → (plus g).RepN (p j)) {bit : ℕ → Option Bool} {len : ℕ} :
    ∀ (bits : List Bool) (i : ℕ), (∀ k, (hk : k < bits.length) → bit (len - (i + k) - 1) = some bits[k]) →
    ∀ g j, g.RepN j → ∃ o, scalarLoop dbl plus bit len bits.length i g = some o ∧ o.RepN (J1.ladder d p bits j) := by
  intro bits
  induction bits with
  | nil => intro i _ g j h; exact ⟨g, rfl, h⟩
  | cons b bits ih =>
    intro i hb g j h
    have h0 := hb 0 (by simp)
    rw [Nat.add_zero, List.getElem_cons_zero] at h0
    rw [List.length_cons, scalarLoop, h0]
    refine ih (i + 1) (fun k hk => ?_) _ _ ?_
    · have := hb (k + 1) (by simpa using hk)
      rw [List.getElem_cons_succ] at this
      rw [← this]; congr 1; omega
    · cases b
      · exact hd _ _ h
      · exact hp _ _ (hd _ _ h)

/-- The affine point with `x z² = X`, `y z³ = Y`. -/
theorem toAffine (h : g.RepN j) {x y : N1} (hz : j.z.eqv N1.zero = false)
    (hx : (N1.mul x (N1.mul j.z j.z)).eqv j.x = true) (hy : (N1.mul y (N1.mul j.z (N1.mul j.z j.z))).eqv j.y = true) :
    g.toAffine.RepN x y := by
  rw [N1.eqv_iff, N1.toF_mul, N1.toF_mul] at hx
  rw [N1.eqv_iff, N1.toF_mul, N1.toF_mul, N1.toF_mul] at hy
  have hz' : j.z.toF ≠ 0 := by
    intro e
    rw [← N1.toF_zero, ← N1.eqv_iff, hz] at e
    exact absurd e (by decide)
  unfold G1Projective.toAffine G1Projective.isZero
  rw [h.z.isZero, hz, if_neg (by decide), if_neg (by decide)]
  have hi := (FQ.Rep.inverse_ne h.z hz').2
  refine ⟨rfl, ?_, ?_⟩
  · exact (FQ.Rep.mul h.x hi.square).of_eq (by rw [← hx]; field_simp)
  · exact (FQ.Rep.mul (FQ.Rep.mul h.y hi.square) hi).of_eq (by rw [← hy]; field_simp)

end G1Projective.RepN

/-- `a` holds the element of Fq2 that `n` stands for. -/
def FQ2.RepN (a : FQ2) (n : N2) : Prop := a.Rep n.toF

namespace FQ2.RepN
variable {a b : FQ2} {n m : N2}

theorem add (h : a.RepN n) (h' : b.RepN m) : (a.add b).RepN (N2.add n m) := by
  unfold RepN; rw [N2.toF_add]; exact FQ2.Rep.add h h'
theorem sub (h : a.RepN n) (h' : b.RepN m) : (a.sub b).RepN (N2.sub n m) := by
  unfold RepN; rw [N2.toF_sub]; exact FQ2.Rep.sub h h'
theorem mul (h : a.RepN n) (h' : b.RepN m) : (a.mul b).RepN (N2.mul n m) := by
  unfold RepN; rw [N2.toF_mul]; exact FQ2.Rep.mul h h'
theorem square (h : a.RepN n) : a.square.RepN (N2.mul n n) := by
  unfold RepN; rw [N2.toF_mul]; exact FQ2.Rep.square h
theorem double (h : a.RepN n) : a.double.RepN (N2.add n n) := by
  unfold RepN; rw [N2.toF_add]; exact FQ2.Rep.double h
theorem neg (h : a.RepN n) : a.neg.RepN (N2.neg n) := by
  unfold RepN; rw [N2.toF_neg]; exact FQ2.Rep.neg h
theorem isZero (h : a.RepN n) : a.isZero = n.eqv N2.zero := by
  rw [Bool.eq_iff_iff, FQ2.Rep.isZero h, N2.eqv_iff, N2.toF_zero]
theorem equals (h : a.RepN n) (h' : b.RepN m) : a.equals b = n.eqv m := by
  rw [Bool.eq_iff_iff, FQ2.Rep.equals h h', N2.eqv_iff]
theorem one : FQ2.one.RepN N2.one := by
  unfold RepN; rw [N2.toF_one]; exact FQ2.one_rep

end FQ2.RepN

/-- Jacobian coordinates, on or off the curve. -/
structure J2 where
  x : N2
  y : N2
  z : N2
deriving DecidableEq, Repr

namespace J2

/-- The formulas of `Double`. -/
def double (g : J2) : J2 :=
  if g.z.eqv N2.zero then g
  else
    let a := N2.mul g.x g.x
    let b := N2.mul g.y g.y
    let c := N2.mul b b
    let d := N2.add g.x b
    let d := N2.sub (N2.sub (N2.mul d d) a) c
    let d := N2.add d d
    let e := N2.add (N2.add a a) a
    let f := N2.mul e e
    let z := N2.mul g.z g.y
    let z := N2.add z z
    let x := N2.sub (N2.sub f d) d
    let c := N2.add c c
    let c := N2.add c c
    let c := N2.add c c
    let y := N2.sub (N2.mul (N2.sub d x) e) c
    ⟨x, y, z⟩

/-- The formulas of `AddAffine`, for a finite point. -/
def addAffine (g : J2) (ox oy : N2) : J2 :=
  if g.z.eqv N2.zero then ⟨ox, oy, N2.one⟩
  else
    let z1z1 := N2.mul g.z g.z
    let u2 := N2.mul ox z1z1
    let s2 := N2.mul (N2.mul oy g.z) z1z1
    if g.x.eqv u2 && g.y.eqv s2 then g.double
    else
      let u2 := N2.sub u2 g.x
      let hh := N2.mul u2 u2
      let i := N2.add hh hh
      let i := N2.add i i
      let j := N2.mul u2 i
      let s2 := N2.sub s2 g.y
      let s2 := N2.add s2 s2
      let v := N2.mul g.x i
      let x := N2.sub (N2.sub (N2.sub (N2.mul s2 s2) j) v) v
      let i0 := N2.mul g.y j
      let y := N2.sub (N2.mul (N2.sub v x) s2) (N2.add i0 i0)
      let z := N2.add g.z u2
      ⟨x, y, N2.sub (N2.sub (N2.mul z z) z1z1) hh⟩

/-- The formulas of `Add`. -/
def add (g o : J2) : J2 :=
  if g.z.eqv N2.zero then o
  else if o.z.eqv N2.zero then g
  else
    let z1z1 := N2.mul g.z g.z
    let z2z2 := N2.mul o.z o.z
    let u1 := N2.mul g.x z2z2
    let u2 := N2.mul o.x z1z1
    let s1 := N2.mul (N2.mul g.y o.z) z2z2
    let s2 := N2.mul (N2.mul o.y g.z) z1z1
    if u1.eqv u2 && s1.eqv s2 then g.double
    else
      let h := N2.sub u2 u1
      let i := N2.add h h
      let i := N2.mul i i
      let j := N2.mul h i
      let r := N2.sub s2 s1
      let r := N2.add r r
      let u1 := N2.mul u1 i
      let x := N2.sub (N2.sub (N2.sub (N2.mul r r) j) u1) u1
      let s1 := N2.mul s1 j
      let y := N2.sub (N2.mul (N2.sub u1 x) r) (N2.add s1 s1)
      let z := N2.add g.z o.z
      ⟨x, y, N2.mul (N2.sub (N2.sub (N2.mul z z) z1z1) z2z2) h⟩

/-- Double and add, over the bits of `|u|` from the highest down. -/
def ladder (dbl plus : J2 → J2) : List Bool → J2 → J2
  | [], g => g
  | o :: l, g => ladder dbl plus l (if o then plus (dbl g) else dbl g)

end J2

/-- `g` holds these coordinates. -/
structure G2Projective.RepN (g : G2Projective) (j : J2) : Prop where
  x : g.x.RepN j.x
  y : g.y.RepN j.y
  z : g.z.RepN j.z

/-- `a` is finite with these coordinates. -/
structure G2Affine.RepN (a : G2Affine) (x y : N2) : Prop where
  inf : a.infinity = false
  x : a.x.RepN x
  y : a.y.RepN y

theorem G2Affine.RepN.neg {a : G2Affine} {x y : N2} (h : a.RepN x y) : a.neg.RepN x (N2.neg y) := by
  unfold G2Affine.neg G2Affine.isZero
  rw [if_pos (by rw [h.inf]; rfl)]
  exact ⟨h.inf, h.x, h.y.neg⟩

theorem G2Affine.RepN.toProjective {a : G2Affine} {x y : N2} (h : a.RepN x y) : a.toProjective.RepN ⟨x, y, N2.one⟩ := by
  unfold G2Affine.toProjective G2Affine.isZero
  rw [if_neg (by rw [h.inf]; decide)]
  exact ⟨h.x, h.y, FQ2.RepN.one⟩

namespace G2Projective.RepN
variable {g k : G2Projective} {j l : J2}

theorem zero : G2Projective.zero.RepN ⟨N2.zero, N2.one, N2.zero⟩ := by
  unfold G2Projective.zero
  have h0 : FQ2.zero.RepN N2.zero := by unfold FQ2.RepN; rw [N2.toF_zero]; exact FQ2.zero_rep
  exact ⟨h0, FQ2.RepN.one, h0⟩

theorem double (h : g.RepN j) : g.double.RepN j.double := by
  unfold G2Projective.double G2Projective.isZero J2.double
  rw [h.z.isZero]
  split
  · exact h
  have hx := h.x
  have hy := h.y
  have hz := h.z
  have a := hx.square
  have b := hy.square
  have c := b.square
  have d := (((hx.add b).square.sub a).sub c).double
  have e := a.double.add a
  have f := e.square
  have nz := (hz.mul hy).double
  have nx := (f.sub d).sub d
  have ny := ((d.sub nx).mul e).sub c.double.double.double
  exact ⟨nx, ny, nz⟩

theorem addAffine (h : g.RepN j) {a : G2Affine} {x y : N2} (h' : a.RepN x y) :
    (g.addAffine a).RepN (j.addAffine x y) := by
  unfold G2Projective.addAffine J2.addAffine G2Projective.isZero
  rw [h.z.isZero]
  split
  · exact h'.toProjective
  rw [if_neg (by rw [G2Affine.isZero, h'.inf]; decide)]
  have z1 := h.z.square
  have u2 := h'.x.mul z1
  have s2 := (h'.y.mul h.z).mul z1
  dsimp only
  rw [h.x.equals u2, h.y.equals s2]
  split
  · exact h.double
  have hh := u2.sub h.x
  have h2 := hh.square
  have i := h2.double.double
  have jj := hh.mul i
  have r := (s2.sub h.y).double
  have v := h.x.mul i
  have nx := ((r.square.sub jj).sub v).sub v
  have ny := ((v.sub nx).mul r).sub (h.y.mul jj).double
  have nz := ((h.z.add hh).square.sub z1).sub h2
  exact ⟨nx, ny, nz⟩

theorem add (h : g.RepN j) (h' : k.RepN l) : (g.add k).RepN (j.add l) := by
  unfold G2Projective.add J2.add G2Projective.isZero
  rw [h.z.isZero, h'.z.isZero]
  split
  · exact h'
  split
  · exact h
  have z1 := h.z.square
  have z2 := h'.z.square
  have u1 := h.x.mul z2
  have u2 := h'.x.mul z1
  have s1 := (h.y.mul h'.z).mul z2
  have s2 := (h'.y.mul h.z).mul z1
  dsimp only
  rw [u1.equals u2, s1.equals s2]
  split
  · exact h.double
  have hh := u2.sub u1
  have i := hh.double.square
  have jj := hh.mul i
  have r := (s2.sub s1).double
  have v := u1.mul i
  have nx := ((r.square.sub jj).sub v).sub v
  have ny := ((v.sub nx).mul r).sub (s1.mul jj).double
  have nz := (((h.z.add h'.z).square.sub z1).sub z2).mul hh
  exact ⟨nx, ny, nz⟩

theorem ladder {dbl plus : G2Projective → G2Projective} {d p : J2 → J2} (hd : ∀ g j, g.RepN j → (dbl g).RepN (d j))
    (hp : ∀ g j, g.RepN j → (plus g).RepN (p j)) {bit : ℕ → Option Bool} {len : ℕ} :
    ∀ (bits : List Bool) (i : ℕ), (∀ k, (hk : k < bits.length) → bit (len - (i + k) - 1) = some bits[k]) →
    ∀ g j, g.RepN j → ∃ o, scalarLoop dbl plus bit len bits.length i g = some o ∧ o.RepN (J2.ladder d p bits j) := by
  intro bits
  induction bits with
  | nil => intro i _ g j h; exact ⟨g, rfl, h⟩
  | cons b bits ih =>
    intro i hb g j h
    have h0 := hb 0 (by simp)
    rw [Nat.add_zero, List.getElem_cons_zero] at h0
    rw [List.length_cons, scalarLoop, h0]
    refine ih (i + 1) (fun k hk => ?_) _ _ ?_
    · have := hb (k + 1) (by simpa using hk)
      rw [List.getElem_cons_succ] at this
      rw [← this]; congr 1; omega
    · cases b
      · exact hd _ _ h
      · exact hp _ _ (hd _ _ h)

/-- The affine point with `x z² = X`, `y z³ = Y`. -/
theorem toAffine (h : g.RepN j) {x y : N2} (hz : j.z.eqv N2.zero = false)
    (hx : (N2.mul x (N2.mul j.z j.z)).eqv j.x = true) (hy : (N2.mul y (N2.mul j.z (N2.mul j.z j.z))).eqv j.y = true) :
    g.toAffine.RepN x y := by
  rw [N2.eqv_iff, N2.toF_mul, N2.toF_mul] at hx
  rw [N2.eqv_iff, N2.toF_mul, N2.toF_mul, N2.toF_mul] at hy
  have hz' : j.z.toF ≠ 0 := by
    intro e
    rw [← N2.toF_zero, ← N2.eqv_iff, hz] at e
    exact absurd e (by decide)
  unfold G2Projective.toAffine G2Projective.isZero
  rw [h.z.isZero, hz, if_neg (by decide)]
  rw [h.z.equals FQ2.RepN.one]
  split
  · rename_i e
    rw [N2.eqv_iff, N2.toF_one] at e
    rw [e] at hx hy
    exact ⟨rfl, FQ2.Rep.of_eq h.x (by rw [← hx]; ring), FQ2.Rep.of_eq h.y (by rw [← hy]; ring)⟩
  have hi := (FQ2.Rep.inverse_ne h.z hz').2
  refine ⟨rfl, ?_, ?_⟩
  · exact (FQ2.Rep.mul h.x hi.square).of_eq (by rw [← hx]; field_simp)
  · exact (FQ2.Rep.mul (FQ2.Rep.mul h.y hi.square) hi).of_eq (by rw [← hy]; field_simp)

end G2Projective.RepN

end Bls
