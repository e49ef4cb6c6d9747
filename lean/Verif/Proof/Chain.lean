import Verif.Spec.Curve
/-
A checker for scalar multiplications on `y² = x³ + b`: slopes are supplied as hints, every step is
checked by ring operations on a computable ring, and soundness maps the result to any field.
-/
namespace Bls.Chain
open Bls

/-- Computable ring operations. -/
structure Ops (R : Type) where
  add : R → R → R
  sub : R → R → R
  mul : R → R → R
  eqb : R → R → Bool
  nz : R → Bool

structure Sound {R : Type} (o : Ops R) {F : Type*} [Field F] (φ : R → F) : Prop where
  add : ∀ a b, φ (o.add a b) = φ a + φ b
  sub : ∀ a b, φ (o.sub a b) = φ a - φ b
  mul : ∀ a b, φ (o.mul a b) = φ a * φ b
  eqb : ∀ a b, o.eqb a b = true → φ a = φ b
  nz : ∀ a, o.nz a = true → φ a ≠ 0

variable {R : Type}

def dbl (o : Ops R) (l x y : R) : Option (R × R) :=
  let yy := o.add y y
  let xx := o.mul x x
  if o.eqb (o.mul l yy) (o.add (o.add xx xx) xx) && o.nz yy then
    let x3 := o.sub (o.sub (o.mul l l) x) x
    some (x3, o.sub (o.mul l (o.sub x x3)) y)
  else none

def addp (o : Ops R) (l x y x' y' : R) : Option (R × R) :=
  let d := o.sub x x'
  if o.eqb (o.mul l d) (o.sub y y') && o.nz d then
    let x3 := o.sub (o.sub (o.mul l l) x) x'
    some (x3, o.sub (o.mul l (o.sub x x3)) y)
  else none

/-- Run the steps from `k•B = (x, y)`; `inl l` doubles, `inr l` adds `B = (bx, by)`. -/
def run (o : Ops R) (bx bY : R) : List (Bool × R) → ℕ → R → R → Option (ℕ × R × R)
  | [], k, x, y => some (k, x, y)
  | (false, l) :: t, k, x, y =>
    match dbl o l x y with
    | some (x', y') => run o bx bY t (2 * k) x' y'
    | none => none
  | (true, l) :: t, k, x, y =>
    match addp o l x y bx bY with
    | some (x', y') => run o bx bY t (k + 1) x' y'
    | none => none

variable {F : Type*} [Field F] [DecidableEq F] {b : F}

theorem dbl_sound {o : Ops R} {φ : R → F} (hs : Sound o φ) {l x y x' y' : R}
    {P : (curve b).Point} (hP : IsAt P (φ x) (φ y)) (h : dbl o l x y = some (x', y')) :
    IsAt (P + P) (φ x') (φ y') := by
  unfold dbl at h
  simp only [Option.ite_none_right_eq_some, Bool.and_eq_true, Option.some.injEq,
    Prod.mk.injEq] at h
  obtain ⟨⟨h1, h2⟩, rfl, rfl⟩ := h
  have h1 := hs.eqb _ _ h1
  have h2 := hs.nz _ h2
  simp only [hs.add, hs.mul, hs.sub] at h1 h2 ⊢
  refine hP.add_self (l := φ l) hP (by rw [two_mul]; exact h2) ?_ ?_ rfl
  · rw [two_mul, h1]; ring
  · ring

theorem addp_sound {o : Ops R} {φ : R → F} (hs : Sound o φ) {l x y x' y' x₂ y₂ : R}
    {P Q : (curve b).Point} (hP : IsAt P (φ x) (φ y)) (hQ : IsAt Q (φ x₂) (φ y₂))
    (h : addp o l x y x₂ y₂ = some (x', y')) :
    IsAt (P + Q) (φ x') (φ y') := by
  unfold addp at h
  simp only [Option.ite_none_right_eq_some, Bool.and_eq_true, Option.some.injEq,
    Prod.mk.injEq] at h
  obtain ⟨⟨h1, h2⟩, rfl, rfl⟩ := h
  have h1 := hs.eqb _ _ h1
  have h2 := hs.nz _ h2
  simp only [hs.mul, hs.sub] at h1 h2 ⊢
  exact hP.add_of_X_ne (l := φ l) hQ (sub_ne_zero.mp h2) h1 (by ring) rfl

theorem run_sound {o : Ops R} {φ : R → F} (hs : Sound o φ) {bx bY : R} {B : (curve b).Point}
    (hB : IsAt B (φ bx) (φ bY)) (t : List (Bool × R)) : ∀ (k : ℕ) (x y : R) (k' : ℕ) (x' y' : R),
    IsAt (k • B) (φ x) (φ y) → run o bx bY t k x y = some (k', x', y') →
    IsAt (k' • B) (φ x') (φ y') := by
  induction t with
  | nil =>
    intro k x y k' x' y' h hr
    simp only [run, Option.some.injEq, Prod.mk.injEq] at hr
    obtain ⟨rfl, rfl, rfl⟩ := hr
    exact h
  | cons a t ih =>
    intro k x y k' x' y' h hr
    obtain ⟨d, l⟩ := a
    cases d with
    | false =>
      rw [run] at hr
      cases e : dbl o l x y with
      | none => rw [e] at hr; cases hr
      | some p =>
        obtain ⟨x₁, y₁⟩ := p
        rw [e] at hr
        refine ih _ _ _ _ _ _ ?_ hr
        have := dbl_sound hs h e
        rwa [← two_nsmul, ← mul_nsmul'] at this
    | true =>
      rw [run] at hr
      cases e : addp o l x y bx bY with
      | none => rw [e] at hr; cases hr
      | some p =>
        obtain ⟨x₁, y₁⟩ := p
        rw [e] at hr
        refine ih _ _ _ _ _ _ ?_ hr
        have := addp_sound hs h hB e
        rwa [← succ_nsmul] at this

/-- Naturals modulo `N`, with nonzero meaning invertible. -/
def natOps (N : ℕ) : Ops ℕ where
  add a b := (a + b) % N
  sub a b := (a + (N - b % N)) % N
  mul a b := (a * b) % N
  eqb a b := Nat.beq (a % N) (b % N)
  nz a := Nat.beq (Nat.gcd a N) 1

omit [DecidableEq F] in
theorem cast_mod {N : ℕ} (hN : (N : F) = 0) (a : ℕ) : ((a % N : ℕ) : F) = a := by
  conv_rhs => rw [← Nat.div_add_mod a N]
  rw [Nat.cast_add, Nat.cast_mul, hN, zero_mul, zero_add]

omit [DecidableEq F] in
theorem cast_eq_of_mod {N : ℕ} (hN : (N : F) = 0) {a b : ℕ} (h : a % N = b % N) :
    (a : F) = b := by
  rw [← cast_mod hN a, ← cast_mod hN b, h]

omit [DecidableEq F] in
theorem cast_curve {N : ℕ} (hN : (N : F) = 0) {x y : ℕ} (h : y ^ 2 % N = (x ^ 3 + 4) % N) :
    (y : F) ^ 2 = (x : F) ^ 3 + 4 := by
  have := cast_eq_of_mod hN h
  simpa only [Nat.cast_pow, Nat.cast_add, Nat.cast_ofNat] using this

omit [DecidableEq F] in
theorem natOps_sound {N : ℕ} (h0 : 0 < N) (hN : (N : F) = 0) :
    Sound (natOps N) (fun a : ℕ => (a : F)) where
  add a b := by simp only [natOps, cast_mod hN, Nat.cast_add]
  sub a b := by
    simp only [natOps, cast_mod hN, Nat.cast_add]
    rw [Nat.cast_sub (Nat.mod_lt b h0).le, cast_mod hN, hN]; ring
  mul a b := by simp only [natOps, cast_mod hN, Nat.cast_mul]
  eqb a b h := by
    have := Nat.eq_of_beq_eq_true h
    rw [← cast_mod hN a, ← cast_mod hN b, this]
  nz a h := by
    have h1 : Nat.gcd a N = 1 := Nat.eq_of_beq_eq_true h
    intro h2
    have h3 := Nat.gcd_eq_gcd_ab a N
    rw [h1] at h3
    have h4 := congrArg (fun z : ℤ => (z : F)) h3
    have h2' : (a : F) = 0 := h2
    simp only [Int.cast_add, Int.cast_mul, Int.cast_natCast, h2', hN, zero_mul, add_zero,
      Nat.cast_one, Int.cast_one] at h4
    exact one_ne_zero h4

end Bls.Chain
