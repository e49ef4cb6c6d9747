import Verif.Proof.HashG1
/-
The point of E1' through which the formulas of E1 would double within E1' does not exist: `swuB1` is not a square and
`x³ + 4 A x + 4 B` has no root. The latter by computing `x ^ q` modulo the cubic.
-/
set_option exponentiation.threshold 1000
set_option maxRecDepth 4000
namespace Bls.Flex

/-- `a + b x + c x²`. -/
structure T3 where
  a : ℕ
  b : ℕ
  c : ℕ
deriving DecidableEq

def T3.ev (x : Fq) (p : T3) : Fq := p.a + p.b * x + p.c * x ^ 2

/-- The product where `x³ = t + s x`. -/
def T3.mul (s t : ℕ) (p k : T3) : T3 :=
  ⟨(p.a * k.a + (p.b * k.c + p.c * k.b) * t) % qLit,
   (p.a * k.b + p.b * k.a + (p.b * k.c + p.c * k.b) * s + p.c * k.c * t) % qLit,
   (p.a * k.c + p.b * k.b + p.c * k.a + p.c * k.c * s) % qLit⟩

theorem cm (a : ℕ) : ((a % qLit : ℕ) : Fq) = a := by
  conv_rhs => rw [← Nat.div_add_mod a qLit]
  rw [Nat.cast_add, Nat.cast_mul, q_cast, zero_mul, zero_add]

theorem T3.ev_mul {s t : ℕ} {x : Fq} (h : x ^ 3 = t + s * x) (p k : T3) : (T3.mul s t p k).ev x = p.ev x * k.ev x := by
  unfold T3.mul T3.ev
  simp only [cm]
  push_cast
  linear_combination (-(p.b * k.c + p.c * k.b : Fq) - p.c * k.c * x) * h

def T3.pow (s t : ℕ) : ℕ → T3 → ℕ → T3 → T3
  | 0, _, _, acc => acc
  | fuel + 1, a, e, acc =>
    if Nat.beq e 0 then acc
    else T3.pow s t fuel (T3.mul s t a a) (e / 2) (if Nat.beq (e % 2) 1 then T3.mul s t acc a else acc)

theorem T3.ev_pow {s t : ℕ} {x : Fq} (h : x ^ 3 = t + s * x) :
    ∀ (fuel : ℕ) (a : T3) (e : ℕ) (acc : T3), e < 2 ^ fuel → (T3.pow s t fuel a e acc).ev x = acc.ev x * a.ev x ^ e := by
  intro fuel
  induction fuel with
  | zero =>
    intro a e acc he
    have : e = 0 := by simpa using he
    subst this
    rw [T3.pow, pow_zero, mul_one]
  | succ n ih =>
    intro a e acc he
    rw [T3.pow]
    split
    · rename_i h0
      have : e = 0 := Nat.eq_of_beq_eq_true h0
      subst this
      rw [pow_zero, mul_one]
    · rw [ih _ _ _ (by rw [pow_succ] at he; omega), ev_mul h]
      conv_rhs => rw [← Nat.div_add_mod e 2]
      rw [pow_add, pow_mul, pow_two]
      split
      · rename_i h1
        rw [ev_mul h, Nat.eq_of_beq_eq_true h1]; ring
      · rename_i h1
        have : e % 2 = 0 := by
          have : e % 2 ≠ 1 := fun h => h1 (by rw [h]; rfl)
          omega
        rw [this]; ring

def sLit : ℕ := 3 * qLit - 4 * swuA1
def tLit : ℕ := 4 * qLit - 4 * swuB1

/-- The inverse of `x ^ q - x` modulo the cubic. -/
def vLit : T3 := ⟨0xafe0dd7c96cb2114fa16f0016814f15c34d90415d2a7804a5b45a5bb5f237a5d05cca2a98959c7f84d197229cf94113, 0x8ab183e6544f84e1f20ff3c130b08e34999241b5955a122596fca694cdc45292905e4ad6a58518b7512f3e67ada7952, 0x16e1f8ff2fc35439d1a21aff125142484888fa155610a64b3876e967a26403e8d490302f284e77da2a77c249503c0e77⟩

theorem cert : (T3.mul sLit tLit vLit
    (let p := T3.pow sLit tLit 381 ⟨0, 1, 0⟩ qLit ⟨1, 0, 0⟩; ⟨p.a, p.b + (qLit - 1), p.c⟩)) = ⟨1, 0, 0⟩ := by
  unfold sLit tLit swuA1 swuB1
  decide +kernel

theorem no_root (x : Fq) : x ^ 3 + 4 * swuA1 * x + 4 * swuB1 ≠ 0 := by
  intro h
  have hs : (sLit : Fq) = -4 * swuA1 := by
    rw [sLit, Nat.cast_sub (by unfold swuA1; decide +kernel)]
    push_cast
    rw [q_cast]; ring
  have ht : (tLit : Fq) = -4 * swuB1 := by
    rw [tLit, Nat.cast_sub (by unfold swuB1; decide +kernel)]
    push_cast
    rw [q_cast]; ring
  have h3 : x ^ 3 = tLit + sLit * x := by rw [hs, ht]; linear_combination h
  have c := congrArg (T3.ev x) cert
  rw [T3.ev_mul h3] at c
  have p := T3.ev_pow h3 381 ⟨0, 1, 0⟩ qLit ⟨1, 0, 0⟩ (by decide +kernel)
  have e1 : T3.ev x ⟨0, 1, 0⟩ = x := by unfold T3.ev; push_cast; ring
  have e2 : T3.ev x ⟨1, 0, 0⟩ = 1 := by unfold T3.ev; push_cast; ring
  have f : x ^ qLit = x := by rw [← q_eq]; exact ZMod.pow_card x
  rw [e1, e2, one_mul, f] at p
  have z : ∀ t : T3, t.ev x = x → T3.ev x ⟨t.a, t.b + (qLit - 1), t.c⟩ = 0 := by
    intro t ht
    unfold T3.ev at ht ⊢
    push_cast [show 1 ≤ qLit by decide +kernel]
    rw [q_cast]
    linear_combination ht
  have z := z _ p
  dsimp only at c
  rw [z, mul_zero, e2] at c
  exact zero_ne_one c

theorem b_nonsquare : ¬ IsSquare (swuB1 : Fq) := by
  rintro ⟨s, hs⟩
  have hm := powMod_spec (R := Fq) q_cast 381 swuB1 ((qLit - 1) / 2) 1 (by decide +kernel)
  have hv : powMod qLit 381 swuB1 ((qLit - 1) / 2) 1 = qLit - 1 := by unfold swuB1; decide +kernel
  have hb : (swuB1 : Fq) ≠ 0 := by
    intro e
    rw [ZMod.natCast_eq_zero_iff, q_eq] at e
    have := Nat.mod_eq_zero_of_dvd e
    revert this
    unfold swuB1
    decide +kernel
  have s0 : s ≠ 0 := by rintro rfl; exact hb (by rw [hs, mul_zero])
  have f : s ^ (qLit - 1) = 1 := by rw [← q_eq]; exact ZMod.pow_card_sub_one_eq_one s0
  rw [hv, hs, ← pow_two, ← pow_mul, show 2 * ((qLit - 1) / 2) = qLit - 1 by decide +kernel, f] at hm
  rw [Nat.cast_sub (by decide +kernel), q_cast] at hm
  push_cast at hm
  exact Fq.two_ne (by linear_combination -hm)

end Bls.Flex
