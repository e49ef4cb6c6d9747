import Mathlib.Algebra.BigOperators.Group.List.Basic
import Mathlib.Tactic.Abel
import Mathlib.Tactic.Group
/-
Symmetric 2-cocycles with values in a commutative group, and the products `c(Q,Q) c(2Q,Q) ⋯`.
-/
namespace Bls

variable {G M : Type*} [AddCommGroup G] [CommGroup M]

/-- A normalised symmetric 2-cocycle. -/
structure SymCocycle (c : G → G → M) : Prop where
  symm : ∀ a b, c a b = c b a
  zero : ∀ a, c 0 a = 1
  assoc : ∀ a b d, c a b * c (a + b) d = c b d * c a (b + d)

/-- `c(0,Q) c(Q,Q) c(2Q,Q) ⋯ c((n-1)Q,Q)`. -/
def millerProd (c : G → G → M) (Q : G) : ℕ → M
  | 0 => 1
  | n + 1 => millerProd c Q n * c (n • Q) Q

namespace SymCocycle
variable {c : G → G → M} (h : SymCocycle c)
include h

theorem zero' (a : G) : c a 0 = 1 := by rw [h.symm, h.zero]

theorem add (Q : G) (m n : ℕ) : millerProd c Q (m + n) = millerProd c Q m * millerProd c Q n * c (m • Q) (n • Q) := by
  induction n with
  | zero => rw [add_zero, zero_nsmul, h.zero', millerProd, mul_one, mul_one]
  | succ n ih =>
    rw [← add_assoc, millerProd, ih, millerProd, add_nsmul, mul_assoc, h.assoc, succ_nsmul]
    simp only [mul_assoc]

theorem one (Q : G) : millerProd c Q 1 = 1 := by rw [millerProd, millerProd, zero_nsmul, h.zero, mul_one]

theorem double (Q : G) (m : ℕ) : millerProd c Q (2 * m) = millerProd c Q m ^ 2 * c (m • Q) (m • Q) := by
  rw [two_mul, h.add, pow_two]

theorem four (x y z w : G) : c x y * c z w * c (x + y) (z + w) = c x z * c y w * c (x + z) (y + w) := by
  -- both sides compute the product of the four elements x, y, z, w of the extension
  have a1 := h.assoc (x + y) z w
  have a2 := h.assoc x y z
  have a3 := h.assoc (x + z) y w
  have a4 := h.assoc x z y
  have e : x + y + z = x + z + y := by abel
  have s := h.symm y z
  rw [e] at a1
  have k1 : c x y * c z w * c (x + y) (z + w) = c x y * c (x + y) z * c (x + z + y) w := by
    rw [mul_assoc, ← a1, ← mul_assoc]
  have k2 : c x z * c y w * c (x + z) (y + w) = c x z * c (x + z) y * c (x + z + y) w := by
    rw [mul_assoc, ← a3, ← mul_assoc]
  rw [k1, k2, a2, a4, s, add_comm y z]

theorem hom (Q R : G) (n : ℕ) : millerProd c Q n * millerProd c R n * c (n • Q) (n • R) =
    c Q R ^ n * millerProd c (Q + R) n := by
  induction n with
  | zero => simp [millerProd, h.zero]
  | succ n ih =>
    have f := h.four (n • Q) (n • R) Q R
    rw [← succ_nsmul, ← succ_nsmul, ← nsmul_add] at f
    rw [millerProd, millerProd, millerProd, pow_succ, nsmul_add]
    rw [nsmul_add] at f
    calc _ = millerProd c Q n * millerProd c R n * (c (n • Q) Q * c (n • R) R * c ((n + 1) • Q) ((n + 1) • R)) := by
            simp only [mul_assoc, mul_left_comm, mul_comm]
      _ = millerProd c Q n * millerProd c R n * (c (n • Q) (n • R) * c Q R * c (n • Q + n • R) (Q + R)) := by rw [f]
      _ = (millerProd c Q n * millerProd c R n * c (n • Q) (n • R)) * c Q R * c (n • Q + n • R) (Q + R) := by
            simp only [mul_assoc]
      _ = _ := by rw [ih]; simp only [mul_assoc, mul_left_comm, mul_comm]

end SymCocycle

theorem millerProd_coboundary {c₁ c₂ c₃ : G → G → M} {f : G → M} (f0 : f 0 = 1)
    (h : ∀ a b, c₁ a b * c₂ a b * f (a + b) = c₃ a b * f a * f b) (Q : G) (n : ℕ) :
    millerProd c₁ Q n * millerProd c₂ Q n * f (n • Q) = millerProd c₃ Q n * f Q ^ n := by
  induction n with
  | zero => simp [millerProd, f0]
  | succ n ih =>
    have k := h (n • Q) Q
    rw [← succ_nsmul] at k
    rw [millerProd, millerProd, millerProd, pow_succ]
    calc _ = millerProd c₁ Q n * millerProd c₂ Q n * (c₁ (n • Q) Q * c₂ (n • Q) Q * f ((n + 1) • Q)) := by
            simp only [mul_assoc, mul_left_comm, mul_comm]
      _ = (millerProd c₁ Q n * millerProd c₂ Q n * f (n • Q)) * c₃ (n • Q) Q * f Q := by
            rw [k]; simp only [mul_assoc, mul_left_comm, mul_comm]
      _ = _ := by rw [ih]; simp only [mul_assoc, mul_left_comm, mul_comm]

end Bls
