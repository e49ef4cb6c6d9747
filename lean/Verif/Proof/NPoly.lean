import Mathlib.Algebra.CharP.Basic
import Mathlib.Algebra.BigOperators.Group.List.Basic
import Mathlib.Tactic.Ring
import Mathlib.Tactic.LinearCombination
/-
Fq12 as polynomials in `w` with `w¹² = 2w⁶ - 2`, coefficients natural numbers, for facts the kernel
evaluates.
-/
namespace Bls.NPoly

/-- Evaluate `n` before going on. -/
def force {α : Type} (n : ℕ) (k : ℕ → α) : α := Nat.rec (k 0) (fun m _ => k (m + 1)) n

theorem force_eq {α : Type} (n : ℕ) (k : ℕ → α) : force n k = k n := by cases n <;> rfl

def forceL {α : Type} : List ℕ → (List ℕ → α) → α
  | [], k => k []
  | x :: t, k => force x fun x' => forceL t fun t' => k (x' :: t')

theorem forceL_eq {α : Type} (l : List ℕ) : ∀ k : List ℕ → α, forceL l k = k l := by
  induction l with
  | nil => intro k; rfl
  | cons x t ih => intro k; rw [forceL, force_eq, ih]

noncomputable def add (a : List ℕ) : List ℕ → List ℕ :=
  List.rec (motive := fun _ => List ℕ → List ℕ) (fun b => b)
    (fun x a ih b => List.rec (motive := fun _ => List ℕ) (x :: a) (fun y b _ => Nat.add x y :: ih b) b) a

noncomputable def scale (c : ℕ) (a : List ℕ) : List ℕ :=
  List.rec (motive := fun _ => List ℕ) [] (fun x _ ih => Nat.mul c x :: ih) a

noncomputable def mulRaw (a b : List ℕ) : List ℕ :=
  List.rec (motive := fun _ => List ℕ) [] (fun x _ ih => add (scale x b) (0 :: ih)) a

noncomputable def take (n : ℕ) : List ℕ → List ℕ :=
  Nat.rec (motive := fun _ => List ℕ → List ℕ) (fun _ => [])
    (fun _ ih a => List.rec (motive := fun _ => List ℕ) [] (fun x a _ => x :: ih a) a) n

noncomputable def drop (n : ℕ) : List ℕ → List ℕ :=
  Nat.rec (motive := fun _ => List ℕ → List ℕ) (fun l => l)
    (fun _ ih a => List.rec (motive := fun _ => List ℕ) [] (fun _ a _ => ih a) a) n

noncomputable def fold (N : ℕ) (l : List ℕ) : List ℕ :=
  add (take 12 l) (add (0 :: 0 :: 0 :: 0 :: 0 :: 0 :: scale 2 (drop 12 l)) (scale (N - 2) (drop 12 l)))

noncomputable def modAll (N : ℕ) (a : List ℕ) : List ℕ :=
  List.rec (motive := fun _ => List ℕ) [] (fun x _ ih => Nat.mod x N :: ih) a

noncomputable def mul (N : ℕ) (a b : List ℕ) : List ℕ := modAll N (fold N (fold N (mulRaw a b)))

theorem add_nil (b : List ℕ) : add [] b = b := rfl
theorem add_cons_nil (x : ℕ) (a : List ℕ) : add (x :: a) [] = x :: a := rfl
theorem add_cons (x y : ℕ) (a b : List ℕ) : add (x :: a) (y :: b) = (x + y) :: add a b := rfl
theorem scale_nil (c : ℕ) : scale c [] = [] := rfl
theorem scale_cons (c x : ℕ) (a : List ℕ) : scale c (x :: a) = (c * x) :: scale c a := rfl
theorem mulRaw_nil (b : List ℕ) : mulRaw [] b = [] := rfl
theorem mulRaw_cons (x : ℕ) (a b : List ℕ) : mulRaw (x :: a) b = add (scale x b) (0 :: mulRaw a b) := rfl
theorem take_zero (a : List ℕ) : take 0 a = [] := rfl
theorem take_nil (n : ℕ) : take n [] = [] := by cases n <;> rfl
theorem take_succ (n x : ℕ) (a : List ℕ) : take (n + 1) (x :: a) = x :: take n a := rfl
theorem drop_zero (a : List ℕ) : drop 0 a = a := rfl
theorem drop_nil (n : ℕ) : drop n [] = [] := by cases n <;> rfl
theorem drop_succ (n x : ℕ) (a : List ℕ) : drop (n + 1) (x :: a) = drop n a := rfl
theorem modAll_nil (N : ℕ) : modAll N [] = [] := rfl
theorem modAll_cons (N x : ℕ) (a : List ℕ) : modAll N (x :: a) = (x % N) :: modAll N a := rfl

section
variable {K : Type*} [CommRing K] (w : K)

def ev : List ℕ → K
  | [] => 0
  | x :: a => (x : K) + w * ev a

variable {w}

theorem ev_add (a : List ℕ) : ∀ b, ev w (add a b) = ev w a + ev w b := by
  induction a with
  | nil => intro b; simp [add_nil, ev]
  | cons x a ih =>
    intro b
    cases b with
    | nil => simp [add_cons_nil, ev]
    | cons y b => simp only [add_cons, ev, ih, Nat.cast_add]; ring

theorem ev_scale (c : ℕ) (a : List ℕ) : ev w (scale c a) = c * ev w a := by
  induction a with
  | nil => simp [scale_nil, ev]
  | cons x a ih => simp only [scale_cons, ev, ih, Nat.cast_mul]; ring

theorem ev_mulRaw (a b : List ℕ) : ev w (mulRaw a b) = ev w a * ev w b := by
  induction a with
  | nil => simp [mulRaw_nil, ev]
  | cons x a ih => simp only [mulRaw_cons, ev_add, ev_scale, ev, ih, Nat.cast_zero]; ring

theorem ev_split (n : ℕ) : ∀ a : List ℕ, n ≤ a.length → ev w a = ev w (take n a) + w ^ n * ev w (drop n a) := by
  induction n with
  | zero => intro a _; simp [take_zero, drop_zero, ev]
  | succ n ih =>
    intro a h
    cases a with
    | nil => simp at h
    | cons x a =>
      rw [take_succ, drop_succ, ev, ev]
      rw [ih a (by simpa using h)]; ring

theorem take_short (n : ℕ) : ∀ a : List ℕ, a.length < n → take n a = a := by
  induction n with
  | zero => intro a h; simp at h
  | succ n ih =>
    intro a h
    cases a with
    | nil => rfl
    | cons x a => rw [take_succ, ih a (by simpa using h)]

theorem drop_short (n : ℕ) : ∀ a : List ℕ, a.length < n → drop n a = [] := by
  induction n with
  | zero => intro a h; simp at h
  | succ n ih =>
    intro a h
    cases a with
    | nil => rfl
    | cons x a => rw [drop_succ, ih a (by simpa using h)]

variable {N : ℕ} (hN : (N : K) = 0) (h2 : 2 ≤ N) (hw : w ^ 12 = 2 * w ^ 6 - 2)
include hN

theorem cast_mod (a : ℕ) : ((a % N : ℕ) : K) = a := by
  conv_rhs => rw [← Nat.div_add_mod a N]
  rw [Nat.cast_add, Nat.cast_mul, hN, zero_mul, zero_add]

theorem ev_modAll (a : List ℕ) : ev w (modAll N a) = ev w a := by
  induction a with
  | nil => rfl
  | cons x a ih => rw [modAll_cons, ev, ev, ih, cast_mod hN]

include h2 hw

theorem ev_fold (a : List ℕ) : ev w (fold N a) = ev w a := by
  have e : ((N - 2 : ℕ) : K) = -2 := by rw [Nat.cast_sub h2, hN]; ring
  rcases Nat.lt_or_ge a.length 12 with h | h
  · simp only [fold, take_short 12 a h, drop_short 12 a h, scale_nil, ev_add, ev_scale, ev, Nat.cast_zero, mul_zero, add_zero]
  · rw [ev_split (w := w) 12 a h]
    simp only [fold, ev_add, ev_scale, ev, Nat.cast_zero, Nat.cast_ofNat, e, hw]
    ring

theorem ev_mul (a b : List ℕ) : ev w (mul N a b) = ev w a * ev w b := by
  rw [mul, ev_modAll hN, ev_fold hN h2 hw, ev_fold hN h2 hw, ev_mulRaw]

end

/-- `acc^(2^k) · y^n` where `n < 2^k`: `k` squarings, most significant bit first. -/
noncomputable def powStep (N : ℕ) (y : List ℕ) : ℕ → ℕ → List ℕ → List ℕ
  | 0, _, acc => acc
  | k + 1, n, acc =>
    forceL (mul N acc acc) fun s =>
      bif Nat.beq (n / 2 ^ k % 2) 1 then forceL (mul N s y) fun t => powStep N y k n t
      else powStep N y k n s

theorem ev_powStep {K : Type*} [CommRing K] {w : K} {N : ℕ} (hN : (N : K) = 0) (h2 : 2 ≤ N)
    (hw : w ^ 12 = 2 * w ^ 6 - 2) (y : List ℕ) (k n : ℕ) : ∀ acc,
    ev w (powStep N y k n acc) = ev w acc ^ (2 ^ k) * ev w y ^ (n % 2 ^ k) := by
  induction k with
  | zero => intro acc; simp [powStep, Nat.mod_one]
  | succ k ih =>
    intro acc
    rw [powStep, forceL_eq]
    have hm : n % 2 ^ (k + 1) = 2 ^ k * (n / 2 ^ k % 2) + n % 2 ^ k := by
      rw [Nat.pow_succ, Nat.mod_mul, add_comm]
    rcases Nat.mod_two_eq_zero_or_one (n / 2 ^ k) with e | e
    · rw [e, show Nat.beq 0 1 = false from rfl, cond_false, ih, ev_mul hN h2 hw, hm, e]
      rw [mul_zero, zero_add, ← pow_two, ← pow_mul, Nat.pow_succ, mul_comm 2]
    · rw [e, show Nat.beq 1 1 = true from rfl, cond_true, forceL_eq, ih, ev_mul hN h2 hw, ev_mul hN h2 hw, hm, e]
      rw [mul_one, mul_pow, ← pow_two, ← pow_mul, Nat.pow_succ, mul_comm 2, pow_add]; ring

end Bls.NPoly
