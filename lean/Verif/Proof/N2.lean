import Verif.Proof.FQ2
/-
Computation in Fq2 on pairs of natural numbers, for facts the kernel evaluates.
-/
set_option exponentiation.threshold 1000
namespace Bls

/-- A pair of natural numbers standing for an element of Fq2. -/
structure N2 where
  re : ℕ
  im : ℕ
deriving DecidableEq, Repr

namespace N2

def toF (a : N2) : Fq2 := ⟨(a.re : Fq), (a.im : Fq)⟩

def one : N2 := ⟨1, 0⟩
def mul (a b : N2) : N2 :=
  ⟨(a.re * b.re + (qLit - a.im % qLit) * b.im) % qLit, (a.re * b.im + a.im * b.re) % qLit⟩
def add (a b : N2) : N2 := ⟨(a.re + b.re) % qLit, (a.im + b.im) % qLit⟩
def neg (a : N2) : N2 := ⟨(qLit - a.re % qLit) % qLit, (qLit - a.im % qLit) % qLit⟩
def sub (a b : N2) : N2 := add a (neg b)
def conj (a : N2) : N2 := ⟨a.re % qLit, (qLit - a.im % qLit) % qLit⟩

/-- `acc · a^e`, for `e < 2^fuel`. -/
def pow : (fuel : ℕ) → (a : N2) → (e : ℕ) → (acc : N2) → N2
  | 0, _, _, acc => acc
  | fuel + 1, a, e, acc =>
    if Nat.beq e 0 then acc
    else pow fuel (mul a a) (e / 2) (if Nat.beq (e % 2) 1 then mul acc a else acc)

theorem cast_mod (n : ℕ) : ((n % qLit : ℕ) : Fq) = n := by
  rw [← q_eq]; exact ZMod.natCast_mod n q

theorem qLit_pos : 0 < qLit := by rw [← q_eq]; exact q_pos

theorem cast_neg (n : ℕ) : ((qLit - n % qLit : ℕ) : Fq) = -(n : Fq) := by
  rw [Nat.cast_sub (Nat.mod_lt _ qLit_pos).le, cast_mod, ← q_eq, ZMod.natCast_self, zero_sub]

theorem toF_one : toF one = 1 := by
  ext
  · exact Nat.cast_one
  · exact Nat.cast_zero

theorem toF_mul (a b : N2) : toF (mul a b) = toF a * toF b := by
  ext
  · simp only [toF, mul, Fq2.mul_c0, cast_mod]
    rw [Nat.cast_add, Nat.cast_mul, Nat.cast_mul, cast_neg]; ring
  · simp only [toF, mul, Fq2.mul_c1, cast_mod]
    rw [Nat.cast_add, Nat.cast_mul, Nat.cast_mul]

theorem toF_add (a b : N2) : toF (add a b) = toF a + toF b := by
  ext <;> simp only [toF, add, cast_mod, Fq2.add_c0, Fq2.add_c1, Nat.cast_add]

theorem toF_neg (a : N2) : toF (neg a) = -toF a := by
  ext <;> simp only [toF, neg, cast_mod, cast_neg, Fq2.neg_c0, Fq2.neg_c1]

theorem toF_sub (a b : N2) : toF (sub a b) = toF a - toF b := by
  rw [sub, toF_add, toF_neg, sub_eq_add_neg]

theorem toF_conj (a : N2) : toF (conj a) = Fq2.conj (toF a) := by
  ext <;> simp [toF, conj, cast_mod, cast_neg]

theorem toF_pow : ∀ (fuel : ℕ) (a : N2) (e : ℕ) (acc : N2), e < 2 ^ fuel →
    toF (pow fuel a e acc) = toF acc * toF a ^ e := by
  intro fuel
  induction fuel with
  | zero => intro a e acc h; have : e = 0 := by simpa using h
            subst this; simp [pow]
  | succ fuel ih =>
    intro a e acc h
    rw [pow]
    by_cases h0 : e = 0
    · subst h0; simp
    · rw [if_neg (by simpa using h0), ih _ _ _ (by rw [pow_succ] at h; omega), toF_mul]
      conv_rhs => rw [← Nat.div_add_mod e 2, pow_add, pow_mul]
      rcases Nat.mod_two_eq_zero_or_one e with h1 | h1
      · rw [h1]; simp [pow_two]
      · rw [h1]
        have hb : Nat.beq 1 1 = true := rfl
        rw [if_pos hb, toF_mul]; ring

end N2

/-- The inverse of `2^384` modulo q. -/
def rinvLit : ℕ := 3231460744492646417066832100176244795738767926513225105051837195607029917124509527734802654356338138714468589979680

/-- The value of an FQ, as a natural number the kernel can compute. -/
def FQ.nv (a : FQ) : ℕ := a.n.toNat * rinvLit % qLit

theorem rinvLit_spec : rinvLit * 2 ^ 384 % qLit = 1 := by decide +kernel

theorem FQ.rep_nv {a : FQ} (h : Nat.blt a.n.toNat qLit = true) : a.Rep (a.nv : Fq) := by
  rw [FQ.rep_iff]
  have h' : a.n.toNat < q := by rw [q_eq]; exact Nat.blt_eq.mp h
  refine ⟨h', ?_⟩
  rw [FQ.nv, N2.cast_mod, Nat.cast_mul, Rq_eq, mul_assoc, ← Nat.cast_mul]
  have : ((rinvLit * 2 ^ 384 : ℕ) : Fq) = ((1 : ℕ) : Fq) := by
    rw [← N2.cast_mod, rinvLit_spec]
  rw [this, Nat.cast_one, mul_one]

def FQ2.nv (a : FQ2) : N2 := ⟨a.c0.nv, a.c1.nv⟩

theorem FQ2.rep_nv {a : FQ2} (h0 : Nat.blt a.c0.n.toNat qLit = true) (h1 : Nat.blt a.c1.n.toNat qLit = true) :
    a.Rep a.nv.toF := ⟨FQ.rep_nv h0, FQ.rep_nv h1⟩

/-- Canonical limbs, in a form the kernel computes. -/
def FQ2.ok (a : FQ2) : Bool := Nat.blt a.c0.n.toNat qLit && Nat.blt a.c1.n.toNat qLit

theorem FQ2.rep_ok {a : FQ2} (h : a.ok = true) : a.Rep a.nv.toF := by
  simp only [FQ2.ok, Bool.and_eq_true] at h
  exact FQ2.rep_nv h.1 h.2

attribute [irreducible] rinvLit

end Bls
