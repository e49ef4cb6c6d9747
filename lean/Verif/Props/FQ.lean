import Verif.Proof.Int
/-
C01–C06: the base field, for every pair of canonical elements. `a.isValid` is the API's `IsValid`
(the limbs are below q); `a.int` is the integer `ToRepr` returns.
-/
set_option exponentiation.threshold 1000
namespace Bls.Props

/-- A non-trivial canonical element used to show hypotheses are met: 5 in Montgomery form. -/
def five : FQ := FQ.ofRepr (.new 5)
/-- q - 2. -/
def minusTwo : FQ := FQ.ofRepr (.ofNat 4002409555221667393417789825735904156556882819939007885332058136124031650490837864442687629129015664037894272559785)

example : five.isValid ∧ minusTwo.isValid := by decide +kernel

/-! ## C01 -/

/-- `AddAssign`: sum modulo q. -/
theorem C01_add (a b : FQ) (ha : a.isValid) (hb : b.isValid) :
    (a.add b).isValid ∧ (a.add b).int = (a.int + b.int) % q := by
  have h := (FQ.rep_int ha).add (FQ.rep_int hb)
  exact ⟨h.isValid, FQ.Rep.int_eq (by push_cast; exact h)⟩

/-- `SubAssign`: difference modulo q. -/
theorem C01_sub (a b : FQ) (ha : a.isValid) (hb : b.isValid) :
    (a.sub b).isValid ∧ ((a.sub b).int : ℤ) = ((a.int : ℤ) - b.int) % q := by
  have h := (FQ.rep_int ha).sub (FQ.rep_int hb)
  exact ⟨h.isValid, FQ.Rep.int_eq_int (by push_cast; exact h)⟩

/-- `NegAssign`: opposite modulo q. -/
theorem C01_neg (a : FQ) (ha : a.isValid) :
    a.neg.isValid ∧ (a.neg.int : ℤ) = (-(a.int : ℤ)) % q := by
  have h := (FQ.rep_int ha).neg
  exact ⟨h.isValid, FQ.Rep.int_eq_int (by push_cast; exact h)⟩

/-- `DoubleAssign`: double modulo q. -/
theorem C01_double (a : FQ) (ha : a.isValid) :
    a.double.isValid ∧ a.double.int = (2 * a.int) % q := by
  have h := (FQ.rep_int ha).double
  exact ⟨h.isValid, FQ.Rep.int_eq (by push_cast; rw [two_mul]; exact h)⟩

example : (five.add minusTwo).int = 3 ∧ (minusTwo.sub five).int = q - 7 ∧ five.neg.int = q - 5 := by
  rw [q]; decide +kernel

/-! ## C02 -/

/-- `MulAssign`: product modulo q. -/
theorem C02_mul (a b : FQ) (ha : a.isValid) (hb : b.isValid) :
    (a.mul b).isValid ∧ (a.mul b).int = (a.int * b.int) % q := by
  have h := (FQ.rep_int ha).mul (FQ.rep_int hb)
  exact ⟨h.isValid, FQ.Rep.int_eq (by push_cast; exact h)⟩

/-- `SquareAssign`: square modulo q, and the same limbs as `MulAssign` by itself. -/
theorem C02_square (a : FQ) (ha : a.isValid) :
    a.square.isValid ∧ a.square.int = (a.int * a.int) % q ∧ a.square = a.mul a := by
  have h := (FQ.rep_int ha).square
  exact ⟨h.isValid, FQ.Rep.int_eq (by push_cast; exact h), h.inj ((FQ.rep_int ha).mul (FQ.rep_int ha))⟩

example : (five.mul minusTwo).int = q - 10 ∧ minusTwo.square.int = 4 := by rw [q]; decide +kernel

/-! ## C03 -/

/-- `Inverse` of the zero element: reports failure (and terminates). -/
theorem C03_inverse_zero (a : FQ) (ha : a.isValid) (h0 : a.int = 0) :
    ∃ b, a.inverse? = some (b, false) := by
  have h := FQ.rep_int ha
  rw [h0, Nat.cast_zero] at h
  exact ⟨_, h.inverse?_zero⟩

/-- `Inverse` of any other canonical element: terminates, succeeds, and the result is canonical and
times the input is one. -/
theorem C03_inverse (a : FQ) (ha : a.isValid) (h0 : a.int ≠ 0) :
    ∃ b, a.inverse? = some (b, true) ∧ b.isValid ∧ (b.int * a.int) % q = 1 := by
  have h := FQ.rep_int ha
  have hx : (a.int : Fq) ≠ 0 := by
    intro h'; apply h0
    have := h.int
    rw [h', ZMod.val_zero] at this; exact this
  obtain ⟨b, h1, h2⟩ := h.inverse?_ne hx
  refine ⟨b, h1, h2.isValid, ?_⟩
  have h3 := (h2.mul h)
  rw [inv_mul_cancel₀ hx] at h3
  have h4 := (FQ.rep_int h2.isValid).mul h
  have h5 := FQ.Rep.int_eq (a := b.mul a) (m := b.int * a.int) (by push_cast; exact h4)
  rw [← h5, h3.int]
  exact ZMod.val_one q

/-- `DivAssign` by zero leaves zero. -/
theorem C03_div_zero (a b : FQ) (ha : a.isValid) (hb : b.isValid) (h0 : b.int = 0) :
    (a.div b).isValid ∧ (a.div b).int = 0 := by
  have h := (FQ.rep_int ha).div (FQ.rep_int hb)
  refine ⟨h.isValid, ?_⟩
  rw [h.int, h0, Nat.cast_zero, div_zero, ZMod.val_zero]

/-- `DivAssign` by a non-zero element: the quotient times the divisor is the dividend. -/
theorem C03_div (a b : FQ) (ha : a.isValid) (hb : b.isValid) (h0 : b.int ≠ 0) :
    (a.div b).isValid ∧ ((a.div b).int * b.int) % q = a.int := by
  have h := FQ.rep_int ha
  have h' := FQ.rep_int hb
  have hx : (b.int : Fq) ≠ 0 := by
    intro e; apply h0
    have := h'.int
    rw [e, ZMod.val_zero] at this; exact this
  have h2 := h.div h'
  refine ⟨h2.isValid, ?_⟩
  have h4 := (FQ.rep_int h2.isValid).mul h'
  have h5 := FQ.Rep.int_eq (a := (a.div b).mul b) (m := (a.div b).int * b.int) (by push_cast; exact h4)
  have h3 := h2.mul h'
  rw [div_mul_cancel₀ _ hx] at h3
  rw [← h5, h3.inj h]

example : five.isValid ∧ five.int ≠ 0 := by decide +kernel

/-! ## C04 -/

/-- `Exp`: the power, for every 384-bit exponent; the call neither panics nor runs on. -/
theorem C04_exp (a : FQ) (ha : a.isValid) (n : FQRepr) :
    ∃ b, a.exp? n = some b ∧ b.isValid ∧ b.int = (a.int ^ n.toNat) % q := by
  have h := (FQ.rep_int ha).exp n
  refine ⟨a.exp n, ?_, h.isValid, FQ.Rep.int_eq (by push_cast; exact h)⟩
  unfold FQ.exp
  rw [FQ.exp?_eq_some, Option.getD_some]

/-- In particular `x^0 = 1` (also for `x = 0`). -/
theorem C04_exp_zero (a : FQ) (ha : a.isValid) :
    ∃ b, a.exp? (.new 0) = some b ∧ b.int = 1 := by
  obtain ⟨b, h1, _, h3⟩ := C04_exp a ha (.new 0)
  refine ⟨b, h1, h3.trans ?_⟩
  have : (FQRepr.new 0).toNat = 0 := by decide
  rw [this, pow_zero, Nat.mod_eq_of_lt (lt_trans (by norm_num) q_gt3)]

example : ∃ b, five.exp? (.new 1000) = some b ∧ b.isValid ∧ b.int = (five.int ^ (FQRepr.new 1000).toNat) % q :=
  C04_exp five (by decide +kernel) _

/-! ## C05 -/

theorem isSquare_natCast (n : ℕ) : IsSquare (n : Fq) ↔ ∃ s : ℕ, (s * s) % q = n % q := by
  constructor
  · rintro ⟨s, hs⟩
    refine ⟨s.val, ?_⟩
    rw [← ZMod.val_natCast, ← ZMod.val_natCast, Nat.cast_mul, ZMod.natCast_zmod_val, ← hs]
  · rintro ⟨s, hs⟩
    refine ⟨s, ?_⟩
    rw [← Nat.cast_mul, eq_comm]
    exact (ZMod.natCast_eq_natCast_iff _ _ _).mpr hs

/-- `Sqrt` on a square: succeeds with a canonical root. -/
theorem C05_sqrt (a : FQ) (ha : a.isValid) (hs : ∃ s : ℕ, (s * s) % q = a.int) :
    ∃ b, a.sqrt = (b, true) ∧ b.isValid ∧ (b.int * b.int) % q = a.int := by
  have h := FQ.rep_int ha
  have hlt := h.int_lt
  have h1 := h.sqrt.1 ((isSquare_natCast _).mpr (by rwa [Nat.mod_eq_of_lt hlt]))
  obtain ⟨h2, s, h3, h4⟩ := h1
  generalize a.sqrt = p at *
  obtain ⟨b, ok⟩ := p
  dsimp only at h2 h3
  refine ⟨b, by rw [h2], h3.isValid, ?_⟩
  have h5 := (FQ.rep_int h3.isValid).mul (FQ.rep_int h3.isValid)
  have h6 := FQ.Rep.int_eq (a := b.mul b) (m := b.int * b.int) (by push_cast; exact h5)
  have h7 := h3.mul h3
  rw [h4] at h7
  rw [← h6, h7.inj h]

/-- `Sqrt` on a non-square: reports failure. -/
theorem C05_sqrt_none (a : FQ) (ha : a.isValid) (hs : ¬ ∃ s : ℕ, (s * s) % q = a.int) :
    a.sqrt.2 = false := by
  have h := FQ.rep_int ha
  have hlt := h.int_lt
  exact (h.sqrt.2 (fun h' => hs (by rw [isSquare_natCast, Nat.mod_eq_of_lt hlt] at h'; exact h'))).1

open Classical in
/-- `Legendre`: zero, residue or non-residue. -/
theorem C05_legendre (a : FQ) (ha : a.isValid) :
    a.legendre = if a.int = 0 then .zero else if ∃ s : ℕ, (s * s) % q = a.int then .quadraticResidue
      else .quadraticNonResidue := by
  have h := FQ.rep_int ha
  have hlt := h.int_lt
  rw [h.legendre]
  have e1 : (a.int : Fq) = 0 ↔ a.int = 0 := by
    constructor
    · intro e; have := h.int; rw [e, ZMod.val_zero] at this; exact this
    · intro e; rw [e, Nat.cast_zero]
  have e2 := isSquare_natCast a.int
  rw [Nat.mod_eq_of_lt hlt] at e2
  simp only [e1, e2]

/-- 4 is a square; -1 is not (mod q). -/
example : (FQ.ofRepr (.new 4)).isValid ∧ (2 * 2) % q = (FQ.ofRepr (.new 4)).int := by rw [q]; decide +kernel
example : FQ.negativeOneFQ.isValid ∧ ¬ ∃ s : ℕ, (s * s) % q = FQ.negativeOneFQ.int := by
  refine ⟨by decide +kernel, fun hs => ?_⟩
  have h := negativeOneFQ_rep
  have hlt := h.int_lt
  have h1 := (isSquare_natCast FQ.negativeOneFQ.int).mpr (by rwa [Nat.mod_eq_of_lt hlt])
  rw [h.int, ZMod.natCast_zmod_val, ZMod.exists_sq_eq_neg_one_iff] at h1
  exact h1 q_mod4

/-! ## C06 -/

/-- `FQReprToFQ` then `ToRepr`, for every 384-bit integer: below q it round-trips, from q on it is
the zero element. -/
theorem C06_ofRepr_toRepr (n : FQRepr) :
    (FQ.ofRepr n).isValid ∧
    (n.toNat < q → (FQ.ofRepr n).toRepr = n) ∧ (q ≤ n.toNat → (FQ.ofRepr n).int = 0) := by
  by_cases hn : n.toNat < q
  · have h := FQ.ofRepr_rep hn
    refine ⟨h.isValid, fun _ => FQRepr.toNat_inj ?_, fun h' => absurd hn (not_lt.mpr h')⟩
    rw [h.toRepr, ZMod.val_natCast, Nat.mod_eq_of_lt hn]
  · have h := FQ.ofRepr_of_le (not_lt.mp hn)
    refine ⟨h.isValid, fun h' => absurd h' hn, fun _ => ?_⟩
    rw [h.int, ZMod.val_zero]

/-- `ToRepr` then `FQReprToFQ` is the identity on canonical elements, and the integer is below q. -/
theorem C06_toRepr_ofRepr (a : FQ) (ha : a.isValid) : a.int < q ∧ FQ.ofRepr a.toRepr = a := by
  have h := FQ.rep_int ha
  exact ⟨h.int_lt, (FQ.ofRepr_rep (o := a.toRepr) h.int_lt).inj h⟩

/-- `Cmp` orders canonical elements as their integers. -/
theorem C06_cmp (a b : FQ) (ha : a.isValid) (hb : b.isValid) :
    a.cmp b = if a.int < b.int then -1 else if a.int = b.int then 0 else 1 := by
  rw [(FQ.rep_val ha).cmp (FQ.rep_val hb), (FQ.rep_val ha).int, (FQ.rep_val hb).int]

/-- `Equals` and `IsZero` decide equality of the integers. -/
theorem C06_equals (a b : FQ) (ha : a.isValid) (hb : b.isValid) :
    (a.equals b = true ↔ a.int = b.int) ∧ (a.isZero = true ↔ a.int = 0) := by
  have h := FQ.rep_val ha
  have h' := FQ.rep_val hb
  rw [h.equals h', h.isZero, h.int, h'.int]
  exact ⟨⟨fun e => by rw [e], fun e => ZMod.val_injective q e⟩, by rw [ZMod.val_eq_zero]⟩

/-- `Parity`: whether the element is larger than its opposite, i.e. above (q-1)/2. -/
theorem C06_parity (a : FQ) (ha : a.isValid) : a.parity = true ↔ q < 2 * a.int := by
  have h := FQ.rep_val ha
  rw [h.parity, h.int]
  have hlt := ZMod.val_lt a.val
  by_cases h0 : a.val = 0
  · rw [h0]; simp
  · have : NeZero a.val := ⟨h0⟩
    rw [ZMod.val_neg_of_ne_zero]; omega

example : (minusTwo.parity = true) ∧ five.parity = false ∧ five.cmp minusTwo = -1 := by decide +kernel

end Bls.Props
