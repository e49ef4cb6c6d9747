import Verif.Proof.Int
/-
C11, C12: the scalar field. `a.isValid` is the API's `IsValid`; `a.int` is the integer `ToRepr`
returns.
-/
set_option exponentiation.threshold 1000
namespace Bls.Props

/-- 5 in Montgomery form, a non-trivial canonical scalar. -/
def fiveR : FR := FR.mul ⟨.new 5⟩ ⟨frR2⟩

example : fiveR.isValid ∧ fiveR.int = 5 := by decide +kernel

/-! ## C11 -/

/-- `AddAssign`: sum modulo r. -/
theorem C11_add (a b : FR) (ha : a.isValid) (hb : b.isValid) :
    (a.add b).isValid ∧ (a.add b).int = (a.int + b.int) % r := by
  have h := (FR.rep_int ha).add (FR.rep_int hb)
  exact ⟨h.isValid, FR.Rep.int_eq (by push_cast; exact h)⟩

/-- `SubAssign`: difference modulo r. -/
theorem C11_sub (a b : FR) (ha : a.isValid) (hb : b.isValid) :
    (a.sub b).isValid ∧ ((a.sub b).int : ℤ) = ((a.int : ℤ) - b.int) % r := by
  have h := (FR.rep_int ha).sub (FR.rep_int hb)
  exact ⟨h.isValid, FR.Rep.int_eq_int (by push_cast; exact h)⟩

/-- `NegAssign`: opposite modulo r. -/
theorem C11_neg (a : FR) (ha : a.isValid) :
    a.neg.isValid ∧ (a.neg.int : ℤ) = (-(a.int : ℤ)) % r := by
  have h := (FR.rep_int ha).neg
  exact ⟨h.isValid, FR.Rep.int_eq_int (by push_cast; exact h)⟩

/-- `DoubleAssign`: double modulo r. -/
theorem C11_double (a : FR) (ha : a.isValid) :
    a.double.isValid ∧ a.double.int = (2 * a.int) % r := by
  have h := (FR.rep_int ha).double
  exact ⟨h.isValid, FR.Rep.int_eq (by push_cast; rw [two_mul]; exact h)⟩

/-- `MulAssign`: product modulo r. -/
theorem C11_mul (a b : FR) (ha : a.isValid) (hb : b.isValid) :
    (a.mul b).isValid ∧ (a.mul b).int = (a.int * b.int) % r := by
  have h := (FR.rep_int ha).mul (FR.rep_int hb)
  exact ⟨h.isValid, FR.Rep.int_eq (by push_cast; exact h)⟩

/-- `SquareAssign`: square modulo r, and the same limbs as `MulAssign` by itself. -/
theorem C11_square (a : FR) (ha : a.isValid) :
    a.square.isValid ∧ a.square.int = (a.int * a.int) % r ∧ a.square = a.mul a := by
  have h := (FR.rep_int ha).square
  exact ⟨h.isValid, FR.Rep.int_eq (by push_cast; exact h), h.inj ((FR.rep_int ha).mul (FR.rep_int ha))⟩

example : (fiveR.mul fiveR).int = 25 ∧ fiveR.neg.int = r - 5 := by rw [r]; decide +kernel

/-! ## C12 -/

/-- `Inverse` of zero is nil. -/
theorem C12_inverse_zero (a : FR) (ha : a.isValid) (h0 : a.int = 0) : a.inverse? = some none := by
  have h := FR.rep_int ha
  rw [h0, Nat.cast_zero] at h
  exact h.inverse?_zero

/-- `Inverse` of any other canonical scalar terminates with its inverse. -/
theorem C12_inverse (a : FR) (ha : a.isValid) (h0 : a.int ≠ 0) :
    ∃ b, a.inverse? = some (some b) ∧ b.isValid ∧ (b.int * a.int) % r = 1 := by
  have h := FR.rep_int ha
  have hx : (a.int : Fr) ≠ 0 := by
    intro h'; apply h0
    have := h.int
    rw [h', ZMod.val_zero] at this; exact this
  obtain ⟨b, h1, h2⟩ := h.inverse?_ne hx
  refine ⟨b, h1, h2.isValid, ?_⟩
  have h3 := (h2.mul h)
  rw [inv_mul_cancel₀ hx] at h3
  have h4 := (FR.rep_int h2.isValid).mul h
  have h5 := FR.Rep.int_eq (a := b.mul a) (m := b.int * a.int) (by push_cast; exact h4)
  rw [← h5, h3.int]
  exact ZMod.val_one r

/-- `Exp`: the power, for every 256-bit exponent (with `bigOneFR` as initialised; see C46 for what
happens after `FR.Sqrt` has changed it). -/
theorem C12_exp (a : FR) (ha : a.isValid) (n : FRRepr) :
    ∃ b, a.exp? n = some b ∧ b.isValid ∧ b.int = (a.int ^ n.toNat) % r := by
  obtain ⟨b, h1, h2⟩ := (FR.rep_int ha).exp? n
  exact ⟨b, h1, h2.isValid, FR.Rep.int_eq (by push_cast; exact h2)⟩

theorem isSquare_natCast_r (n : ℕ) : IsSquare (n : Fr) ↔ ∃ s : ℕ, (s * s) % r = n % r := by
  constructor
  · rintro ⟨s, hs⟩
    refine ⟨s.val, ?_⟩
    rw [← ZMod.val_natCast, ← ZMod.val_natCast, Nat.cast_mul, ZMod.natCast_zmod_val, ← hs]
  · rintro ⟨s, hs⟩
    refine ⟨s, ?_⟩
    rw [← Nat.cast_mul, eq_comm]
    exact (ZMod.natCast_eq_natCast_iff _ _ _).mpr hs

open Classical in
/-- `Legendre`: zero, residue or non-residue. -/
theorem C12_legendre (a : FR) (ha : a.isValid) :
    a.legendre = if a.int = 0 then .zero else if ∃ s : ℕ, (s * s) % r = a.int then .quadraticResidue
      else .quadraticNonResidue := by
  have h := FR.rep_int ha
  have hlt := h.int_lt
  rw [h.legendre]
  have e1 : (a.int : Fr) = 0 ↔ a.int = 0 := by
    constructor
    · intro e; have := h.int; rw [e, ZMod.val_zero] at this; exact this
    · intro e; rw [e, Nat.cast_zero]
  have e2 := isSquare_natCast_r a.int
  rw [Nat.mod_eq_of_lt hlt] at e2
  simp only [e1, e2]

/-- `FRReprToFR` then `ToRepr`, for every 256-bit integer: nil from r on, otherwise a canonical
scalar denoting the same integer. -/
theorem C12_ofRepr_toRepr (n : FRRepr) :
    (n.toNat < r → ∃ a, FR.ofRepr? n = some a ∧ a.isValid ∧ a.toRepr = n) ∧
    (r ≤ n.toNat → FR.ofRepr? n = none) := by
  refine ⟨fun hn => ?_, FR.ofRepr?_of_le⟩
  obtain ⟨a, h1, h⟩ := FR.ofRepr?_lt hn
  refine ⟨a, h1, h.isValid, FRRepr.toNat_inj ?_⟩
  rw [h.toRepr, ZMod.val_natCast, Nat.mod_eq_of_lt hn]

/-- `ToRepr` then `FRReprToFR` is the identity on canonical scalars. -/
theorem C12_toRepr_ofRepr (a : FR) (ha : a.isValid) : a.int < r ∧ FR.ofRepr? a.toRepr = some a := by
  have h := FR.rep_int ha
  obtain ⟨b, h1, h2⟩ := FR.ofRepr?_lt (o := a.toRepr) h.int_lt
  exact ⟨h.int_lt, by rw [h1, h2.inj h]⟩

/-- `Cmp` orders canonical scalars as their integers; `Equals` and `IsZero` decide equality. -/
theorem C12_cmp_equals (a b : FR) (ha : a.isValid) (hb : b.isValid) :
    (a.cmp b = if a.int < b.int then -1 else if a.int = b.int then 0 else 1) ∧
    (a.equals b = true ↔ a.int = b.int) ∧ (a.isZero = true ↔ a.int = 0) := by
  have h := FR.rep_val ha
  have h' := FR.rep_val hb
  rw [h.cmp h', h.equals h', h.isZero, h.int, h'.int]
  exact ⟨rfl, ⟨fun e => by rw [e], fun e => ZMod.val_injective r e⟩, by rw [ZMod.val_eq_zero]⟩

example : fiveR.isValid ∧ fiveR.int ≠ 0 := by decide +kernel
example : FR.ofRepr? (.new 5) = some fiveR ∧ FR.ofRepr? rFieldModulus = none := by decide +kernel

end Bls.Props
