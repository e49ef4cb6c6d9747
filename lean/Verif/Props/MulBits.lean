import Verif.Proof.Int
import Verif.Proof.Scalar
import Mathlib.Data.Nat.Size
/-
C44 for FQ and FR: what `MulBits` and `MulBytes` really multiply by, and that it is not the number.
`bitReversed k n` (Verif/Spec/Bits.lean) is the number whose `k` binary digits are the low `k` digits of `n`
in the opposite order; `Nat.size n` is the number of binary digits of `n`.
-/
set_option exponentiation.threshold 1000
namespace Bls.Props

private theorem size_eq (b : ℕ) : natBitLen b = b.size :=
  le_antisymm (natBitLen_le.mpr (Nat.lt_size_self b)) (Nat.size_le.mpr (lt_natBitLen b))

/-- `MulBits` never panics and multiplies by the number whose binary digits are those of `b`
*reversed*. -/
theorem C44_fq_mulBits_actual (a : FQ) (ha : a.isValid) (b : FQRepr) :
    ∃ o, a.mulBits b = some o ∧ o.isValid ∧
      o.int = (bitReversed b.toNat.size b.toNat * a.int) % q := by
  obtain ⟨o, h1, h2⟩ := (FQ.rep_int ha).mulBits b
  rw [revBits_zero, size_eq] at h2
  exact ⟨o, h1, h2.isValid, FQ.Rep.int_eq (by push_cast; exact h2)⟩

/-- Seven times "six" (110) gives seven times three (011). -/
example : FQ.one.isValid ∧ (FQ.ofRepr (.new 7)).isValid ∧
    ((FQ.ofRepr (.new 7)).mulBits (.new 6)).map FQ.int = some 21 := by decide +kernel

/-- `MulBytes` never panics; the bits are consumed lowest bit of the first byte first, so it
multiplies by the number with those digits, most significant first. -/
theorem C44_fq_mulBytes_actual (a : FQ) (ha : a.isValid) (b : List UInt8) :
    ∃ o, a.mulBytes b = some o ∧ o.isValid ∧
      o.int = (bitReversed (8 * b.length) (Nat.ofDigits 256 (b.map UInt8.toNat)) * a.int) % q := by
  obtain ⟨o, h1, h2⟩ := (FQ.rep_int ha).mulBytes b
  rw [revBits_zero] at h2
  exact ⟨o, h1, h2.isValid, FQ.Rep.int_eq (by push_cast; exact h2)⟩

/-- `HashFQ` therefore is the digest with its bits in reverse order, modulo q. -/
theorem C44_hashFQ_actual (d : List UInt8) :
    ∃ o, FQ.hashFQ d = some o ∧ o.isValid ∧
      o.int = bitReversed (8 * d.length) (Nat.ofDigits 256 (d.map UInt8.toNat)) % q := by
  obtain ⟨o, h1, h2, h3⟩ := C44_fq_mulBytes_actual FQ.one (by decide +kernel) d
  exact ⟨o, h1, h2, by rw [h3, show FQ.one.int = 1 by decide +kernel, mul_one]⟩

/-- The claim "`MulBits(b)` multiplies by `b`" is false of the code: one times two gives one. -/
theorem C44_fq_mulBits_false : ¬ ∀ (a : FQ) (b : FQRepr), a.isValid →
    ∃ o, a.mulBits b = some o ∧ o.int = (b.toNat * a.int) % q := by
  intro h
  obtain ⟨o, h1, h2⟩ := h FQ.one (.new 2) (by decide +kernel)
  have h3 : FQ.one.mulBits (.new 2) = some FQ.one := by decide +kernel
  rw [h3, Option.some.injEq] at h1
  subst h1
  revert h2
  rw [q]
  decide +kernel

/-- Likewise for `MulBytes`: one times the byte string `01` gives 128. -/
theorem C44_fq_mulBytes_false : ¬ ∀ (a : FQ) (b : List UInt8), a.isValid →
    ∃ o, a.mulBytes b = some o ∧ o.int = (beNat b * a.int) % q := by
  intro h
  obtain ⟨o, h1, h2⟩ := h FQ.one [1] (by decide +kernel)
  have h3 : (FQ.one.mulBytes [1]).map FQ.int = some 128 := by decide +kernel
  rw [h1, Option.map_some, Option.some.injEq] at h3
  rw [h3] at h2
  revert h2
  rw [q]
  decide +kernel

/-- `MulBits` never panics and multiplies by the number whose binary digits are those of `b`
*reversed*. -/
theorem C44_fr_mulBits_actual (a : FR) (ha : a.isValid) (b : FRRepr) :
    ∃ o, a.mulBits b = some o ∧ o.isValid ∧
      o.int = (bitReversed b.toNat.size b.toNat * a.int) % r := by
  obtain ⟨o, h1, h2⟩ := (FR.rep_int ha).mulBits b
  rw [revBits_zero, size_eq] at h2
  exact ⟨o, h1, h2.isValid, FR.Rep.int_eq (by push_cast; exact h2)⟩

/-- `MulBytes` never panics; the bits are consumed lowest bit of the first byte first, so it
multiplies by the number with those digits, most significant first. -/
theorem C44_fr_mulBytes_actual (a : FR) (ha : a.isValid) (b : List UInt8) :
    ∃ o, a.mulBytes b = some o ∧ o.isValid ∧
      o.int = (bitReversed (8 * b.length) (Nat.ofDigits 256 (b.map UInt8.toNat)) * a.int) % r := by
  obtain ⟨o, h1, h2⟩ := (FR.rep_int ha).mulBytes b
  rw [revBits_zero] at h2
  exact ⟨o, h1, h2.isValid, FR.Rep.int_eq (by push_cast; exact h2)⟩

/-- `HashFR` therefore is the digest with its bits in reverse order, modulo r. -/
theorem C44_hashFR_actual (d : List UInt8) :
    ∃ o, FR.hashFR d = some o ∧ o.isValid ∧
      o.int = bitReversed (8 * d.length) (Nat.ofDigits 256 (d.map UInt8.toNat)) % r := by
  obtain ⟨o, h1, h2, h3⟩ := C44_fr_mulBytes_actual FR.one (by decide +kernel) d
  exact ⟨o, h1, h2, by rw [h3, show FR.one.int = 1 by decide +kernel, mul_one]⟩

/-- The claim "`MulBits(b)` multiplies by `b`" is false of the code: one times two gives one. -/
theorem C44_fr_mulBits_false : ¬ ∀ (a : FR) (b : FRRepr), a.isValid →
    ∃ o, a.mulBits b = some o ∧ o.int = (b.toNat * a.int) % r := by
  intro h
  obtain ⟨o, h1, h2⟩ := h FR.one (.new 2) (by decide +kernel)
  have h3 : FR.one.mulBits (.new 2) = some FR.one := by decide +kernel
  rw [h3, Option.some.injEq] at h1
  subst h1
  revert h2
  rw [r]
  decide +kernel

/-- Likewise for `MulBytes`: one times the byte string `01` gives 128. -/
theorem C44_fr_mulBytes_false : ¬ ∀ (a : FR) (b : List UInt8), a.isValid →
    ∃ o, a.mulBytes b = some o ∧ o.int = (beNat b * a.int) % r := by
  intro h
  obtain ⟨o, h1, h2⟩ := h FR.one [1] (by decide +kernel)
  have h3 : (FR.one.mulBytes [1]).map FR.int = some 128 := by decide +kernel
  rw [h1, Option.map_some, Option.some.injEq] at h3
  rw [h3] at h2
  revert h2
  rw [r]
  decide +kernel

end Bls.Props
