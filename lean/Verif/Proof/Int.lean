import Verif.Spec.Denote
import Verif.Proof.MulBits

/-
`Rep` in terms of the integers of Verif/Spec/Denote.lean.
-/
namespace Bls


theorem FQ.Rep.int {a : FQ} {x : Fq} (h : a.Rep x) : a.int = x.val := h.toRepr
theorem FQ.Rep.int_lt {a : FQ} {x : Fq} (h : a.Rep x) : a.int < q := by rw [h.int]; exact ZMod.val_lt x
theorem FQ.Rep.isValid {a : FQ} {x : Fq} (h : a.Rep x) : a.isValid = true := FQ.isValid_iff.mpr h.1
theorem FQ.rep_val {a : FQ} (h : a.isValid = true) : a.Rep a.val := (FQ.isValid_iff.mp h).rep
theorem FQ.rep_int {a : FQ} (h : a.isValid = true) : a.Rep (a.int : Fq) := by
  have := FQ.rep_val h
  rwa [this.int, ZMod.natCast_zmod_val]
theorem FQ.Rep.int_eq {a : FQ} {m : ℕ} (h : a.Rep (m : Fq)) : a.int = m % q := by
  rw [h.int, ZMod.val_natCast]
theorem FQ.Rep.int_eq_int {a : FQ} {m : ℤ} (h : a.Rep (m : Fq)) : (a.int : ℤ) = m % q := by
  rw [h.int, ZMod.val_intCast]

theorem FR.Rep.int {a : FR} {x : Fr} (h : a.Rep x) : a.int = x.val := h.toRepr
theorem FR.Rep.int_lt {a : FR} {x : Fr} (h : a.Rep x) : a.int < r := by rw [h.int]; exact ZMod.val_lt x
theorem FR.Rep.isValid {a : FR} {x : Fr} (h : a.Rep x) : a.isValid = true := FR.isValid_iff.mpr h.1
theorem FR.rep_val {a : FR} (h : a.isValid = true) : a.Rep a.val := (FR.isValid_iff.mp h).rep
theorem FR.rep_int {a : FR} (h : a.isValid = true) : a.Rep (a.int : Fr) := by
  have := FR.rep_val h
  rwa [this.int, ZMod.natCast_zmod_val]
theorem FR.Rep.int_eq {a : FR} {m : ℕ} (h : a.Rep (m : Fr)) : a.int = m % r := by
  rw [h.int, ZMod.val_natCast]
theorem FR.Rep.int_eq_int {a : FR} {m : ℤ} (h : a.Rep (m : Fr)) : (a.int : ℤ) = m % r := by
  rw [h.int, ZMod.val_intCast]

end Bls
