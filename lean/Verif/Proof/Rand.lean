import Verif.Model.Rand
import Verif.Proof.Denote
import Verif.Proof.Encode
import Verif.Proof.ClearOrder
import Verif.Spec.Keys
/-
Random generation.
-/
set_option exponentiation.threshold 1000
namespace Bls
open Chain

theorem FQ.rand_spec {z : ℤ} (h0 : 0 ≤ z) (h : z < q) :
    ∃ f, FQ.rand (some z) = some (some f) ∧ f.Rep ((z.toNat : ℕ) : Fq) ∧ f.int = z.toNat := by
  have hq : q < 2 ^ 384 := by rw [q_eq]; decide +kernel
  have hz : z.toNat < q := by omega
  unfold FQ.rand
  dsimp only
  rw [FQRepr.fromBigInt_spec, if_pos ⟨h0, by omega⟩]
  have e := FQRepr.ofNat_toNat (n := z.toNat) (by omega)
  have hr := FQ.ofRepr_rep (o := FQRepr.ofNat z.toNat) (by rw [e]; exact hz)
  rw [e] at hr
  exact ⟨_, rfl, hr, by rw [hr.int_eq, Nat.mod_eq_of_lt hz]⟩

theorem FQ2.rand_spec {z w : ℤ} (h0 : 0 ≤ z) (h : z < q) (h0' : 0 ≤ w) (h' : w < q) :
    ∃ f, FQ2.rand (some z) (some w) = some (some f) ∧ f.Rep ⟨((z.toNat : ℕ) : Fq), ((w.toNat : ℕ) : Fq)⟩ ∧
      f.c0.int = z.toNat ∧ f.c1.int = w.toNat := by
  obtain ⟨a, a1, a2, a3⟩ := FQ.rand_spec h0 h
  obtain ⟨b, b1, b2, b3⟩ := FQ.rand_spec h0' h'
  refine ⟨⟨a, b⟩, ?_, ⟨a2, b2⟩, a3, b3⟩
  rw [FQ2.rand, a1, b1]

theorem FR.rand_spec {z : ℤ} (h0 : 0 ≤ z) (h : z < r) :
    ∃ f, FR.rand (some z) = some (some (some f)) ∧ f.isValid = true ∧ f.int = z.toNat := by
  have hq : r < 2 ^ 256 := by rw [r_eq]; decide +kernel
  have hz : z.toNat < r := by omega
  unfold FR.rand
  dsimp only
  rw [FRRepr.fromBigInt_spec, if_pos ⟨h0, by omega⟩]
  have e := FRRepr.ofNat_toNat (n := z.toNat) (by omega)
  obtain ⟨a, h1, h2⟩ := FR.ofRepr?_lt (o := FRRepr.ofNat z.toNat) (by rw [e]; exact hz)
  rw [e] at h2
  exact ⟨a, by rw [← h1], h2.isValid, by rw [h2.int_eq, Nat.mod_eq_of_lt hz]⟩

theorem G1Affine.cofactor_eq : G1Affine.cofactor.toNat = h1 := by rw [h1]; congr 1

theorem E1.three {P : E1} {y : Fq} (h : IsAt P 0 y) : 3 • P = 0 := by
  have on := h.on
  have hy : y ≠ 0 := by
    rintro rfl
    have h4 : ((4 : ℕ) : Fq) = 0 := by push_cast; linear_combination -on
    exact absurd ((ZMod.natCast_eq_zero_iff 4 q).mp h4) (by rw [q_eq]; decide +kernel)
  have h2 : y + y ≠ 0 := by
    intro e
    have h2 : ((2 : ℕ) : Fq) ≠ 0 := fun e => absurd ((ZMod.natCast_eq_zero_iff 2 q).mp e) (by rw [q_eq]; decide +kernel)
    have : ((2 : ℕ) : Fq) * y = 0 := by push_cast; linear_combination e
    rcases mul_eq_zero.mp this with e | e
    · exact h2 e
    · exact hy e
  have h3 := h.add_self (l := 0) h (x₃ := 0) (y₃ := -y) (by rw [two_mul]; exact h2) (by ring) (by ring) (by ring)
  have e := h3.inj h.neg
  rw [show 3 • P = (P + P) + P by abel, e, neg_add_cancel]

/-- The point of order 13 on E2 used in the proof of the group order. -/
theorem E2.thirteen {P : E2} {y : Fq2} (h : IsAt P b13x.toF y) : 13 • P = 0 := by
  have on := on2 (x := b13x) (y := b13y) (by decide +kernel)
  have hP := pt_isAt on
  generalize pt _ _ on = Q at hP
  have hl := order2 hP b13_run (l := 13) (by decide +kernel) rfl
  have e : y ^ 2 = b13y.toF ^ 2 := by rw [h.on, hP.on]
  rcases sq_eq_sq_iff_eq_or_eq_neg.mp e with rfl | rfl
  · rw [h.inj hP, hl]
  · rw [h.inj hP.neg, neg_nsmul, hl, neg_zero]

theorem randG1Step_spec (b : UInt8) {z : ℤ} (h0 : 0 ≤ z) (h : z < q) :
    ∃ o, randG1Step (some b) (some z) = .ok o ∧
      (∀ p, o = some p → ∃ (P : E1) (y : Fq), IsAt P ((z.toNat : ℕ) : Fq) y ∧ p.Rep (h1 • P)) ∧
      (IsSquare (((z.toNat : ℕ) : Fq) ^ 3 + 4) → o ≠ none) := by
  obtain ⟨f, e, hf, _⟩ := FQ.rand_spec h0 h
  rw [randG1Step]
  rw [e]
  dsimp only
  generalize hg : G1Affine.getPointFromX f _ = g
  cases g with
  | none =>
    refine ⟨none, rfl, fun p h => (by cases h), fun hs => absurd hs ?_⟩
    exact (G1Affine.getPointFromX_none hf _).mp hg
  | some a =>
    obtain ⟨e1, e2, y, hy, on, _⟩ := G1Affine.getPointFromX_some hf hg
    have hat := pt_isAt on
    have hr : a.Rep (pt _ _ on) := Or.inr ⟨e2, _, y, e1 ▸ hf, hy, hat⟩
    have hz : a.isZero = false := e2
    rw [Option.bind_some, hz, if_pos (by decide)]
    refine ⟨_, rfl, fun p h => ?_, fun _ => Option.some_ne_none _⟩
    obtain rfl := Option.some.inj h
    have hm := hr.mul G1Affine.cofactor
    rw [G1Affine.cofactor_eq] at hm
    exact ⟨_, y, hat, hm⟩

theorem randG2Step_spec (b : UInt8) {z w : ℤ} (h0 : 0 ≤ z) (h : z < q) (h0' : 0 ≤ w) (h' : w < q) :
    ∃ o, randG2Step (some b) (some z) (some w) = .ok o ∧
      (∀ p, o = some p → ∃ (P : E2) (y : Fq2), IsAt P ⟨((z.toNat : ℕ) : Fq), ((w.toNat : ℕ) : Fq)⟩ y ∧
        p.Rep (h2 • P)) ∧
      (IsSquare ((⟨((z.toNat : ℕ) : Fq), ((w.toNat : ℕ) : Fq)⟩ : Fq2) ^ 3 + b2) → o ≠ none) := by
  obtain ⟨f, e, hf, _⟩ := FQ2.rand_spec h0 h h0' h'
  rw [randG2Step]
  rw [e]
  dsimp only
  generalize hg : G2Affine.getPointFromX f _ = g
  cases g with
  | none =>
    refine ⟨none, rfl, fun p h => (by cases h), fun hs => absurd hs ?_⟩
    exact (G2Affine.getPointFromX_none hf _).mp hg
  | some a =>
    obtain ⟨e1, e2, y, hy, on, _⟩ := G2Affine.getPointFromX_some hf hg
    have hat := pt_isAt on
    have hr : a.Rep (pt _ _ on) := Or.inr ⟨e2, _, y, e1 ▸ hf, hy, hat⟩
    have hz : a.isZero = false := e2
    rw [Option.bind_some, hz, if_pos (by decide)]
    refine ⟨_, rfl, fun p h => ?_, fun _ => Option.some_ne_none _⟩
    obtain rfl := Option.some.inj h
    have hm := hr.mulBig G2Affine.cofactor
    have e : G2Affine.cofactor = h2 := by rw [h2]; unfold G2Affine.cofactor; decide +kernel
    rw [e] at hm
    refine ⟨_, y, hat, ?_⟩
    unfold G2Affine.scaleByCofactor
    rw [e]
    exact hm

end Bls
