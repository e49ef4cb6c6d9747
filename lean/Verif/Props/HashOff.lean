import Verif.Proof.CollideCases
import Verif.Proof.CollideEqual
import Verif.Props.Constants
import Verif.Props.Hash
/-
C63: where HashG1 and HashG2 leave the curve. C40 and C41 exclude two mapped points with the same x-coordinate, and on
G1 a sum in the kernel of the isogeny. Here is what the code returns then. `sha` is an arbitrary function from byte
strings to byte strings, the rest of the vocabulary is that of C40 and C41 (Verif/Spec/Hash.lean).
-/
set_option exponentiation.threshold 1000
namespace Bls.Props
open Collide

theorem no_point_g1 {g : G1Affine} (h : g.isOnCurve = false) (P : E1) : ¬ g.Denotes P := fun hd => by
  have := (G1Affine.denotes_iff.mp hd).isOnCurve
  rw [h] at this
  exact absurd this (by decide)

theorem no_point_g2 {g : G2Affine} (h : g.isOnCurve = false) (P : E2) : ¬ g.Denotes P := fun hd => by
  have := (G2Affine.denotes_iff.mp hd).isOnCurve
  rw [h] at this
  exact absurd this (by decide)

theorem cast_opp {a b : ℕ} (h : (a + b) % q = 0) : (b : Fq) = -(a : Fq) := by
  have := (ZMod.natCast_eq_zero_iff _ q).mpr (Nat.dvd_of_mod_eq_zero h)
  rw [Nat.cast_add] at this
  linear_combination this

/-! ## C63: HashG1 -/

/-- One value, with coordinates off the curve, is the hash of every message whose two mapped points are opposite. They
are whenever the two field elements add up to 0 and are not 0. -/
theorem C63_opposite_g1 : ∃ g : G1Affine, g.isOnCurve = false ∧ (∀ P : E1, ¬ g.Denotes P) ∧
    (∀ (sha : List UInt8 → List UInt8) (msg : List UInt8) (P Q : E1'.Point),
      Swu1 (hashToField sha (1 :: msg) 0 1 : Fq) P → Swu1 (hashToField sha (1 :: msg) 1 1 : Fq) Q → P = -Q →
      hashG1 sha msg = some g) ∧
    (∀ (sha : List UInt8 → List UInt8) (msg : List UInt8),
      (hashToField sha (1 :: msg) 0 1 + hashToField sha (1 :: msg) 1 1) % q = 0 →
      hashToField sha (1 :: msg) 0 1 % q ≠ 0 → hashG1 sha msg = some g) := by
  refine ⟨clearH (iso11 G1Affine.zero), oC_off, no_point_g1 oC_off,
    fun sha msg P Q hP hQ h => hashG1_opposite hP hQ h, fun sha msg h h0 => ?_⟩
  obtain ⟨P, hP, _⟩ := Swu1.exists_unique (hashToField sha (1 :: msg) 0 1 : Fq)
  obtain ⟨Q, hQ, _⟩ := Swu1.exists_unique (hashToField sha (1 :: msg) 1 1 : Fq)
  refine hashG1_opposite hP hQ (swu1_neg (cast_opp h) ?_ hP hQ)
  exact fun e => h0 (Nat.mod_eq_zero_of_dvd ((ZMod.natCast_eq_zero_iff _ q).mp e))

/-- The hypotheses are met: the field elements 1 and q - 1. -/
example (msg : List UInt8) : (hashToField shaOpp (1 :: msg) 0 1 + hashToField shaOpp (1 :: msg) 1 1) % q = 0 ∧
    hashToField shaOpp (1 :: msg) 0 1 % q ≠ 0 := by
  obtain ⟨h1, h2, _, _⟩ := shaOpp_field (1 :: msg)
  rw [h1, h2, q_eq]
  decide +kernel

/-- If the sum of the two mapped points is in the kernel of the isogeny, `HashG1` returns the pair (0, 0), which is not
on the curve. (The group law gives the point at infinity.) -/
theorem C63_kernel_g1 (sha : List UInt8 → List UInt8) (msg : List UInt8) (P Q : E1'.Point)
    (hP : Swu1 (hashToField sha (1 :: msg) 0 1 : Fq) P) (hQ : Swu1 (hashToField sha (1 :: msg) 1 1 : Fq) Q)
    (hne : P ≠ Q) (x y : Fq) (hS : SwAt (P + Q) x y) (hd : polyAt iso11Map.xDen x = 0) :
    ∃ g, hashG1 sha msg = some g ∧ g.infinity = false ∧ (g.x.int : Fq) = 0 ∧ (g.y.int : Fq) = 0 ∧
      g.isOnCurve = false := by
  obtain ⟨g, hg, hi, hx, hy⟩ := hashG1_kernel hP hQ hne hS hd
  refine ⟨g, hg, hi, cast_int hx, cast_int hy, ?_⟩
  rw [Bool.eq_false_iff, Ne, G1Affine.isOnCurve_iff hx hy hi]
  intro e
  have h4 : ((4 : ℕ) : Fq) = 0 := by push_cast; linear_combination -e
  rw [ZMod.natCast_eq_zero_iff, q_eq] at h4
  exact absurd (Nat.le_of_dvd (by norm_num) h4) (by decide +kernel)

/-- The hypotheses are met. -/
example (msg : List UInt8) : ∃ (P Q : E1'.Point) (x y : Fq),
    Swu1 (hashToField shaKer (1 :: msg) 0 1 : Fq) P ∧ Swu1 (hashToField shaKer (1 :: msg) 1 1 : Fq) Q ∧ P ≠ Q ∧
    SwAt (P + Q) x y ∧ polyAt iso11Map.xDen x = 0 := case_kernel msg

/-- The mapped points can be equal, with a hash off the curve: `AddAffine` then doubles by formulas that hold on E1 and
not on E1'. Here both field elements are 0. -/
theorem C63_zero_g1 (sha : List UInt8 → List UInt8) (msg : List UInt8)
    (h1 : hashToField sha (1 :: msg) 0 1 = 0) (h2 : hashToField sha (1 :: msg) 1 1 = 0) :
    ∃ g, hashG1 sha msg = some g ∧ g.isOnCurve = false ∧ ∀ P : E1, ¬ g.Denotes P := by
  obtain ⟨g, hg, h⟩ := hashG1_equal h1 h2
  exact ⟨g, hg, h, no_point_g1 h⟩

/-- The hypotheses are met by a constant hash function. -/
example (msg : List UInt8) : hashToField (fun _ => List.replicate 32 0) (1 :: msg) 0 1 = 0 ∧
    hashToField (fun _ => List.replicate 32 0) (1 :: msg) 1 1 = 0 := by
  unfold hashToField; dsimp only; decide

/-- Whenever the mapped points are equal, the hash is infinity or off the curve. -/
theorem C63_equal_g1 (sha : List UInt8 → List UInt8) (msg : List UInt8) (P : E1'.Point)
    (hP : Swu1 (hashToField sha (1 :: msg) 0 1 : Fq) P) (hQ : Swu1 (hashToField sha (1 :: msg) 1 1 : Fq) P) :
    ∃ g, hashG1 sha msg = some g ∧ (g = G1Affine.zero ∨ (g.isOnCurve = false ∧ ∀ R : E1, ¬ g.Denotes R)) := by
  obtain ⟨g, hg, h⟩ := hashG1_same_off hP hQ
  refine ⟨g, hg, ?_⟩
  by_cases h0 : g = G1Affine.zero
  · exact Or.inl h0
  · have : g.isOnCurve = false := by rw [Bool.eq_false_iff]; exact fun e => h0 (h.mp e)
    exact Or.inr ⟨this, no_point_g1 this⟩

/-- The hypotheses are met whenever the field elements are equal, for example by a constant hash function. -/
example (sha : List UInt8 → List UInt8) (msg : List UInt8)
    (h : hashToField sha (1 :: msg) 0 1 = hashToField sha (1 :: msg) 1 1) : ∃ P : E1'.Point,
    Swu1 (hashToField sha (1 :: msg) 0 1 : Fq) P ∧ Swu1 (hashToField sha (1 :: msg) 1 1 : Fq) P := by
  obtain ⟨P, hP, _⟩ := Swu1.exists_unique (hashToField sha (1 :: msg) 0 1 : Fq)
  exact ⟨P, hP, h ▸ hP⟩

/-- All cases: a hash other than infinity is on the curve exactly if the mapped points are neither equal nor opposite and
their sum is not in the kernel of the isogeny. `C40_hashG1` says what it is then. -/
theorem C63_iff_g1 (sha : List UInt8 → List UInt8) (msg : List UInt8) (P Q : E1'.Point)
    (hP : Swu1 (hashToField sha (1 :: msg) 0 1 : Fq) P) (hQ : Swu1 (hashToField sha (1 :: msg) 1 1 : Fq) Q) :
    ∃ g, hashG1 sha msg = some g ∧ (g ≠ G1Affine.zero →
      (g.isOnCurve = true ↔ P ≠ Q ∧ P ≠ -Q ∧ ∃ R : E1, iso11Map.Maps (P + Q) R)) := by
  by_cases h1 : P = Q
  · subst h1
    obtain ⟨g, hg, h⟩ := hashG1_same_off hP hQ
    exact ⟨g, hg, fun h0 => iff_of_false (fun e => h0 (h.mp e)) fun e => e.1 rfl⟩
  by_cases h2 : P = -Q
  · refine ⟨_, hashG1_opposite hP hQ h2, fun _ => iff_of_false ?_ fun e => e.2.1 h2⟩
    rw [oC_off]
    exact Bool.false_ne_true
  by_cases h3 : ∃ R : E1, iso11Map.Maps (P + Q) R
  · obtain ⟨R, hR⟩ := h3
    obtain ⟨g, hg, hr⟩ := hashG1_spec sha msg hP hQ h1 h2 hR
    exact ⟨g, hg, fun _ => iff_of_true hr.isOnCurve ⟨h1, h2, R, hR⟩⟩
  · obtain ⟨x, y, hS⟩ : ∃ x y, SwAt (P + Q) x y := by
      cases hc : P + Q with
      | zero => exact absurd (add_eq_zero_iff_eq_neg.mp hc) h2
      | some x y h => exact ⟨x, y, h, rfl⟩
    have hd : polyAt iso11Map.xDen x = 0 := by
      by_contra hd
      exact h3 (C40_isogeny hS hd)
    obtain ⟨g, hg, _, _, _, h⟩ := C63_kernel_g1 sha msg P Q hP hQ h1 x y hS hd
    refine ⟨g, hg, fun _ => iff_of_false ?_ fun e => h3 e.2.2⟩
    rw [h]
    exact Bool.false_ne_true

/-- So it is not the case that `HashG1` returns a point of the curve whatever the hash function, not even one with
values of 32 bytes. -/
theorem C63_not_always_g1 : ¬ ∀ sha : List UInt8 → List UInt8, (∀ b, (sha b).length = 32) →
    ∀ msg, ∃ g, hashG1 sha msg = some g ∧ g.isOnCurve = true := by
  intro h
  obtain ⟨g, hg, hc⟩ := h (fun _ => List.replicate 32 0) (fun _ => List.length_replicate) []
  obtain ⟨g', hg', hc', _⟩ := C63_zero_g1 (fun _ => List.replicate 32 0) [] (by unfold hashToField; decide)
    (by unfold hashToField; decide)
  rw [hg, Option.some_inj] at hg'
  rw [← hg', hc] at hc'
  exact absurd hc' (by decide)

/-! ## C63: HashG2 -/

/-- One value, with coordinates off the curve, is the hash of every message whose two mapped points are opposite. They
are whenever the two field elements add up to 0 and are not 0. -/
theorem C63_opposite_g2 : ∃ g : G2Affine, g.isOnCurve = false ∧ (∀ P : E2, ¬ g.Denotes P) ∧
    (∀ (sha : List UInt8 → List UInt8) (msg : List UInt8) (P Q : E2'.Point),
      Swu2 ⟨(hashToField sha (1 :: msg) 0 1 : Fq), (hashToField sha (1 :: msg) 0 2 : Fq)⟩ P →
      Swu2 ⟨(hashToField sha (1 :: msg) 1 1 : Fq), (hashToField sha (1 :: msg) 1 2 : Fq)⟩ Q → P = -Q →
      hashG2 sha msg = some g) ∧
    (∀ (sha : List UInt8 → List UInt8) (msg : List UInt8),
      (hashToField sha (1 :: msg) 0 1 + hashToField sha (1 :: msg) 1 1) % q = 0 →
      (hashToField sha (1 :: msg) 0 2 + hashToField sha (1 :: msg) 1 2) % q = 0 →
      ¬ (hashToField sha (1 :: msg) 0 1 % q = 0 ∧ hashToField sha (1 :: msg) 0 2 % q = 0) →
      hashG2 sha msg = some g) := by
  refine ⟨clearH2 (iso3 G2Affine.zero), oC2_off, no_point_g2 oC2_off,
    fun sha msg P Q hP hQ h => hashG2_opposite hP hQ h, fun sha msg h h' h0 => ?_⟩
  obtain ⟨P, hP, _⟩ := Swu2.exists_unique
    ⟨(hashToField sha (1 :: msg) 0 1 : Fq), (hashToField sha (1 :: msg) 0 2 : Fq)⟩
  obtain ⟨Q, hQ, _⟩ := Swu2.exists_unique
    ⟨(hashToField sha (1 :: msg) 1 1 : Fq), (hashToField sha (1 :: msg) 1 2 : Fq)⟩
  refine hashG2_opposite hP hQ (swu2_neg ?_ ?_ hP hQ)
  · rw [cast_opp h, cast_opp h']; rfl
  · intro e
    have e1 := congrArg Fq2.c0 e
    have e2 := congrArg Fq2.c1 e
    exact h0 ⟨Nat.mod_eq_zero_of_dvd ((ZMod.natCast_eq_zero_iff _ q).mp e1),
      Nat.mod_eq_zero_of_dvd ((ZMod.natCast_eq_zero_iff _ q).mp e2)⟩

/-- The hypotheses are met: the field elements 1 and -1. -/
example (msg : List UInt8) : (hashToField shaOpp (1 :: msg) 0 1 + hashToField shaOpp (1 :: msg) 1 1) % q = 0 ∧
    (hashToField shaOpp (1 :: msg) 0 2 + hashToField shaOpp (1 :: msg) 1 2) % q = 0 ∧
    ¬ (hashToField shaOpp (1 :: msg) 0 1 % q = 0 ∧ hashToField shaOpp (1 :: msg) 0 2 % q = 0) := by
  obtain ⟨h1, h2, h3, h4⟩ := shaOpp_field (1 :: msg)
  rw [h1, h2, h3, h4, q_eq]
  decide +kernel

/-- The mapped points can be equal, with a hash off the curve. Here both field elements are 0. -/
theorem C63_zero_g2 (sha : List UInt8 → List UInt8) (msg : List UInt8)
    (h1 : hashToField sha (1 :: msg) 0 1 = 0) (h2 : hashToField sha (1 :: msg) 1 1 = 0)
    (h3 : hashToField sha (1 :: msg) 0 2 = 0) (h4 : hashToField sha (1 :: msg) 1 2 = 0) :
    ∃ g, hashG2 sha msg = some g ∧ g.isOnCurve = false ∧ ∀ P : E2, ¬ g.Denotes P := by
  obtain ⟨g, hg, h⟩ := hashG2_equal h1 h2 h3 h4
  exact ⟨g, hg, h, no_point_g2 h⟩

/-- The hypotheses are met by a constant hash function. -/
example (msg : List UInt8) : hashToField (fun _ => List.replicate 32 0) (1 :: msg) 0 1 = 0 ∧
    hashToField (fun _ => List.replicate 32 0) (1 :: msg) 1 1 = 0 ∧
    hashToField (fun _ => List.replicate 32 0) (1 :: msg) 0 2 = 0 ∧
    hashToField (fun _ => List.replicate 32 0) (1 :: msg) 1 2 = 0 := by
  unfold hashToField; dsimp only; decide

/-- So it is not the case that `HashG2` returns a point of the curve whatever the hash function, not even one with
values of 32 bytes. -/
theorem C63_not_always_g2 : ¬ ∀ sha : List UInt8 → List UInt8, (∀ b, (sha b).length = 32) →
    ∀ msg, ∃ g, hashG2 sha msg = some g ∧ g.isOnCurve = true := by
  intro h
  obtain ⟨g, hg, hc⟩ := h (fun _ => List.replicate 32 0) (fun _ => List.length_replicate) []
  obtain ⟨g', hg', hc', _⟩ := C63_zero_g2 (fun _ => List.replicate 32 0) [] (by unfold hashToField; decide)
    (by unfold hashToField; decide) (by unfold hashToField; decide) (by unfold hashToField; decide)
  rw [hg, Option.some_inj] at hg'
  rw [← hg', hc] at hc'
  exact absurd hc' (by decide)

end Bls.Props
