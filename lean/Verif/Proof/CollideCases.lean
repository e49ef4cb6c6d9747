import Verif.Proof.Collide2
/-
Hash functions for which the mapped points collide.
-/
set_option exponentiation.threshold 1000
set_option maxRecDepth 4000
namespace Bls.Collide
open Cases

/-! The map is odd -/

section
variable {F : Type*} [Field F] {A B ξ : F} {neg : F → Prop}

theorem swuX0_neg (t : F) : swuX0 A B ξ (-t) = swuX0 A B ξ t := by
  unfold swuX0
  rw [show (-t) ^ 4 = t ^ 4 by ring, show (-t) ^ 2 = t ^ 2 by ring]

theorem swuX_neg (t : F) : swuX A B ξ (-t) = swuX A B ξ t := by
  unfold swuX
  rw [swuX0_neg, show (-t) ^ 2 = t ^ 2 by ring]

/-- Opposite field elements other than 0 have opposite images. -/
theorem swuAt_neg (hn : ∀ y, y ≠ 0 → (neg (-y) ↔ ¬ neg y)) {t x y : F} (h : SwuAt A B ξ neg t x y) (h0 : t ≠ 0) :
    SwuAt A B ξ neg (-t) x (-y) := by
  refine ⟨h.x_eq.trans (swuX_neg t).symm, by rw [neg_sq]; exact h.on, fun hy => ?_⟩
  have hy : y ≠ 0 := fun e => hy (by rw [e, neg_zero])
  rw [hn _ hy, hn _ h0, h.sign hy]

end

theorem swu1_neg {t s : Fq} {P Q : E1'.Point} (h : s = -t) (h0 : t ≠ 0) (hP : Swu1 t P) (hQ : Swu1 s Q) : P = -Q := by
  obtain ⟨x, y, hP, h1⟩ := hP
  obtain ⟨x', y', hQ, h2⟩ := hQ
  rw [h] at h2
  obtain ⟨rfl, rfl⟩ := h2.unique (fun y hy => Fq.isNeg_neg hy) (swuAt_neg (fun y hy => Fq.isNeg_neg hy) h1 h0)
  have := hQ.neg
  rw [neg_neg] at this
  exact hP.inj this

theorem swu2_neg {t s : Fq2} {P Q : E2'.Point} (h : s = -t) (h0 : t ≠ 0) (hP : Swu2 t P) (hQ : Swu2 s Q) : P = -Q := by
  obtain ⟨x, y, hP, h1⟩ := hP
  obtain ⟨x', y', hQ, h2⟩ := hQ
  rw [h] at h2
  obtain ⟨rfl, rfl⟩ := h2.unique (fun y hy => Fq2.isNeg_neg hy) (swuAt_neg (fun y hy => Fq2.isNeg_neg hy) h1 h0)
  have := hQ.neg
  rw [neg_neg] at this
  exact hP.inj this

/-! A hash function with opposite field elements: 1 and q - 1 -/

def shaOpp (b : List UInt8) : List UInt8 :=
  if b.drop (b.length - 3) = [0, 1, 2] then [1]
  else if b.drop (b.length - 3) = [1, 1, 2] then
    [26, 1, 17, 234, 57, 127, 230, 154, 75, 27, 167, 182, 67, 75, 172, 215, 100, 119, 75, 132, 243, 133, 18, 191, 103, 48, 210, 160, 246, 176, 246, 36, 30, 171, 255, 254, 177, 83, 255, 255, 185, 254, 255, 255, 255, 255, 170, 170]
  else []

theorem shaOpp_field (msg : List UInt8) : hashToField shaOpp msg 0 1 = 1 ∧ hashToField shaOpp msg 1 1 = qLit - 1 ∧
    hashToField shaOpp msg 0 2 = 0 ∧ hashToField shaOpp msg 1 2 = 0 := by
  refine ⟨?_, ?_, ?_, ?_⟩ <;> simp [hashToField, shaOpp, os2ip] <;> decide +kernel

theorem cast_qsub : ((qLit - 1 : ℕ) : Fq) = -1 := by
  have := cast_eq (a := (qLit - 1) + 1) (b := 0) (by decide +kernel)
  rw [Nat.cast_add, Nat.cast_zero, Nat.cast_one] at this
  linear_combination this

/-! A hash function whose mapped points add up to a point of the kernel -/

def kT : ℕ := 0x4e96318dd510e8acafc1141e272189206030e2c34a00e313d36f978537b085e009220926e3ef655bba929cc9bf57cf7
def kX2 : ℕ := 0x142241db8480075a7eaddee496bb404771dc4a9ba7f0f8bcbd8427d66aace6ef7a6ea335e6fc0b22f56301d86e365971
def kY2 : ℕ := 0x6672db8d8617c6e07db0357f3bc01d2bbc76f007f8a0271df4f22b3c577efc1af86d2518e754cc598fcc890e7a8959
def kL : ℕ := 0x7aaecc30a6675826c48efb893e058d725855c517a7421d697f631cfbed583fe55049d0ce1c69edc3dd0fcc8a8e65345
def kX3 : ℕ := 0x1665a9c648e78314490a94f654d9b1039ab85847223bfaed9aa54f0f07736d122d1ceca1ac0e9123e753fde16e97c3d7
def kY3 : ℕ := 0x209f905ca78f41caa785024278ad0c8fcfac9fb6742de8684d972c14045cdd04a93a072eaf883a50b3c6484c456d56c
/-- `t⁴ - t²`. -/
def kN : ℕ := 0x18924bda2e23d204a49d9e19666868c5941001e14073b33e7580f92938abc073395b748e0e7cc357ad35c31e8b2f0c97

theorem swu1_k : SwuAt (swuA1 : Fq) swuB1 (-1) Fq.IsNeg (kT : Fq) kX2 kY2 := by
  refine swuAt1 ?_ (by unfold swuA1 swuB1; decide +kernel) (by decide +kernel) (by decide +kernel)
  have h := cast_eq (a := kX2 * (swuA1 * kN) + swuB1 * (kN + 1)) (b := 0) (by unfold swuA1 swuB1; decide +kernel)
  have hN := cast_eq (a := kN + kT ^ 2) (b := kT ^ 4) (by decide +kernel)
  have hA := swu1_A_ne
  have h0 : (kN : Fq) ≠ 0 := nz1 (by decide +kernel)
  rw [Nat.cast_add, Nat.cast_pow, Nat.cast_pow] at hN
  rw [Nat.cast_add, Nat.cast_mul, Nat.cast_mul, Nat.cast_mul, Nat.cast_add, Nat.cast_zero, Nat.cast_one] at h
  generalize (swuA1 : Fq) = A at *
  generalize (swuB1 : Fq) = B at *
  generalize (kX2 : Fq) = x at *
  generalize (kT : Fq) = t at *
  generalize (kN : Fq) = n at *
  have e : (-1 : Fq) ^ 2 * t ^ 4 + -1 * t ^ 2 = n := by linear_combination -hN
  rw [swuX0, if_neg (by rw [e]; exact h0), e]
  field_simp
  linear_combination -h

def shaKer (b : List UInt8) : List UInt8 :=
  if b.drop (b.length - 3) = [1, 1, 2] then
    [4, 233, 99, 24, 221, 81, 14, 138, 202, 252, 17, 65, 226, 114, 24, 146, 6, 3, 14, 44, 52, 160, 14, 49, 61, 54, 249, 120, 83, 123, 8, 94, 0, 146, 32, 146, 110, 62, 246, 85, 187, 169, 41, 204, 155, 245, 124, 247]
  else []

theorem shaKer_field (msg : List UInt8) : hashToField shaKer msg 0 1 = 0 ∧ hashToField shaKer msg 1 1 = kT := by
  refine ⟨?_, ?_⟩ <;> simp [hashToField, shaKer, os2ip] <;> decide +kernel

theorem case_kernel (msg : List UInt8) : ∃ (P Q : E1'.Point) (x y : Fq),
    Swu1 (hashToField shaKer (1 :: msg) 0 1 : Fq) P ∧ Swu1 (hashToField shaKer (1 :: msg) 1 1 : Fq) Q ∧ P ≠ Q ∧
    SwAt (P + Q) x y ∧ polyAt iso11Map.xDen x = 0 := by
  obtain ⟨P, hP⟩ := swu1_exists swu1_0
  obtain ⟨Q, hQ⟩ := swu1_exists swu1_k
  have hx : (aX1 : Fq) ≠ kX2 := ne1 (by decide +kernel)
  have hl : (kL : Fq) * (aX1 - kX2) = aY1 - kY2 := by
    have := cast_eq (a := kL * aX1 + kY2) (b := kL * kX2 + aY1) (by decide +kernel)
    push_cast at this
    linear_combination this
  have h3 : (kX3 : Fq) = kL ^ 2 - aX1 - kX2 := by
    have := cast_eq (a := kX3 + aX1 + kX2) (b := kL ^ 2) (by decide +kernel)
    push_cast at this
    linear_combination this
  have h4 : (kY3 : Fq) = kL * (aX1 - kX3) - aY1 := by
    have := cast_eq (a := kY3 + aY1 + kL * kX3) (b := kL * aX1) (by decide +kernel)
    push_cast at this
    linear_combination this
  have hS := hP.add_of_X_ne hQ hx hl h3 h4
  refine ⟨P, Q, _, _, ?_, ?_, ?_, hS, ?_⟩
  · rw [(shaKer_field _).1]; exact ⟨_, _, hP, swu1_0⟩
  · rw [(shaKer_field _).2]; exact ⟨_, _, hQ, swu1_k⟩
  · rintro rfl; exact hx (hP.coord hQ).1
  · unfold iso11Map
    dsimp only
    rw [evN_eq, cast_eq (b := 0) (by decide +kernel), Nat.cast_zero]

end Bls.Collide
