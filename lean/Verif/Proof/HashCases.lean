import Verif.Proof.HashCaseData
import Verif.Proof.HashTop
import Verif.Proof.Domain
import Verif.Proof.ClearOrder
import Verif.Proof.Denote
import Verif.Spec.Keys
/-
Hash functions for which every message is hashed to a point of order r: they show that the theorems about
signatures are not empty.
-/
namespace Bls.Cases
open Bls Chain NPoly

theorem cast_eq {a b : ℕ} (h : a % qLit = b % qLit) : (a : Fq) = (b : Fq) :=
  (ZMod.natCast_eq_natCast_iff' _ _ q).mpr (by rw [q_eq]; exact h)

theorem not_neg {n : ℕ} (h : n ≤ (qLit - 1) / 2) : ¬ Fq.IsNeg (n : Fq) := by
  unfold Fq.IsNeg
  rw [ZMod.val_natCast, ← q_eq] at *
  exact not_lt.mpr ((Nat.mod_le _ _).trans h)

/-! ### G1: the field elements 0 and 2 -/

def sha1 (b : List UInt8) : List UInt8 := if b.drop (b.length - 3) = [1, 1, 2] then [2] else []

theorem sha1_field (msg : List UInt8) : hashToField sha1 msg 0 1 = 0 ∧ hashToField sha1 msg 1 1 = 2 := by
  constructor <;> simp [hashToField, sha1, os2ip]

def evN (l : List ℕ) (x : ℕ) : ℕ := l.foldr (fun c v => (c + x * v) % qLit) 0

theorem evN_eq (l : List ℕ) (x : ℕ) : polyAt (l.map Nat.cast) (x : Fq) = (evN l x : Fq) := by
  induction l with
  | nil => simp [polyAt, evN]
  | cons c l ih =>
    rw [List.map_cons, polyAt_cons, ih]
    have : (evN (c :: l) x : Fq) = ((c + x * evN l x : ℕ) : Fq) := cast_eq (Nat.mod_mod _ _)
    rw [this]
    push_cast
    rfl

theorem on1 {x y : ℕ} (h : y ^ 2 % qLit = (x ^ 3 + swuA1 * x + swuB1) % qLit) :
    (y : Fq) ^ 2 = weier (swuA1 : Fq) swuB1 x := by
  have := cast_eq h
  push_cast at this
  exact this

theorem swuAt1 {t x y : ℕ} (hx : swuX0 (swuA1 : Fq) swuB1 (-1) (t : Fq) = x)
    (h : y ^ 2 % qLit = (x ^ 3 + swuA1 * x + swuB1) % qLit) (ht : t ≤ (qLit - 1) / 2) (hy : y ≤ (qLit - 1) / 2) :
    SwuAt (swuA1 : Fq) swuB1 (-1) Fq.IsNeg (t : Fq) x y := by
  have on := on1 h
  refine ⟨?_, on, fun _ => ?_⟩
  · rw [swuX, hx, if_pos ⟨(y : Fq), by rw [← on]; ring⟩]
  · simp only [not_neg hy, not_neg ht]

theorem swu1_0 : SwuAt (swuA1 : Fq) swuB1 (-1) Fq.IsNeg ((0 : ℕ) : Fq) aX1 aY1 := by
  refine swuAt1 ?_ (by unfold swuA1 swuB1; decide +kernel) (by decide +kernel) (by decide +kernel)
  have h := cast_eq (a := aX1 * swuA1 + swuB1) (b := 0) (by unfold swuA1 swuB1; decide +kernel)
  have hA := swu1_A_ne
  push_cast at h
  generalize (swuA1 : Fq) = A at *
  generalize (swuB1 : Fq) = B at *
  generalize (aX1 : Fq) = x at *
  rw [swuX0, if_pos (by simp), div_eq_iff (mul_ne_zero (neg_ne_zero.mpr one_ne_zero) hA)]
  linear_combination h

theorem swu1_2 : SwuAt (swuA1 : Fq) swuB1 (-1) Fq.IsNeg ((2 : ℕ) : Fq) aX2 aY2 := by
  refine swuAt1 ?_ (by unfold swuA1 swuB1; decide +kernel) (by decide +kernel) (by decide +kernel)
  have h := cast_eq (a := 12 * (swuA1 * aX2) + 13 * swuB1) (b := 0) (by unfold swuA1 swuB1; decide +kernel)
  have hA := swu1_A_ne
  have h12 : ((12 : ℕ) : Fq) ≠ 0 := by
    rw [Ne, ZMod.natCast_eq_zero_iff, q_eq]
    exact fun hd => absurd (Nat.le_of_dvd (by norm_num) hd) (by decide +kernel)
  push_cast at h h12
  generalize (swuA1 : Fq) = A at *
  generalize (swuB1 : Fq) = B at *
  generalize (aX2 : Fq) = x at *
  have e : (-1 : Fq) ^ 2 * ((2 : ℕ) : Fq) ^ 4 + -1 * ((2 : ℕ) : Fq) ^ 2 = 12 := by push_cast; ring
  rw [swuX0, if_neg (by rw [e]; exact h12), e]
  field_simp
  linear_combination -h

theorem iso_quot {x n d : ℕ} (hd : (d : Fq) ≠ 0) (h : x * d % qLit = n % qLit) : (n : Fq) / d = x := by
  have := cast_eq h
  push_cast at this
  rw [div_eq_iff hd, this]

theorem case1_full (msg : List UInt8) : ∃ (P Q : E1'.Point) (R : E1), Swu1 (hashToField sha1 (1 :: msg) 0 1 : Fq) P ∧
    Swu1 (hashToField sha1 (1 :: msg) 1 1 : Fq) Q ∧ P ≠ Q ∧ P ≠ -Q ∧ iso11Map.Maps (P + Q) R ∧
    IsAt R (aX : Fq) (aY : Fq) := by
  obtain ⟨P, hP⟩ := swu1_exists swu1_0
  obtain ⟨Q, hQ⟩ := swu1_exists swu1_2
  have hx : (aX1 : Fq) ≠ aX2 := ne1 (by decide +kernel)
  have hl : (aL : Fq) * (aX1 - aX2) = aY1 - aY2 := by
    have := cast_eq (a := aL * aX1 + aY2) (b := aL * aX2 + aY1) (by decide +kernel)
    push_cast at this
    linear_combination this
  have h3 : (aX3 : Fq) = aL ^ 2 - aX1 - aX2 := by
    have := cast_eq (a := aX3 + aX1 + aX2) (b := aL ^ 2) (by decide +kernel)
    push_cast at this
    linear_combination this
  have h4 : (aY3 : Fq) = aL * (aX1 - aX3) - aY1 := by
    have := cast_eq (a := aY3 + aY1 + aL * aX3) (b := aL * aX1) (by decide +kernel)
    push_cast at this
    linear_combination this
  have hS := hP.add_of_X_ne hQ hx hl h3 h4
  have hd : polyAt iso11Map.xDen (aX3 : Fq) ≠ 0 := by
    unfold iso11Map
    dsimp only
    rw [evN_eq]
    exact nz1 (by decide +kernel)
  have hd' : polyAt iso11Map.yDen (aX3 : Fq) ≠ 0 := by
    unfold iso11Map
    dsimp only
    rw [evN_eq]
    exact nz1 (by decide +kernel)
  obtain ⟨a, ha⟩ := FQ.exists_rep (aX3 : Fq)
  obtain ⟨b, hb⟩ := FQ.exists_rep (aY3 : Fq)
  obtain ⟨R, hR, _⟩ := iso11_spec (a := ⟨a, b, false⟩) ⟨rfl, ha, hb⟩ hS.on hd
  refine ⟨P, Q, R, ?_, ?_, ?_, ?_, ⟨_, _, hS, hd, hd', hR⟩, ?_⟩
  · rw [(sha1_field _).1]; exact ⟨_, _, hP, swu1_0⟩
  · rw [(sha1_field _).2]; exact ⟨_, _, hQ, swu1_2⟩
  · rintro rfl; exact hx (hP.coord hQ).1
  · rintro rfl; exact hx (hP.coord hQ.neg).1
  · have e1 : polyAt iso11Map.xNum (aX3 : Fq) / polyAt iso11Map.xDen (aX3 : Fq) = (aX : Fq) := by
      unfold iso11Map at hd ⊢
      dsimp only at hd ⊢
      rw [evN_eq] at hd ⊢
      rw [evN_eq]
      exact iso_quot hd (by decide +kernel)
    have e2 : (aY3 : Fq) * polyAt iso11Map.yNum (aX3 : Fq) / polyAt iso11Map.yDen (aX3 : Fq) = (aY : Fq) := by
      unfold iso11Map at hd' ⊢
      dsimp only at hd' ⊢
      rw [evN_eq] at hd' ⊢
      rw [evN_eq, ← Nat.cast_mul]
      exact iso_quot hd' (by decide +kernel)
    rw [e1, e2] at hR
    exact hR

theorem aMul_ne {R : E1} (h : IsAt R (aX : Fq) (aY : Fq)) : (blsU + 1) • R ≠ 0 := by
  intro e
  have hu := run1 h (t := aSlopes) (k := blsU) (x' := aUX) (y' := aUY) (by decide +kernel)
  rw [succ_nsmul, add_eq_zero_iff_eq_neg] at e
  rw [e] at hu
  exact ne1 (a := aX) (c := aUX) (by decide +kernel) (h.neg.coord hu).1

/-- Every message is hashed to the same point of G1, which is not infinity. -/
theorem case1 : ∃ H : E1, ∀ msg, G2Pubs.HashesTo sha1 msg H := by
  have key : ∀ msg, ∃ R : E1, IsAt R (aX : Fq) (aY : Fq) ∧ G2Pubs.HashesTo sha1 msg ((blsU + 1) • R) := by
    intro msg
    obtain ⟨P, Q, R, h1, h2, h3, h4, h5, h6⟩ := case1_full msg
    obtain ⟨g, h7, h8⟩ := hashG1_spec sha1 msg h1 h2 h3 h4 h5
    exact ⟨R, h6, g, h7, G1Affine.denotes_iff.mpr h8, aMul_ne h6, by rw [← mul_nsmul]; exact E1.exponent R⟩
  obtain ⟨R, h, _⟩ := key []
  refine ⟨(blsU + 1) • R, fun msg => ?_⟩
  obtain ⟨R', h', h2⟩ := key msg
  rw [h.inj h']
  exact h2

/-! ### G2 -/

/-- `clr R` is not infinity, by computing its summands. -/
theorem clr_ne {P A B C D E F G H : N2 × N2} {L1 L2 L3 : N2} {S1 S2 : List (Bool × N2)} {R : E2}
    (hR : IsAt R P.1.toF P.2.toF) (hA : run N2.ops P.1 P.2 S1 1 P.1 P.2 = some (blsU * blsU + blsU, A.1, A.2))
    (hB : run N2.ops P.1 P.2 S2 1 P.1 P.2 = some (blsU + 1, B.1, B.2))
    (hC : N2.mul C.1 (N2.mul gammaN gammaN) = N2.conj B.1)
    (hC' : N2.mul C.2 (N2.mul gammaN (N2.mul gammaN gammaN)) = N2.conj B.2)
    (hD : N2.mul D.1 (N2.mul gammaN gammaN) = N2.conj P.1)
    (hD' : N2.mul D.2 (N2.mul gammaN (N2.mul gammaN gammaN)) = N2.conj P.2)
    (hE : N2.mul E.1 (N2.mul gammaN gammaN) = N2.conj D.1)
    (hE' : N2.mul E.2 (N2.mul gammaN (N2.mul gammaN gammaN)) = N2.conj D.2)
    (hF : dbl N2.ops L1 E.1 E.2 = some (F.1, F.2))
    (hG : addp N2.ops L2 A.1 A.2 P.1 (N2.neg P.2) = some (G.1, G.2))
    (hH : addp N2.ops L3 G.1 G.2 C.1 (N2.neg C.2) = some (H.1, H.2))
    (hn : N2.ops.nz (N2.sub H.1 F.1) = true) : Grp.clr blsU psi.hom R ≠ 0 := by
  have a := run2 hR hA
  have b := run2 hR hB
  have c := psi_at b hC hC'
  have d := psi_at hR hD hD'
  have e := psi_at d hE hE'
  have f := dbl_sound N2.ops_sound e hF
  have nR := hR.neg
  rw [← N2.toF_neg] at nR
  have g := addp_sound N2.ops_sound a nR hG
  have nc := c.neg
  rw [← N2.toF_neg] at nc
  have h := addp_sound N2.ops_sound g nc hH
  rw [Grp.clr_apply]
  intro k
  rw [← map_nsmul, ← sub_eq_add_neg, ← sub_eq_add_neg] at *
  rw [two_nsmul, add_eq_zero_iff_eq_neg] at k
  rw [k] at h
  have := (f.neg.coord h).1
  have hn := N2.ops_sound.nz _ hn
  rw [N2.toF_sub] at hn
  exact hn (sub_eq_zero.mpr this.symm)

theorem bClr {R : E2} (h : IsAt R bP.1.toF bP.2.toF) : Grp.clr blsU psi.hom R ≠ 0 :=
  clr_ne (P := bP) (A := bA) (B := bB) (C := bC) (D := bD) (E := bE) (F := bF) (G := bG) (H := bH) (L1 := bL1)
    (L2 := bL2) (L3 := bL3) (S1 := bS1) (S2 := bS2) h (by decide +kernel) (by decide +kernel) (by decide +kernel)
    (by decide +kernel) (by decide +kernel) (by decide +kernel) (by decide +kernel) (by decide +kernel)
    (by decide +kernel) (by decide +kernel) (by decide +kernel) (by decide +kernel)

theorem cClr {R : E2} (h : IsAt R cP.1.toF cP.2.toF) : Grp.clr blsU psi.hom R ≠ 0 :=
  clr_ne (P := cP) (A := cA) (B := cB) (C := cC) (D := cD) (E := cE) (F := cF) (G := cG) (H := cH) (L1 := cL1)
    (L2 := cL2) (L3 := cL3) (S1 := cS1) (S2 := cS2) h (by decide +kernel) (by decide +kernel) (by decide +kernel)
    (by decide +kernel) (by decide +kernel) (by decide +kernel) (by decide +kernel) (by decide +kernel)
    (by decide +kernel) (by decide +kernel) (by decide +kernel) (by decide +kernel)

/-! The field elements 0 and 1. -/

def sha2 (b : List UInt8) : List UInt8 := if b.drop (b.length - 3) = [1, 1, 2] then [1] else []

theorem sha2_zero (msg : List UInt8) :
    (⟨(hashToField sha2 msg 0 1 : Fq), (hashToField sha2 msg 0 2 : Fq)⟩ : Fq2) = 0 := by
  ext <;> simp [hashToField, sha2, os2ip]

theorem sha2_one (msg : List UInt8) :
    (⟨(hashToField sha2 msg 1 1 : Fq), (hashToField sha2 msg 1 2 : Fq)⟩ : Fq2) = 1 := by
  ext <;> simp [hashToField, sha2, os2ip]

theorem on2 {x y : N2} (h : N2.mul y y = N2.add (N2.add (N2.mul x (N2.mul x x)) (N2.mul ⟨0, 240⟩ x)) ⟨1012, 1012⟩) :
    y.toF ^ 2 = weier swuA2 swuB2 x.toF := by
  have h := congrArg N2.toF h
  simp only [N2.toF_mul, N2.toF_add] at h
  rw [← swuA2_toF, ← swuB2_toF] at h
  rw [sq, h, weier]; ring

theorem not_neg2 {y : N2} (h0 : y.im ≠ 0) (h : y.im ≤ (qLit - 1) / 2) : ¬ Fq2.IsNeg y.toF := by
  rintro (hn | ⟨hz, _⟩)
  · exact not_neg h hn
  · have hz : ((y.im : ℕ) : Fq) = 0 := hz
    rw [ZMod.natCast_eq_zero_iff, q_eq] at hz
    have := Nat.le_of_dvd (Nat.pos_of_ne_zero h0) hz
    have : (qLit - 1) / 2 < qLit := by decide +kernel
    omega

theorem swuAt2 {t : Fq2} {x y : N2} (hx : swuX0 swuA2 swuB2 xi t = x.toF)
    (h : N2.mul y y = N2.add (N2.add (N2.mul x (N2.mul x x)) (N2.mul ⟨0, 240⟩ x)) ⟨1012, 1012⟩)
    (ht : ¬ Fq2.IsNeg t) (h0 : y.im ≠ 0) (hy : y.im ≤ (qLit - 1) / 2) :
    SwuAt swuA2 swuB2 xi Fq2.IsNeg t x.toF y.toF := by
  have on := on2 h
  refine ⟨?_, on, fun _ => ?_⟩
  · rw [swuX, hx, if_pos ⟨y.toF, by rw [← on]; ring⟩]
  · simp only [not_neg2 h0 hy, ht]

theorem xi_ne : xi ≠ 0 := fun e => Fq2.xi_nonsquare (e ▸ IsSquare.zero)

theorem swu2_0 : SwuAt swuA2 swuB2 xi Fq2.IsNeg 0 bX1.toF bY1.toF := by
  refine swuAt2 ?_ (by decide +kernel) ?_ (by decide +kernel) (by decide +kernel)
  · have h : N2.mul bX1 (N2.mul ⟨1, 1⟩ ⟨0, 240⟩) = ⟨1012, 1012⟩ := by decide +kernel
    have h := congrArg N2.toF h
    simp only [N2.toF_mul] at h
    rw [← swuA2_toF, ← swuB2_toF, xi_toF] at h
    rw [swuX0, if_pos (by simp), div_eq_iff (mul_ne_zero xi_ne swu2_A_ne)]
    exact h.symm
  · rintro (h | ⟨_, h⟩) <;> exact Fq.isNeg_zero h

theorem one_not_neg : ¬ Fq2.IsNeg 1 := by
  rintro (h | ⟨_, h⟩)
  · exact Fq.isNeg_zero h
  · have : ((1 : ℕ) : Fq) = (1 : Fq2).c0 := by simp
    rw [← this] at h
    exact not_neg (by decide +kernel) h

theorem swu2_1 : SwuAt swuA2 swuB2 xi Fq2.IsNeg 1 bX2.toF bY2.toF := by
  refine swuAt2 ?_ (by decide +kernel) one_not_neg (by decide +kernel) (by decide +kernel)
  have h : N2.mul bX2 (N2.mul ⟨0, 240⟩ ⟨1, 3⟩) = N2.neg (N2.mul ⟨1012, 1012⟩ ⟨2, 3⟩) := by decide +kernel
  have h := congrArg N2.toF h
  simp only [N2.toF_mul, N2.toF_neg] at h
  rw [← swuA2_toF, ← swuB2_toF] at h
  have e1 : xi ^ 2 * 1 ^ 4 + xi * 1 ^ 2 = (⟨1, 3⟩ : N2).toF := by ext <;> simp [N2.toF, xi, sq]; norm_num
  have e2 : (⟨2, 3⟩ : N2).toF = (⟨1, 3⟩ : N2).toF + 1 := by ext <;> simp [N2.toF]; norm_num
  have hn : (⟨1, 3⟩ : N2).toF ≠ 0 := N2.ops_sound.nz _ (by decide +kernel)
  have hA := swu2_A_ne
  rw [e2] at h
  rw [swuX0, if_neg (by rw [e1]; exact hn), e1]
  generalize (⟨1, 3⟩ : N2).toF = n at *
  generalize bX2.toF = x at *
  generalize swuA2 = A at *
  generalize swuB2 = B at *
  field_simp
  linear_combination -h

def evN2 (l : List (ℕ × ℕ)) (x : N2) : N2 := l.foldr (fun c v => N2.add ⟨c.1, c.2⟩ (N2.mul x v)) ⟨0, 0⟩

theorem evN2_eq (l : List (ℕ × ℕ)) (x : N2) : polyAt (l.map mkFq2) x.toF = (evN2 l x).toF := by
  induction l with
  | nil => ext <;> simp [polyAt, evN2, N2.toF]
  | cons c l ih =>
    rw [List.map_cons, polyAt_cons, ih]
    have : evN2 (c :: l) x = N2.add ⟨c.1, c.2⟩ (N2.mul x (evN2 l x)) := rfl
    rw [this, N2.toF_add, N2.toF_mul]; rfl

theorem quot2 {x n d : N2} (hd : d.toF ≠ 0) (h : N2.mul x d = n) : n.toF / d.toF = x.toF := by
  rw [div_eq_iff hd, ← N2.toF_mul, h]

theorem case2_full (msg : List UInt8) : ∃ (P Q : E2'.Point),
    Swu2 ⟨(hashToField sha2 (1 :: msg) 0 1 : Fq), (hashToField sha2 (1 :: msg) 0 2 : Fq)⟩ P ∧
    Swu2 ⟨(hashToField sha2 (1 :: msg) 1 1 : Fq), (hashToField sha2 (1 :: msg) 1 2 : Fq)⟩ Q ∧ P ≠ Q ∧ P ≠ -Q ∧
    ∀ R : E2, iso3Map.Maps (P + Q) R → IsAt R bP.1.toF bP.2.toF := by
  obtain ⟨P, hP⟩ := swu2_exists swu2_0
  obtain ⟨Q, hQ⟩ := swu2_exists swu2_1
  have hx : bX1.toF ≠ bX2.toF := by
    have := N2.ops_sound.nz (N2.sub bX1 bX2) (by decide +kernel)
    rw [N2.toF_sub] at this
    exact sub_ne_zero.mp this
  have hl : bL.toF * (bX1.toF - bX2.toF) = bY1.toF - bY2.toF := by
    rw [← N2.toF_sub, ← N2.toF_sub, ← N2.toF_mul]
    exact congrArg N2.toF (by decide +kernel)
  have h3 : bX3.toF = bL.toF ^ 2 - bX1.toF - bX2.toF := by
    rw [sq, ← N2.toF_mul, ← N2.toF_sub, ← N2.toF_sub]
    exact congrArg N2.toF (by decide +kernel)
  have h4 : bY3.toF = bL.toF * (bX1.toF - bX3.toF) - bY1.toF := by
    rw [← N2.toF_sub, ← N2.toF_mul, ← N2.toF_sub]
    exact congrArg N2.toF (by decide +kernel)
  have hS := hP.add_of_X_ne hQ hx hl h3 h4
  refine ⟨P, Q, ?_, ?_, ?_, ?_, ?_⟩
  · rw [sha2_zero]; exact ⟨_, _, hP, swu2_0⟩
  · rw [sha2_one]; exact ⟨_, _, hQ, swu2_1⟩
  · rintro rfl; exact hx (hP.coord hQ).1
  · rintro rfl; exact hx (hP.coord hQ.neg).1
  · rintro R ⟨x, y, hxy, hd, hd', hR⟩
    obtain ⟨rfl, rfl⟩ := hxy.coord hS
    have e1 : polyAt iso3Map.xNum bX3.toF / polyAt iso3Map.xDen bX3.toF = bP.1.toF := by
      unfold iso3Map at hd ⊢
      dsimp only at hd ⊢
      rw [evN2_eq] at hd ⊢
      rw [evN2_eq]
      exact quot2 hd (by decide +kernel)
    have e2 : bY3.toF * polyAt iso3Map.yNum bX3.toF / polyAt iso3Map.yDen bX3.toF = bP.2.toF := by
      unfold iso3Map at hd' ⊢
      dsimp only at hd' ⊢
      rw [evN2_eq] at hd' ⊢
      rw [evN2_eq, ← N2.toF_mul]
      exact quot2 hd' (by decide +kernel)
    rw [e1, e2] at hR
    exact hR

/-- Every message is hashed to the same point of G2, which is not infinity. -/
theorem case2 : ∃ H : E2, ∀ msg, G1Pubs.HashesTo sha2 msg H := by
  have key : ∀ msg, ∃ R : E2, IsAt R bP.1.toF bP.2.toF ∧ G1Pubs.HashesTo sha2 msg (Grp.clr blsU psi.hom R) := by
    intro msg
    obtain ⟨P, Q, h1, h2, h3, h4, h5⟩ := case2_full msg
    obtain ⟨g, R, h6, h7, h8⟩ := hashG2_spec sha2 msg h1 h2 h3 h4
    exact ⟨R, h5 R h6, g, h7, G2Affine.denotes_iff.mpr h8, bClr (h5 R h6), clr_torsion R⟩
  obtain ⟨R, h, _⟩ := key []
  refine ⟨Grp.clr blsU psi.hom R, fun msg => ?_⟩
  obtain ⟨R', h', h2⟩ := key msg
  rw [h.inj h']
  exact h2

/-! ### The hash with a domain: the x-coordinate 2 -/

def sha3 (b : List UInt8) : List UInt8 := List.replicate 31 0 ++ (if b.getLast? = some 1 then [2] else [0])

theorem sha3_length (b : List UInt8) : (sha3 b).length = 32 := by
  unfold sha3; split_ifs <;> simp

theorem sha3_one (b : List UInt8) : os2ip (sha3 (b ++ [1])) = 2 := by
  rw [sha3, if_pos (by simp)]; decide +kernel

theorem sha3_two (b : List UInt8) : os2ip (sha3 (b ++ [2])) = 0 := by
  rw [sha3, if_neg (by simp)]; decide +kernel

theorem h2_ne {R : E2} (h : Grp.clr blsU psi.hom R ≠ 0) : h2 • R ≠ 0 := by
  intro e
  have e1 : h2 • Grp.clr blsU psi.hom R = 0 := by rw [← map_nsmul, e, map_zero]
  have e2 := clr_torsion R
  rw [← addOrderOf_dvd_iff_nsmul_eq_zero] at e1 e2
  have g := Nat.dvd_gcd e1 e2
  rw [r_eq, show Nat.gcd h2 rLit = 1 by rw [h2]; decide +kernel, Nat.dvd_one, AddMonoid.addOrderOf_eq_one_iff] at g
  exact h g

theorem cP_on : cP.2.toF ^ 2 = cP.1.toF ^ 3 + b2 := by
  have h : N2.mul cP.2 cP.2 = N2.add (N2.mul cP.1 (N2.mul cP.1 cP.1)) ⟨4, 4⟩ := by decide +kernel
  have h := congrArg N2.toF h
  simp only [N2.toF_mul, N2.toF_add] at h
  have e : (⟨4, 4⟩ : N2).toF = b2 := by ext <;> simp [N2.toF, b2]
  rw [sq, h, e]; ring

/-- Every message is hashed to a point of G2 that is not infinity. -/
theorem case3 (m d : List UInt8) : ∃ H : E2, G1Pubs.HashesToIn sha3 d m H := by
  obtain ⟨g, P, k, y, hk, h1, h3, h4, h5, h6⟩ := hashG2WithDomain_spec sha3 sha3_length m d
  have hx : (⟨(os2ip (sha3 (m ++ d ++ [1])) : Fq), (os2ip (sha3 (m ++ d ++ [2])) : Fq)⟩ : Fq2) = cP.1.toF := by
    rw [sha3_one, sha3_two]; rfl
  rw [hx] at h4 h6
  have hk : k = 0 := by
    by_contra h
    refine h6 0 (Nat.pos_of_ne_zero h) ⟨cP.2.toF, ?_⟩
    rw [Nat.cast_zero, add_zero, ← cP_on]; ring
  subst hk
  rw [Nat.cast_zero, add_zero] at h4
  have hy : y ^ 2 = cP.2.toF ^ 2 := by rw [cP_on]; exact h4.on
  have hne : Grp.clr blsU psi.hom P ≠ 0 := by
    rcases sq_eq_sq_iff_eq_or_eq_neg.mp hy with rfl | rfl
    · exact cClr h4
    · have h := h4.neg
      rw [neg_neg] at h
      have := cClr h
      rw [map_neg] at this
      exact neg_ne_zero.mp this
  exact ⟨h2 • P, g, h1, G2Projective.denotes_iff.mpr h3, h2_ne hne, E2.cofactor_torsion P⟩

end Bls.Cases
