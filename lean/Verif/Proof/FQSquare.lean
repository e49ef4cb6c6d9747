import Verif.Proof.FQOps
set_option exponentiation.threshold 1000
namespace Bls

/-- The top bit of a word, as an integer. -/
@[irreducible] def topBit (x : W) : ℤ := ((x.toNat / 2 ^ 63 : ℕ) : ℤ)

theorem shl1_or_int (x y : W) :
    ((((x <<< 1) ||| (y >>> 63)).toNat : ℕ) : ℤ) = 2 * x.toNat - 2 ^ 64 * topBit x + topBit y := by
  have hx := x.lt
  rw [shl1_or, topBit, topBit]; omega

theorem shl1_int (x : W) : (((x <<< 1).toNat : ℕ) : ℤ) = 2 * x.toNat - 2 ^ 64 * topBit x := by
  have hx := x.lt
  have h := shl1_or x 0
  have e : x <<< 1 ||| ((0 : W) >>> 63) = x <<< 1 := by simp
  rw [e] at h
  rw [h, topBit]
  simp
  omega

theorem shr63_int (x : W) : (((x >>> 63).toNat : ℕ) : ℤ) = topBit x := by
  rw [topBit, UInt64.toNat_shiftRight]
  simp [Nat.shiftRight_eq_div_pow]

theorem squareWide_spec (f : FQRepr) :
    (FQ.squareWide f).1.toNat * 2 ^ 384 + (FQ.squareWide f).2.toNat = f.toNat * f.toNat := by
  have key : ∃ k : ℕ, (FQ.squareWide f).1.toNat * 2 ^ 384 + (FQ.squareWide f).2.toNat + 2 ^ 768 * k
      = f.toNat * f.toNat := by
    generalize hr : FQ.squareWide f = r
    revert hr
    unfold FQ.squareWide
    mac a1 c1 e1
    mac a2 c2 e2
    mac a3 c3 e3
    mac a4 c4 e4
    mac a5 c5 e5
    mac b3 d1 f1
    mac b4 d2 f2
    mac b5 d3 f3
    mac b6 d4 f4
    mac x5 y1 g1
    mac x6 y2 g2
    mac x7 y3 g3
    mac z7 w1 h1
    mac z8 w2 h2
    mac z9 w3 i1
    mac m0 n0 j0
    adc m1 n1 j1
    mac m2 n2 j2
    adc m3 n3 j3
    mac m4 n4 j4
    adc m5 n5 j5
    mac m6 n6 j6
    adc m7 n7 j7
    mac m8 n8 j8
    adc m9 n9 j9
    mac m10 n10 j10
    adc m11 n11 j11
    rintro rfl
    refine ⟨n11.toNat, ?_⟩
    simp only [FQRepr.toNat]
    zify
    simp only [shl1_or_int, shl1_int, shr63_int, UInt64.toNat_zero, Nat.cast_zero] at *
    linear_combination 2 * 2 ^ 64 * (e1 + 2 ^ 64 * e2 + 2 ^ 128 * e3 + 2 ^ 192 * e4 + 2 ^ 256 * e5)
      + 2 * 2 ^ 192 * (f1 + 2 ^ 64 * f2 + 2 ^ 128 * f3 + 2 ^ 192 * f4)
      + 2 * 2 ^ 320 * (g1 + 2 ^ 64 * g2 + 2 ^ 128 * g3)
      + 2 * 2 ^ 448 * (h1 + 2 ^ 64 * h2) + 2 * 2 ^ 576 * i1
      + (j0 + 2 ^ 64 * j1 + 2 ^ 128 * j2 + 2 ^ 192 * j3 + 2 ^ 256 * j4 + 2 ^ 320 * j5 + 2 ^ 384 * j6
      + 2 ^ 448 * j7 + 2 ^ 512 * j8 + 2 ^ 576 * j9 + 2 ^ 640 * j10 + 2 ^ 704 * j11)
  obtain ⟨k, hk⟩ := key
  have h1 := f.toNat_lt
  have h2 : f.toNat * f.toNat < 2 ^ 384 * 2 ^ 384 := Nat.mul_lt_mul'' h1 h1
  have h3 : k = 0 := by
    by_contra h
    have : 2 ^ 768 * 1 ≤ 2 ^ 768 * k := Nat.mul_le_mul_left _ (by omega)
    omega
  rw [h3, mul_zero, add_zero] at hk
  exact hk

theorem FQ.Rep.square {a : FQ} {x : Fq} (ha : a.Rep x) : a.square.Rep (x * x) := by
  have hm := squareWide_spec a.n
  have ha' := rep_iff.mp ha
  unfold FQ.square
  change (montReduce (squareWide a.n).1 (squareWide a.n).2).Rep _
  generalize squareWide a.n = p at hm ⊢
  apply FQ.montReduce_rep
  · rw [hm]
    exact Nat.mul_lt_mul'' ha'.1 a.n.toNat_lt
  · rw [hm, Nat.cast_mul]; rw [ha'.2]; ring

end Bls
