import Verif.Model.FQ
import Verif.Proof.FQRepr
import Verif.Spec.Params
import Mathlib.Data.Nat.ModEq
/-
Montgomery reduction and the basic operations of FQ over the integers.
-/
namespace Bls
set_option exponentiation.threshold 1000

theorem qFieldModulus_toNat : qFieldModulus.toNat = q := by
  simp only [qFieldModulus, q]; exact FQRepr.ofNat_toNat (by norm_num)

theorem fqR2_toNat : fqR2.toNat = 2 ^ 768 % q := by
  rw [fqR2, FQRepr.ofNat_toNat (by norm_num)]
  norm_num [q]

theorem q_pos : 0 < q := by norm_num [q]
theorem q_lt : 8 * q < 2 ^ 384 := by norm_num [q]
theorem q_gt : 2 ^ 380 < q := by norm_num [q]

/-- `lo0 * montInvFQ * Q0 ≡ -lo0 (mod 2^64)`: the low word of the first MAC of a round is zero. -/
theorem mont_low {lo z c : W}
    (h : (z.toNat : ℤ) + 2 ^ 64 * c.toNat
      = lo.toNat + (lo * montInvFQ).toNat * qFieldModulus.l0.toNat + (0 : W).toNat) : z.toNat = 0 := by
  have hq : qFieldModulus.l0.toNat = 0xb9feffffffffaaab := by decide
  have hm : montInvFQ.toNat = 0x89f3fffcfffcfffd := by decide
  rw [UInt64.toNat_mul, hq, hm] at h
  have hl := lo.lt; have hz := z.lt; have hc := c.lt
  simp only [UInt64.toNat_zero] at h
  omega

theorem montReduceRepr_spec (hi lo : FQRepr) :
    ∃ K c : ℕ, K < 2 ^ 384 ∧
      (montReduceRepr hi lo).toNat * 2 ^ 384 + c * 2 ^ 768
        = hi.toNat * 2 ^ 384 + lo.toNat + K * q := by
  rw [← qFieldModulus_toNat]
  generalize hr : montReduceRepr hi lo = r
  revert hr
  unfold montReduceRepr
  mac z0 c0 a0
  mac b1 c1 a1
  mac b2 c2 a2
  mac b3 c3 a3
  mac b4 c4 a4
  mac b5 c5 a5
  adc h0 c6 a6
  replace z0 := mont_low a0
  mac z1 c10 a10
  mac b12 c12 a12
  mac b13 c13 a13
  mac b14 c14 a14
  mac b15 c15 a15
  mac h10 c16 a16
  adc h11 c17 a17
  replace z1 := mont_low a10
  mac z2 c20 a20
  mac b23 c23 a23
  mac b24 c24 a24
  mac b25 c25 a25
  mac h20 c26 a26
  mac h21 c27 a27
  adc h22 c28 a28
  replace z2 := mont_low a20
  mac z3 c30 a30
  mac b34 c34 a34
  mac b35 c35 a35
  mac h30 c36 a36
  mac h31 c37 a37
  mac h32 c38 a38
  adc h33 c39 a39
  replace z3 := mont_low a30
  mac z4 c40 a40
  mac b45 c45 a45
  mac h40 c46 a46
  mac h41 c47 a47
  mac h42 c48 a48
  mac h43 c49 a49
  adc h44 c410 a410
  replace z4 := mont_low a40
  mac z5 c50 a50
  mac h50 c56 a56
  mac h51 c57 a57
  mac h52 c58 a58
  mac h53 c59 a59
  mac h54 c510 a510
  adc h55 c511 a511
  replace z5 := mont_low a50
  rintro rfl
  rw [z0] at a0; rw [z1] at a10; rw [z2] at a20; rw [z3] at a30; rw [z4] at a40; rw [z5] at a50
  generalize hk0 : lo.l0 * montInvFQ = k0 at *
  generalize hk1 : b1 * montInvFQ = k1 at *
  generalize hk2 : b12 * montInvFQ = k2 at *
  generalize hk3 : b23 * montInvFQ = k3 at *
  generalize hk4 : b34 * montInvFQ = k4 at *
  generalize hk5 : b45 * montInvFQ = k5 at *
  refine ⟨FQRepr.toNat ⟨k0, k1, k2, k3, k4, k5⟩, c511.toNat, FQRepr.toNat_lt _, ?_⟩
  clear hk0 hk1 hk2 hk3 hk4 hk5 z0 z1 z2 z3 z4 z5
  simp only [FQRepr.toNat]
  zify
  simp only [UInt64.toNat_zero, Nat.cast_zero] at *
  linear_combination a0 + 2 ^ 64 * a1 + 2 ^ 128 * a2 + 2 ^ 192 * a3 + 2 ^ 256 * a4 + 2 ^ 320 * a5 + 2 ^ 384 * a6
    + 2 ^ 64 * (a10 + 2 ^ 64 * a12 + 2 ^ 128 * a13 + 2 ^ 192 * a14 + 2 ^ 256 * a15 + 2 ^ 320 * a16 + 2 ^ 384 * a17)
    + 2 ^ 128 * (a20 + 2 ^ 64 * a23 + 2 ^ 128 * a24 + 2 ^ 192 * a25 + 2 ^ 256 * a26 + 2 ^ 320 * a27 + 2 ^ 384 * a28)
    + 2 ^ 192 * (a30 + 2 ^ 64 * a34 + 2 ^ 128 * a35 + 2 ^ 192 * a36 + 2 ^ 256 * a37 + 2 ^ 320 * a38 + 2 ^ 384 * a39)
    + 2 ^ 256 * (a40 + 2 ^ 64 * a45 + 2 ^ 128 * a46 + 2 ^ 192 * a47 + 2 ^ 256 * a48 + 2 ^ 320 * a49 + 2 ^ 384 * a410)
    + 2 ^ 320 * (a50 + 2 ^ 64 * a56 + 2 ^ 128 * a57 + 2 ^ 192 * a58 + 2 ^ 256 * a59 + 2 ^ 320 * a510 + 2 ^ 384 * a511)

end Bls
