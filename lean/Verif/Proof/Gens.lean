import Verif.Proof.G2
import Verif.Proof.G2Slopes
import Verif.Proof.Chain
/-
The generators `G1AffineOne` and `G2AffineOne`: points of order exactly `r`.
-/
set_option exponentiation.threshold 1000
namespace Bls

theorem Fq.qLit_eq_zero : ((qLit : ℕ) : Fq) = 0 := by rw [← q_eq]; exact ZMod.natCast_self q

theorem g1_on : (gyLit : Fq) ^ 2 = (gxLit : Fq) ^ 3 + 4 :=
  Chain.cast_curve Fq.qLit_eq_zero (by decide +kernel)

/-- The standard generator of G1. -/
noncomputable def g1Gen : E1 := pt (gxLit : Fq) (gyLit : Fq) g1_on

theorem g1Gen_isAt : IsAt g1Gen (gxLit : Fq) (gyLit : Fq) := pt_isAt g1_on

theorem g1Gen_ne_zero : g1Gen ≠ 0 := g1Gen_isAt.ne_zero

theorem r_smul_g1Gen : r • g1Gen = 0 := by
  rw [r_eq]
  exact g1_order_field Fq.qLit_eq_zero g1Gen_isAt

theorem G1Affine.one_rep : G1Affine.one.Rep g1Gen := by
  have hx : G1Affine.generatorX.toNat = gxLit := by decide +kernel
  have hy : G1Affine.generatorY.toNat = gyLit := by decide +kernel
  refine Or.inr ⟨rfl, (gxLit : Fq), (gyLit : Fq), ?_, ?_, g1Gen_isAt⟩
  · have := FQ.ofRepr_rep (o := G1Affine.generatorX) (by rw [hx, q_eq]; decide +kernel)
    rwa [hx] at this
  · have := FQ.ofRepr_rep (o := G1Affine.generatorY) (by rw [hy, q_eq]; decide +kernel)
    rwa [hy] at this

/-- Fq2 on pairs of naturals, for the chain checker. -/
def N2.ops : Chain.Ops N2 where
  add := N2.add
  sub := N2.sub
  mul := N2.mul
  eqb a b := Nat.beq (a.re % qLit) (b.re % qLit) && Nat.beq (a.im % qLit) (b.im % qLit)
  nz a := !(Nat.beq (a.re % qLit) 0 && Nat.beq (a.im % qLit) 0)

theorem N2.cast_eq_zero {n : ℕ} : (n : Fq) = 0 ↔ n % qLit = 0 := by
  rw [ZMod.natCast_eq_zero_iff, q_eq, Nat.dvd_iff_mod_eq_zero]

theorem N2.ops_sound : Chain.Sound N2.ops N2.toF where
  add := N2.toF_add
  sub := N2.toF_sub
  mul := N2.toF_mul
  eqb a b h := by
    simp only [N2.ops, Bool.and_eq_true] at h
    have h1 := Nat.eq_of_beq_eq_true h.1
    have h2 := Nat.eq_of_beq_eq_true h.2
    ext1
    · simp only [N2.toF]; rw [← N2.cast_mod, h1, N2.cast_mod]
    · simp only [N2.toF]; rw [← N2.cast_mod, h2, N2.cast_mod]
  nz a h := by
    intro h0
    have h1 : (a.re : Fq) = 0 := congrArg Fq2.c0 h0
    have h2 : (a.im : Fq) = 0 := congrArg Fq2.c1 h0
    rw [N2.cast_eq_zero] at h1 h2
    simp [N2.ops, h1, h2] at h

def g2x : N2 := ⟨0x24aa2b2f08f0a91260805272dc51051c6e47ad4fa403b02b4510b647ae3d1770bac0326a805bbefd48056c8c121bdb8, 0x13e02b6052719f607dacd3a088274f65596bd0d09920b61ab5da61bbdc7f5049334cf11213945d57e5ac7d055d042b7e⟩
def g2y : N2 := ⟨0xce5d527727d6e118cc9cdc6da2e351aadfd9baa8cbdd3a76d429a695160d12c923ac9cc3baca289e193548608b82801, 0x606c4a02ea734cc32acd2b02bc28b99cb3e287e85a763af267492ab572e99ab3f370d275cec1da1aaa9075ff05f79be⟩

theorem g2_chain : Chain.run N2.ops g2x g2y Chain.g2Slopes 1 g2x g2y =
    some (rLit - 1, g2x, N2.neg g2y) := by decide +kernel

theorem g2_on_nat : N2.mul g2y g2y = N2.add (N2.mul (N2.mul g2x g2x) g2x) ⟨4, 4⟩ := by decide +kernel

theorem N2.toF_b2 : N2.toF ⟨4, 4⟩ = b2 := by
  ext1 <;> simp [N2.toF, b2]

theorem g2_on : g2y.toF ^ 2 = g2x.toF ^ 3 + b2 := by
  have := congrArg N2.toF g2_on_nat
  rw [N2.toF_add, N2.toF_mul, N2.toF_mul, N2.toF_mul, N2.toF_b2] at this
  rw [sq, this]; ring

/-- The standard generator of G2. -/
noncomputable def g2Gen : E2 := pt g2x.toF g2y.toF g2_on

theorem g2Gen_isAt : IsAt g2Gen g2x.toF g2y.toF := pt_isAt g2_on

theorem g2Gen_ne_zero : g2Gen ≠ 0 := g2Gen_isAt.ne_zero

theorem r_smul_g2Gen : r • g2Gen = 0 := by
  have h := Chain.run_sound N2.ops_sound g2Gen_isAt Chain.g2Slopes 1 g2x g2y _ _ _
    (by simpa using g2Gen_isAt) g2_chain
  have e : rLit = (rLit - 1) + 1 := by decide +kernel
  rw [r_eq, e, succ_nsmul, add_comm]
  rw [N2.toF_neg] at h
  exact g2Gen_isAt.add_neg h

theorem G2Affine.one_rep : G2Affine.one.Rep g2Gen := by
  have h1 : G2Affine.generatorXC0.toNat = g2x.re := by decide +kernel
  have h2 : G2Affine.generatorXC1.toNat = g2x.im := by decide +kernel
  have h3 : G2Affine.generatorYC0.toNat = g2y.re := by decide +kernel
  have h4 : G2Affine.generatorYC1.toNat = g2y.im := by decide +kernel
  refine Or.inr ⟨rfl, g2x.toF, g2y.toF, ⟨?_, ?_⟩, ⟨?_, ?_⟩, g2Gen_isAt⟩
  · have := FQ.ofRepr_rep (o := G2Affine.generatorXC0) (by rw [h1, q_eq]; decide +kernel)
    rwa [h1] at this
  · have := FQ.ofRepr_rep (o := G2Affine.generatorXC1) (by rw [h2, q_eq]; decide +kernel)
    rwa [h2] at this
  · have := FQ.ofRepr_rep (o := G2Affine.generatorYC0) (by rw [h3, q_eq]; decide +kernel)
    rwa [h3] at this
  · have := FQ.ofRepr_rep (o := G2Affine.generatorYC1) (by rw [h4, q_eq]; decide +kernel)
    rwa [h4] at this

instance : Fact r.Prime := ⟨r_prime⟩

theorem addOrderOf_g1Gen : addOrderOf g1Gen = r := addOrderOf_eq_prime r_smul_g1Gen g1Gen_ne_zero
theorem addOrderOf_g2Gen : addOrderOf g2Gen = r := addOrderOf_eq_prime r_smul_g2Gen g2Gen_ne_zero

end Bls
