import Verif.Proof.ClearOrder
import Verif.Proof.HashG1
import Verif.Proof.HashG2
/-
Cofactor clearing: `psi`, `ClearH` and `clearH2` of hash.go as maps on the curves.
-/
namespace Bls

def iwLit : N2 := ⟨0xd0088f51cbff34d258dd3db21a5d66bb23ba5c279c2895fb39869507b587b120f55ffff58a9ffffdcff7fffffffd556, 0xd0088f51cbff34d258dd3db21a5d66bb23ba5c279c2895fb39869507b587b120f55ffff58a9ffffdcff7fffffffd555⟩
def kxLit : ℕ := 0x1a0111ea397fe699ec02408663d4de85aa0d857d89759ad4897d29650fb85f9b409427eb4f49fffd8bfd00000000aaad
def kyLit : ℕ := 0x6af0e0437ff400b6831e36d6bd17ffe48395dabc2d3435e77f76e17009241c5ee67992f72ec05f4c81084fbede3cc09

theorem iwsc_rep : iwsc.Rep iwLit.toF := by
  unfold iwsc
  exact ⟨fqHex_rep (n := iwLit.re) (by rw [q_eq]; decide +kernel), fqHex_rep (n := iwLit.im) (by rw [q_eq]; decide +kernel)⟩

theorem kQiX_rep : kQiX.Rep (kxLit : Fq) := by
  unfold kQiX; exact fqHex_rep (n := kxLit) (by rw [q_eq]; decide +kernel)
theorem kQiY_rep : kQiY.Rep (kyLit : Fq) := by
  unfold kQiY; exact fqHex_rep (n := kyLit) (by rw [q_eq]; decide +kernel)

theorem psi_kx : xi * Fq2.of (kxLit : Fq) * Fq2.conj iwLit.toF = psi.α := by
  have h : N2.mul (N2.mul (N2.mul ⟨1, 1⟩ ⟨kxLit, 0⟩) (N2.conj iwLit)) (N2.mul gammaN gammaN) = ⟨1, 0⟩ := by
    decide +kernel
  have h := congrArg N2.toF h
  simp only [N2.toF_mul, N2.toF_conj] at h
  have e1 : (⟨1, 1⟩ : N2).toF = xi := by ext <;> simp [N2.toF, xi]
  have e2 : (⟨1, 0⟩ : N2).toF = 1 := by ext <;> simp [N2.toF]
  have e3 : (⟨kxLit, 0⟩ : N2).toF = Fq2.of (kxLit : Fq) := by
    ext1 <;> simp only [N2.toF, Nat.cast_zero] <;> rfl
  rw [e1, e2, e3] at h
  change _ = (gam ^ 2)⁻¹
  exact eq_inv_of_mul_eq_one_left (by rw [sq]; exact h)

theorem psi_ky : xi * (Fq2.of (kyLit : Fq) * xi) * Fq2.conj iwLit.toF = psi.β := by
  have h : N2.mul (N2.mul (N2.mul ⟨1, 1⟩ (N2.mul ⟨kyLit, 0⟩ ⟨1, 1⟩)) (N2.conj iwLit)) (N2.mul gammaN (N2.mul gammaN gammaN)) = ⟨1, 0⟩ := by
    decide +kernel
  have h := congrArg N2.toF h
  simp only [N2.toF_mul, N2.toF_conj] at h
  have e1 : (⟨1, 1⟩ : N2).toF = xi := by ext <;> simp [N2.toF, xi]
  have e2 : (⟨1, 0⟩ : N2).toF = 1 := by ext <;> simp [N2.toF]
  have e3 : (⟨kyLit, 0⟩ : N2).toF = Fq2.of (kyLit : Fq) := by
    ext1 <;> simp only [N2.toF, Nat.cast_zero] <;> rfl
  rw [e1, e2, e3] at h
  change _ = (gam ^ 3)⁻¹
  exact eq_inv_of_mul_eq_one_left (by rw [pow_succ', sq]; exact h)

theorem psiAffine_at {g : G2Affine} {x y : Fq2} (h : g.At x y) :
    (psiAffine g).At (psi.α * Fq2.conj x) (psi.β * Fq2.conj y) := by
  obtain ⟨_, hx, hy⟩ := h
  have ix := iwsc_rep.mul hx
  have iy := iwsc_rep.mul hy
  have kx := kQiX_rep
  have ky := kQiY_rep
  rw [← psi_kx, ← psi_ky]
  generalize iwLit.toF = iw at *
  generalize (kxLit : Fq) = k at *
  generalize (kyLit : Fq) = k' at *
  unfold psiAffine
  refine ⟨rfl, ?_, ?_⟩
  · have h : FQ2.Rep ⟨(iwsc.mul g.x).c0.mul kQiX, ((iwsc.mul g.x).c1.mul kQiX).neg⟩ (Fq2.of k * Fq2.conj (iw * x)) :=
      ⟨(ix.1.mul kx).of_eq (by simp [Fq2.of, Fq2.conj]; ring), ((ix.2.mul kx).neg).of_eq (by simp [Fq2.of, Fq2.conj]; ring)⟩
    refine (fq2nqr_rep.mul h).of_eq ?_
    rw [map_mul]; ring
  · have h : FQ2.Rep ⟨((iwsc.mul g.y).c0.add (iwsc.mul g.y).c1).mul kQiY, ((iwsc.mul g.y).c0.sub (iwsc.mul g.y).c1).mul kQiY⟩
        (Fq2.of k' * xi * Fq2.conj (iw * y)) :=
      ⟨((iy.1.add iy.2).mul ky).of_eq (by simp [Fq2.of, Fq2.conj, xi]; ring),
        ((iy.1.sub iy.2).mul ky).of_eq (by simp [Fq2.of, Fq2.conj, xi]; ring)⟩
    refine (fq2nqr_rep.mul h).of_eq ?_
    rw [map_mul]; ring

theorem G2Affine.Rep.at {g : G2Affine} {P : E2} (h : g.Rep P) (h0 : P ≠ 0) : ∃ x y, IsAt P x y ∧ g.At x y := by
  rcases h with ⟨_, e⟩ | h
  · exact absurd e h0
  · obtain ⟨hi, x, y, hx, hy, hP⟩ := h
    exact ⟨x, y, hP, hi, hx, hy⟩

theorem psiAffine_spec {g : G2Affine} {P : E2} (h : g.Rep P) (h0 : P ≠ 0) : (psiAffine g).Rep (psi.hom P) := by
  obtain ⟨x, y, hP, hg⟩ := h.at h0
  obtain ⟨hi, hx, hy⟩ := psiAffine_at hg
  exact Or.inr ⟨hi, _, _, hx, hy, psi.hom_at hP⟩

theorem E2.double_ne {P : E2} (h : P ≠ 0) : P + P ≠ 0 := by
  intro e
  have h1 : 2 • P = 0 := by rw [two_nsmul, e]
  have hc : Nat.card E2 • P = 0 := card_nsmul_eq_zero'
  rw [E2.card, r_eq] at hc
  rw [← addOrderOf_dvd_iff_nsmul_eq_zero] at h1 hc
  have g := Nat.dvd_gcd h1 hc
  have : Nat.gcd 2 (h2 * rLit) = 1 := by decide +kernel
  rw [this, Nat.dvd_one, AddMonoid.addOrderOf_eq_one_iff] at g
  exact h g

theorem psi_ne {P : E2} (h : P ≠ 0) : psi.hom P ≠ 0 := by
  rcases zero_or_isAt P with rfl | ⟨x, y, hP⟩
  · exact absurd rfl h
  · exact (psi.hom_at hP).ne_zero

theorem clearH_spec {a : G1Affine} {P : E1} (h : a.Rep P) : (clearH a).Rep ((blsU + 1) • P) := by
  unfold clearH
  have h1 := ((h.mul (.new 0xd201000000010000)).addAffine h).toAffine
  have e : (FQRepr.new 0xd201000000010000).toNat = blsU := by decide +kernel
  rw [e, ← succ_nsmul] at h1
  exact h1

theorem clearH2_spec {a : G2Affine} {P : E2} (h : a.Rep P) (h0 : P ≠ 0) :
    (clearH2 a).Rep (Grp.clr blsU psi.hom P) := by
  unfold clearH2
  have e : (FQRepr.new 0xd201000000010000).toNat = blsU := by decide +kernel
  have hψ := (psiAffine_spec h h0).neg
  have h1 := ((h.mul (.new 0xd201000000010000)).addAffine h).addAffine hψ
  have h2 := (((h1.mul (.new 0xd201000000010000)).addAffine hψ).addAffine h.neg)
  have h3 := psiAffine_spec h.toProjective.double.toAffine (E2.double_ne h0)
  have h4 := psiAffine_spec h3 (psi_ne (E2.double_ne h0))
  have h5 := (h2.addAffine h4).toAffine
  rw [e] at h5
  have e2 : blsU • (blsU • P + P + -psi.hom P) + -psi.hom P + -P + psi.hom (psi.hom (P + P)) =
      Grp.clr blsU psi.hom P := by
    rw [Grp.clr_apply, map_add, map_add]
    module
  rw [e2] at h5
  exact h5

end Bls
