import Verif.Proof.Clear
import Verif.Proof.SwEncode
import Verif.Proof.TowerVal
import Verif.Proof.Gens
import Verif.Model.Heap
import Verif.Model.Pairing
import Verif.Proof.Denote
/-
C52: the equations that the constants of the library satisfy. `q` and `r` are the numbers in
Verif/Spec/Params.lean; `xi` is `1 + u`. Group orders and cofactors are in C48.
-/
set_option exponentiation.threshold 1000
namespace Bls.Props

/-- The integers of the two coordinates. -/
def _root_.Bls.FQ2.ints (a : FQ2) : N2 := ⟨a.c0.int, a.c1.int⟩

theorem ints_toF (a : FQ2) : a.ints.toF = a.fld := rfl

theorem cast_int {a : FQ} {x : Fq} (h : a.Rep x) : (a.int : Fq) = x := by
  rw [h.int, ZMod.natCast_zmod_val]

theorem toF_one : (⟨1, 0⟩ : N2).toF = 1 := N2.toF_one

/-- The two moduli are the primes of the BLS12 family at the library's loop parameter. -/
theorem C52_moduli : Nat.Prime q ∧ Nat.Prime r ∧ qFieldModulus.toNat = q ∧ rFieldModulus.toNat = r ∧
    blsIsNegative = true ∧
    (∀ x : ℤ, x = -(blsX.toNat : ℤ) → (r : ℤ) = x ^ 4 - x ^ 2 + 1 ∧ 3 * (q : ℤ) = (x - 1) ^ 2 * (x ^ 4 - x ^ 2 + 1) + 3 * x) := by
  refine ⟨q_prime, r_prime, by rw [q]; decide +kernel, by rw [r]; decide +kernel, rfl, ?_⟩
  intro x hx
  have e : blsX.toNat = 0xd201000000010000 := by decide +kernel
  rw [e] at hx
  subst hx
  rw [r, q]
  exact ⟨by norm_num, by norm_num⟩

/-- The constants of Montgomery reduction. -/
theorem C52_montgomery :
    (montInvFQ.toNat * q + 1) % 2 ^ 64 = 0 ∧ fqR2.toNat = 2 ^ 768 % q ∧
    (montInvFR.toNat * r + 1) % 2 ^ 64 = 0 ∧ frR2.toNat = 2 ^ 512 % r ∧
    FQ.one.int = 1 ∧ FQ.zero.int = 0 ∧ FR.one.int = 1 ∧ FR.zero.int = 0 := by
  rw [q, r]; decide +kernel

open Heap in
/-- The package variables of the scalar field after initialization, in the memory model: `FRR` is `2^256`, `bigOneFR` and
`bigZeroFR` are the Montgomery forms of 1 and 0. -/
theorem C52_globals :
    (init.cell aRFieldModulus).toNat = r ∧ (init.cell aFRR).toNat = 2 ^ 256 % r ∧ (init.cell aFRR2).toNat = 2 ^ 512 % r ∧
    (init.cell aRMinus1Over2).toNat = (r - 1) / 2 ∧
    (init.cell (init.fr aBigOneFR)).toNat = 2 ^ 256 % r ∧ (init.cell (init.fr aBigZeroFR)).toNat = 0 := by
  rw [r]; decide +kernel

/-- The exponents and the small constants of the base field and of the scalar field. -/
theorem C52_field :
    4 * FQ.qMinus3Over4.toNat + 3 = q ∧ FQ.negativeOne.toNat + 1 = q ∧ FQ.negativeOneFQ.int + 1 = q ∧
    2 * FQ.qMinus1Over2.toNat + 1 = q ∧ 2 * FR.rMinus1Over2.toNat + 1 = r ∧
    FQ.negativeOneFQ.isValid = true ∧ bigZero.toNat = 0 ∧ bigOne.toNat = 1 ∧ bigTwo.toNat = 2 := by
  rw [q, r]; decide +kernel

/-- The curve coefficients `4` and `4 + 4u`, the coordinates of the generators, and the scalar of the subgroup check. -/
theorem C52_curve :
    G1Affine.bCoeff.isValid ∧ G1Affine.bCoeff.int = 4 ∧ G2Affine.bCoeffFQ2.isValid ∧ G2Affine.bCoeffFQ2.fld = 4 * xi ∧
    frChar.toNat = r ∧
    (∃ G : E1, G1Affine.one.Denotes G ∧ addOrderOf G = r) ∧ (∃ G : E2, G2Affine.one.Denotes G ∧ addOrderOf G = r) := by
  refine ⟨by decide +kernel, by decide +kernel, by decide +kernel, ?_, ?_, ?_, ?_⟩
  · have h : N2.mul ⟨4, 0⟩ ⟨1, 1⟩ = G2Affine.bCoeffFQ2.ints := by decide +kernel
    have h := congrArg N2.toF h
    rw [N2.toF_mul, ints_toF, xi_toF, show (⟨4, 0⟩ : N2).toF = 4 from by
      rw [← map_ofNat Fq2.of 4]; ext1 <;> simp only [N2.toF, Nat.cast_zero, Nat.cast_ofNat] <;> rfl] at h
    exact h.symm
  · rw [r]; decide +kernel
  · exact ⟨g1Gen, G1Affine.denotes_iff.mpr G1Affine.one_rep, addOrderOf_g1Gen⟩
  · exact ⟨g2Gen, G2Affine.denotes_iff.mpr G2Affine.one_rep, addOrderOf_g2Gen⟩

/-- The Frobenius coefficients of Fq2, Fq6 and Fq12. -/
theorem C52_frobenius :
    (∀ i < 2, (FQ2.frobeniusCoeffC1 i).isValid ∧ ((FQ2.frobeniusCoeffC1 i).int : Fq) = (-1) ^ ((q ^ i - 1) / 2)) ∧
    (∀ i < 6, (FQ6.frobeniusCoeffC1 i).isValid ∧ (FQ6.frobeniusCoeffC1 i).fld = xi ^ ((q ^ i - 1) / 3)) ∧
    (∀ i < 6, (FQ6.frobeniusCoeffC2 i).isValid ∧ (FQ6.frobeniusCoeffC2 i).fld = xi ^ ((2 * q ^ i - 2) / 3)) ∧
    (∀ i < 12, (FQ12.frobeniusCoeffC1 i).isValid ∧ (FQ12.frobeniusCoeffC1 i).fld = xi ^ ((q ^ i - 1) / 6)) := by
  have hm : ∀ i, q ^ i % 6 = 1 := fun i => by rw [Nat.pow_mod, q_mod6, one_pow, Nat.one_mod]
  have hp : ∀ i, 0 < q ^ i := fun i => Nat.pow_pos q_pos
  have c1 : ∀ i < 6, (FQ6.frobeniusCoeffC1 i).isValid ∧ (FQ6.frobeniusCoeffC1 i).fld = xi ^ ((q ^ i - 1) / 3) := by
    intro i hi
    have h1 := List.all_eq_true.mp frobC1_ok i (List.mem_range.mpr hi)
    rw [Bool.and_eq_true] at h1
    have g := (FQ2.rep_ok h1.1).out
    refine ⟨g.1, g.2.trans ?_⟩
    have e := Fq6.v_pow i
    rw [Nat.mod_eq_of_lt hi] at e
    have e2 : q ^ i = 3 * ((q ^ i - 1) / 3) + 1 := by have := hm i; have := hp i; omega
    have e3 : Fq6.v ^ q ^ i = Fq6.of (xi ^ ((q ^ i - 1) / 3)) * Fq6.v := by
      conv_lhs => rw [e2]
      rw [pow_succ, pow_mul, Fq6.v_cube, ← map_pow]
    rw [e3] at e
    generalize xi ^ ((q ^ i - 1) / 3) = A at *
    have e4 := congrArg Fq6.c1 e
    simpa using e4.symm
  refine ⟨?_, c1, ?_, ?_⟩
  · intro i hi
    have h := frobeniusCoeffFQ2_rep i
    refine ⟨h.isValid, (cast_int h).trans ?_⟩
    interval_cases i
    · simp
    · rw [if_neg (by decide), pow_one, Odd.neg_one_pow (Nat.odd_iff.mpr (by have := q_mod4; omega))]
  · intro i hi
    have h2 := List.all_eq_true.mp frobC2_ok i (List.mem_range.mpr hi)
    rw [Bool.and_eq_true, decide_eq_true_eq] at h2
    have h1 := List.all_eq_true.mp frobC1_ok i (List.mem_range.mpr hi)
    rw [Bool.and_eq_true] at h1
    have g1 := (FQ2.rep_ok h1.1).out
    have g := (FQ2.rep_ok h2.1).out
    refine ⟨g.1, g.2.trans ?_⟩
    rw [h2.2, N2.toF_mul, ← g1.2, (c1 i hi).2, ← pow_add]
    congr 1
    have := hm i; have := hp i; omega
  · intro i hi
    have h1 := List.all_eq_true.mp frob12_ok i (List.mem_range.mpr hi)
    rw [Bool.and_eq_true] at h1
    have g := (FQ2.rep_ok h1.1).out
    refine ⟨g.1, g.2.trans ?_⟩
    have e := Fq12.w_pow i
    rw [Nat.mod_eq_of_lt hi] at e
    have e2 : q ^ i = 6 * ((q ^ i - 1) / 6) + 1 := by have := hm i; have := hp i; omega
    have e3 : Fq12.w ^ q ^ i = Fq12.ofFq2 (xi ^ ((q ^ i - 1) / 6)) * Fq12.w := by
      conv_lhs => rw [e2]
      rw [pow_succ, pow_mul, Fq12.w_pow_six, ← map_pow]
    rw [e3] at e
    have e4 := mul_right_cancel₀ (Fq12.w_ne) e
    exact (Fq12.ofFq2.injective e4).symm

/-- The constants of hashing to G1: the curve `E1'` and the isogeny `(x, y) ↦ (xNum/xDen, y·yNum/yDen)` to `E1`,
as identities of polynomial functions. -/
theorem C52_isogeny11 (x : Fq) :
    let f : List FQ → Fq := fun l => polyAt (l.map fun c => (c.int : Fq)) x
    ((ellPA.int : Fq) = swuA1 ∧ (ellPB.int : Fq) = swuB1) ∧
    f yDen11 ^ 2 = f xDen11 ^ 3 ∧
    f yNum11 ^ 2 * (x ^ 3 + (ellPA.int : Fq) * x + (ellPB.int : Fq)) = f xNum11 ^ 3 + 4 * f xDen11 ^ 3 := by
  have e1 : xNum11.map FQ.int = iso11XNum := by decide +kernel
  have e2 : xDen11.map FQ.int = iso11XDen := by decide +kernel
  have e3 : yNum11.map FQ.int = iso11YNum := by decide +kernel
  have e4 : yDen11.map FQ.int = iso11YDen := by decide +kernel
  have e5 : ellPA.int = swuA1 := by unfold swuA1; decide +kernel
  have e6 : ellPB.int = swuB1 := by unfold swuB1; decide +kernel
  have key : ∀ l : List FQ, (l.map fun c => (c.int : Fq)) = (l.map FQ.int).map Nat.cast := fun l => by
    rw [List.map_map]; rfl
  intro f
  simp only [f, key, e1, e2, e3, e4, e5, e6]
  exact ⟨⟨trivial, trivial⟩, iso11_den x, iso11_num x⟩

/-- The constants of hashing to G2: the curve `E2'` and the isogeny to `E2`. -/
theorem C52_isogeny3 (x : Fq2) :
    let f : List FQ2 → Fq2 := fun l => polyAt (l.map FQ2.fld) x
    (ell2pA.fld = 240 * Fq2.u ∧ ell2pB.fld = 1012 * (1 + Fq2.u)) ∧
    f yDen3 ^ 2 = f xDen3 ^ 3 ∧
    f yNum3 ^ 2 * (x ^ 3 + ell2pA.fld * x + ell2pB.fld) = f xNum3 ^ 3 + 4 * xi * f xDen3 ^ 3 := by
  have e1 : xNum3.map FQ2.ints = N2L.of iso3XNum := by decide +kernel
  have e2 : xDen3.map FQ2.ints = N2L.of iso3XDen := by decide +kernel
  have e3 : yNum3.map FQ2.ints = N2L.of iso3YNum := by decide +kernel
  have e4 : yDen3.map FQ2.ints = N2L.of iso3YDen := by decide +kernel
  have e5 : ell2pA.ints = N2.mul ⟨240, 0⟩ ⟨0, 1⟩ := by decide +kernel
  have e6 : ell2pB.ints = N2.mul ⟨1012, 0⟩ (N2.add ⟨1, 0⟩ ⟨0, 1⟩) := by decide +kernel
  have n : ∀ k : ℕ, (⟨k, 0⟩ : N2).toF = (k : Fq2) := fun k => by
    rw [← map_natCast Fq2.of k]; ext1 <;> simp only [N2.toF, Nat.cast_zero] <;> rfl
  have hu : (⟨0, 1⟩ : N2).toF = Fq2.u := by ext <;> simp [N2.toF]
  have e5 : ell2pA.fld = 240 * Fq2.u := by rw [← ints_toF, e5, N2.toF_mul, n, hu, Nat.cast_ofNat]
  have e6 : ell2pB.fld = 1012 * (1 + Fq2.u) := by
    rw [← ints_toF, e6, N2.toF_mul, N2.toF_add, n, n, hu, Nat.cast_ofNat, Nat.cast_one]
  have a : swuA2 = ell2pA.fld := by
    rw [e5, ← hu, show (240 : Fq2) = (240 : ℕ) from by norm_num, ← n, ← N2.toF_mul, swuA2_toF]
    exact congrArg N2.toF (by decide +kernel)
  have b : swuB2 = ell2pB.fld := by
    rw [← ints_toF, swuB2_toF]; exact congrArg N2.toF (by decide +kernel)
  have key : ∀ l : List FQ2, polyAt (l.map FQ2.fld) x = N2L.ev (l.map FQ2.ints) x := fun l => by
    unfold N2L.ev; rw [List.map_map]; rfl
  have hb : b2 = 4 * xi := by
    rw [show (4 : Fq2) = ((4 : ℕ) : Fq2) from by norm_num, ← n, ← xi_toF, ← N2.toF_mul,
      show N2.mul ⟨4, 0⟩ ⟨1, 1⟩ = ⟨4, 4⟩ from by decide +kernel]
    ext <;> simp [N2.toF, b2]
  intro f
  simp only [f, key, e1, e2, e3, e4, N2L.ev_of]
  refine ⟨⟨e5, e6⟩, iso3_den x, ?_⟩
  rw [← a, ← b, ← hb]
  exact iso3_num x

/-- The constants of `psi`: with `ψ(x, y) = (xi·kx·conj(iwsc·x), xi²·ky·conj(iwsc·y))`, the factors are those that undo
the twist. -/
theorem C52_psi : iwsc.isValid ∧ kQiX.isValid ∧ kQiY.isValid ∧ fq2nqr.fld = xi ∧ iwsc.fld * xi = 1 ∧
    xi * Fq2.of (kQiX.int : Fq) * Fq2.conj iwsc.fld * xi ^ ((q - 1) / 3) = 1 ∧
    xi ^ 2 * Fq2.of (kQiY.int : Fq) * Fq2.conj iwsc.fld * xi ^ ((q - 1) / 2) = 1 := by
  have hg : gam = xi ^ ((q - 1) / 6) := gammaN_spec
  have h6 := q_mod6
  have hx : (kQiX.int : Fq) = (kxLit : Fq) := cast_int kQiX_rep
  have hy : (kQiY.int : Fq) = (kyLit : Fq) := cast_int kQiY_rep
  have g2 : xi ^ ((q - 1) / 3) = gam ^ 2 := by rw [hg, ← pow_mul]; congr 1; omega
  have g3 : xi ^ ((q - 1) / 2) = gam ^ 3 := by rw [hg, ← pow_mul]; congr 1; omega
  refine ⟨iwsc_rep.out.1, kQiX_rep.isValid, kQiY_rep.isValid, fq2nqr_rep.out.2, ?_, ?_, ?_⟩
  · rw [iwsc_rep.out.2, ← xi_toF, ← N2.toF_mul, ← toF_one]
    exact congrArg N2.toF (by decide +kernel)
  · rw [iwsc_rep.out.2, hx, g2, psi_kx]
    exact inv_mul_cancel₀ (pow_ne_zero 2 gam_ne)
  · rw [iwsc_rep.out.2, hy, g3, show xi ^ 2 * Fq2.of (kyLit : Fq) * Fq2.conj iwLit.toF =
      xi * (Fq2.of (kyLit : Fq) * xi) * Fq2.conj iwLit.toF from by ring, psi_ky]
    exact inv_mul_cancel₀ (pow_ne_zero 3 gam_ne)

/-- The constants of the encoding to G2. -/
theorem C52_swenc : swencSqrtNegThreeFQ2.isValid ∧ swencSqrtNegThreeFQ2.fld ^ 2 = -3 ∧
    swencSqrtNegThreeMinusOneDivTwoFQ2.isValid ∧
    swencSqrtNegThreeMinusOneDivTwoFQ2.fld = (swencSqrtNegThreeFQ2.fld - 1) / 2 := by
  refine ⟨svdwS_rep.out.1, ?_, svdwH_rep.out.1, ?_⟩
  · rw [svdwS_rep.out.2]; exact svdwS_sq
  · rw [svdwS_rep.out.2, svdwH_rep.out.2]

end Bls.Props
