import Verif.Proof.PairingSteps1
import Verif.Proof.PairingSteps2
import Verif.Proof.PairingSteps3
import Verif.Proof.PairingSteps4
import Verif.Proof.Orders
import Verif.Proof.Bilinear
/-
The pairing on the r-torsion: every r-torsion point of the second curve is an eigenvector of the
Frobenius endomorphism, and the pairing of the two generators is not one.
-/
set_option exponentiation.threshold 5000
namespace Bls
open Chain

/-! ### Eigenvectors -/

theorem u_run : run N2.ops g2x g2y uSlopes 1 g2x g2y = some (blsU, uX, uY) := by decide +kernel

theorem psi_x_nat : N2.mul uX (N2.mul gammaN gammaN) = N2.conj g2x := by decide +kernel
theorem psi_y_nat : N2.mul (N2.neg uY) (N2.mul gammaN (N2.mul gammaN gammaN)) = N2.conj g2y := by decide +kernel

theorem eig_g2Gen : Eig g2Gen := by
  have h1 := run2 g2Gen_isAt u_run
  have h2 := (psi.hom_at g2Gen_isAt).neg
  have hg := gam_ne
  have ex : uX.toF = psi.α * psi.f g2x.toF := by
    have := congrArg N2.toF psi_x_nat
    rw [N2.toF_mul, N2.toF_mul, N2.toF_conj] at this
    change uX.toF = (gam ^ 2)⁻¹ * Fq2.conj g2x.toF
    rw [← this, ← gam]
    field_simp
  have ey : uY.toF = -(psi.β * psi.f g2y.toF) := by
    have := congrArg N2.toF psi_y_nat
    rw [N2.toF_mul, N2.toF_mul, N2.toF_mul, N2.toF_neg, N2.toF_conj] at this
    change uY.toF = -((gam ^ 3)⁻¹ * Fq2.conj g2y.toF)
    rw [← this, ← gam]
    field_simp
  rw [ex, ey] at h1
  exact h1.inj h2

theorem Eig.zero : Eig 0 := by
  unfold Eig
  rw [map_zero, nsmul_zero, neg_zero]

theorem Eig.nsmul {Q : E2} (h : Eig Q) (k : ℕ) : Eig (k • Q) := by
  induction k with
  | zero => rw [zero_nsmul]; exact Eig.zero
  | succ k ih => rw [succ_nsmul]; exact ih.add h

theorem eig_of_torsion {Q : E2} (h : r • Q = 0) : Eig Q := by
  obtain ⟨k, rfl⟩ := E2.torsion h
  exact eig_g2Gen.nsmul k

/-! ### The Miller value at the generators -/

namespace ND
open NPoly

noncomputable def nev (l : List ℕ) : Fq12 := ev Fq12.w l

theorem q_zero : ((qLit : ℕ) : Fq12) = 0 := by
  rw [← map_natCast Fq12.ofFq, Fq.qLit_eq_zero, map_zero]

theorem two_le : 2 ≤ qLit := by decide +kernel

theorem ofFq2_eq (a : Fq2) : Fq12.ofFq2 a = Fq12.ofFq a.c0 + Fq12.ofFq a.c1 * (Fq12.w ^ 6 - 1) := by
  rw [Fq12.w_pow_six, Fq12.ofFq, RingHom.comp_apply, RingHom.comp_apply, ← map_one Fq12.ofFq2, ← map_sub, ← map_mul, ← map_add]
  congr 1
  ext1 <;> simp [xi]

theorem w12 : Fq12.w ^ 12 = 2 * Fq12.w ^ 6 - 2 := by
  have hx : xi * xi = (xi + xi) - (1 + 1) := by
    ext1 <;> simp [xi]
  have h : Fq12.w ^ 12 = Fq12.ofFq2 ((xi + xi) - (1 + 1)) := by
    rw [← hx, map_mul, ← Fq12.w_pow_six, ← pow_add]
  rw [h, map_sub, map_add, map_add, map_one, ← Fq12.w_pow_six]
  ring

theorem nev_mul (a b : List ℕ) : nev (mul qLit a b) = nev a * nev b := ev_mul q_zero two_le w12 a b

/-- The line `y - (l x + m)` at the generator of the first group. -/
noncomputable def line (px py : ℕ) (l m : N2) : List ℕ :=
  [(m.im + (qLit - m.re % qLit)) % qLit, 0, ((l.im + (qLit - l.re % qLit)) * px) % qLit, py, 0, 0,
    qLit - m.im % qLit, 0, ((qLit - l.im % qLit) * px) % qLit]

theorem ev_nine {K : Type*} [CommRing K] (w : K) (a b c d e : ℕ) : ev w [a, 0, b, c, 0, 0, d, 0, e] =
    a + w ^ 2 * b + w ^ 3 * c + w ^ 6 * d + w ^ 8 * e := by
  simp only [ev, Nat.cast_zero]; ring

theorem line_arith {K : Type*} [CommRing K] (w x y l0 l1 m0 m1 : K) :
    (m1 + -m0) + w ^ 2 * ((l1 + -l0) * x) + w ^ 3 * y + w ^ 6 * -m1 + w ^ 8 * (-l1 * x) =
    w ^ 3 * y - ((l0 + l1 * (w ^ 6 - 1)) * (w ^ 2 * x) + (m0 + m1 * (w ^ 6 - 1))) := by ring

theorem cast_q_sub (n : ℕ) : ((qLit - n % qLit : ℕ) : Fq12) = -(n : Fq12) := by
  rw [← map_natCast Fq12.ofFq, N2.cast_neg, map_neg, map_natCast]

theorem nev_line (px py : ℕ) (l m : N2) : nev (line px py l m) = lv (px : Fq) (py : Fq) l.toF m.toF := by
  rw [lv, twX, twY, ofFq2_eq, ofFq2_eq, nev, line, ev_nine]
  rw [NPoly.cast_mod q_zero, NPoly.cast_mod q_zero, NPoly.cast_mod q_zero, Nat.cast_mul, Nat.cast_mul, Nat.cast_add, Nat.cast_add,
    cast_q_sub, cast_q_sub, cast_q_sub, cast_q_sub]
  rw [N2.toF, N2.toF]
  rw [map_natCast, map_natCast, map_natCast, map_natCast, map_natCast, map_natCast]
  ring

/-- The Miller loop on natural numbers, driven by the slopes of the chain. -/
noncomputable def mil (px py : ℕ) (bx bY : N2) : List (Bool × N2) → ℕ → N2 → N2 → List ℕ → Option (ℕ × List ℕ)
  | [], k, _, _, f => some (k, f)
  | (false, l) :: t, k, x, y, f =>
    match dbl N2.ops l x y with
    | some (x', y') =>
      forceL (mul qLit (mul qLit f f) (line px py l (N2.sub y (N2.mul l x)))) fun f' => mil px py bx bY t (2 * k) x' y' f'
    | none => none
  | (true, l) :: t, k, x, y, f =>
    match addp N2.ops l x y bx bY with
    | some (x', y') =>
      forceL (mul qLit f (line px py l (N2.sub y (N2.mul l x)))) fun f' => mil px py bx bY t (k + 1) x' y' f'
    | none => none

theorem mil_run : (mil gxLit gyLit g2x g2y uSlopes 1 g2x g2y [1]).map (fun p => (Nat.beq p.1 blsU, p.2)) = some (true, y0) := by decide +kernel

theorem dbl_slope {R : Type} {o : Ops R} {F : Type*} [Field F] {φ : R → F} (hs : Sound o φ) {l x y : R} {p : R × R}
    (h : Chain.dbl o l x y = some p) : φ l * (φ y + φ y) = φ x * φ x + φ x * φ x + φ x * φ x := by
  unfold Chain.dbl at h
  simp only [Option.ite_none_right_eq_some, Bool.and_eq_true] at h
  have := hs.eqb _ _ h.1.1
  simpa only [hs.mul, hs.add] using this

theorem addp_slope {R : Type} {o : Ops R} {F : Type*} [Field F] {φ : R → F} (hs : Sound o φ) {l x y x' y' : R} {p : R × R}
    (h : Chain.addp o l x y x' y' = some p) : φ l * (φ x - φ x') = φ y - φ y' ∧ φ x - φ x' ≠ 0 := by
  unfold Chain.addp at h
  simp only [Option.ite_none_right_eq_some, Bool.and_eq_true] at h
  have h1 := hs.eqb _ _ h.1.1
  have h2 := hs.nz _ h.1.2
  rw [hs.sub] at h2
  exact ⟨by simpa only [hs.mul, hs.sub] using h1, h2⟩

theorem LD.dbl {A : E2} {x y l : Fq2} (h : IsAt A x y) (h0 : A + A ≠ 0) (hl : l * (y + y) = x * x + x * x + x * x) :
    LD A A l (y - l * x) x x (l * l - x - x) := by
  have ho := h.on
  refine LD.mk' (by convert h using 1; ring) (by convert h using 1; ring) h0 ?_ ?_ ?_
  · ring
  · linear_combination hl
  · linear_combination x * hl - ho

theorem LD.addp {A B : E2} {x y x' y' l : Fq2} (h : IsAt A x y) (h' : IsAt B x' y') (h0 : A + B ≠ 0)
    (hx : x - x' ≠ 0) (hl : l * (x - x') = y - y') :
    LD A B l (y - l * x) x x' (l * l - x - x') := by
  have ho := h.on
  have ho' := h'.on
  have e2 : x * x' + x * (l * l - x - x') + x' * (l * l - x - x') = -2 * l * (y - l * x) := by
    refine mul_left_cancel₀ hx ?_
    linear_combination ho - ho' + (y + y' - l * x + l * x') * hl
  refine LD.mk' (by convert h using 1; ring) (by convert h' using 1; linear_combination -hl) h0 ?_ ?_ ?_
  · ring
  · exact e2
  · linear_combination x * e2 - ho

theorem phi_step {F L : Fq12} (hF : F ≠ 0) (hL : L ≠ 0) {M C : GT} (h1 : phi F hF = M) (h2 : C = phi L hL) :
    phi (F * L) (mul_ne_zero hF hL) = M * C := by rw [phi_mul hF hL, h1, h2]

/-- State of the Miller loop after `k`. -/
def Inv (P : E1) (B : E2) (k : ℕ) (x y : N2) (f : List ℕ) : Prop :=
  IsAt (k • B) x.toF y.toF ∧ ∃ h : nev f ≠ 0, phi (nev f) h = millerProd (cc P) B k

theorem inv_dbl {P : E1} {B : E2} {px py : ℕ} (hp : IsAt P (px : Fq) (py : Fq)) {k : ℕ} {x y l x' y' : N2} {f : List ℕ} (h : Inv P B k x y f) (hd : Chain.dbl N2.ops l x y = some (x', y')) :
    Inv P B (2 * k) x' y' (mul qLit (mul qLit f f) (line px py l (N2.sub y (N2.mul l x)))) := by
  obtain ⟨hP, hf, hphi⟩ := h
  have h1 := Chain.dbl_sound N2.ops_sound hP hd
  have hl := dbl_slope N2.ops_sound hd
  have hL := LD.dbl hP h1.ne_zero hl
  have hc := cc_LD hp hL
  have hm : (N2.sub y (N2.mul l x)).toF = y.toF - l.toF * x.toF := by rw [N2.toF_sub, N2.toF_mul]
  have hn := nev_line px py l (N2.sub y (N2.mul l x))
  rw [hm] at hn
  have hne := lv_ne (x := (px : Fq)) (E1.at_y_ne hp) l.toF (y.toF - l.toF * x.toF)
  refine ⟨by rwa [← two_nsmul, ← mul_nsmul'] at h1, ?_⟩
  have e : nev (mul qLit (mul qLit f f) (line px py l (N2.sub y (N2.mul l x)))) = nev f * nev f * lv (px : Fq) (py : Fq) l.toF (y.toF - l.toF * x.toF) := by
    rw [nev_mul, nev_mul, hn]
  have k2 : phi (nev f * nev f) (mul_ne_zero hf hf) = millerProd (cc P) B k ^ 2 := by
    rw [phi_mul hf hf, hphi, pow_two]
  refine ⟨by rw [e]; exact mul_ne_zero (mul_ne_zero hf hf) hne, ?_⟩
  rw [phi_congr e, phi_step (mul_ne_zero hf hf) hne k2 hc, (cc_cocycle P).double]

theorem inv_add {P : E1} {B : E2} {px py : ℕ} {bx bY : N2} (hp : IsAt P (px : Fq) (py : Fq)) (hB : IsAt B bx.toF bY.toF) {k : ℕ} {x y l x' y' : N2} {f : List ℕ} (h : Inv P B k x y f) (hd : Chain.addp N2.ops l x y bx bY = some (x', y')) :
    Inv P B (k + 1) x' y' (mul qLit f (line px py l (N2.sub y (N2.mul l x)))) := by
  obtain ⟨hP, hf, hphi⟩ := h
  have h1 := Chain.addp_sound N2.ops_sound hP hB hd
  obtain ⟨hl, hz⟩ := addp_slope N2.ops_sound hd
  have hL := LD.addp hP hB h1.ne_zero hz hl
  have hc := cc_LD hp hL
  have hm : (N2.sub y (N2.mul l x)).toF = y.toF - l.toF * x.toF := by rw [N2.toF_sub, N2.toF_mul]
  have hn := nev_line px py l (N2.sub y (N2.mul l x))
  rw [hm] at hn
  have hne := lv_ne (x := (px : Fq)) (E1.at_y_ne hp) l.toF (y.toF - l.toF * x.toF)
  refine ⟨by rwa [← succ_nsmul] at h1, ?_⟩
  have e : nev (mul qLit f (line px py l (N2.sub y (N2.mul l x)))) = nev f * lv (px : Fq) (py : Fq) l.toF (y.toF - l.toF * x.toF) := by
    rw [nev_mul, hn]
  refine ⟨by rw [e]; exact mul_ne_zero hf hne, ?_⟩
  rw [phi_congr e, phi_step hf hne hphi hc, millerProd]

theorem mil_sound {P : E1} {B : E2} {px py : ℕ} {bx bY : N2} (hp : IsAt P (px : Fq) (py : Fq)) (hB : IsAt B bx.toF bY.toF) (t : List (Bool × N2)) : ∀ (k : ℕ) (x y : N2) (f : List ℕ) (k' : ℕ) (f' : List ℕ),
    Inv P B k x y f → mil px py bx bY t k x y f = some (k', f') → ∃ x' y', Inv P B k' x' y' f' := by
  induction t with
  | nil =>
    intro k x y f k' f' h hr
    simp only [mil, Option.some.injEq, Prod.mk.injEq] at hr
    obtain ⟨rfl, rfl⟩ := hr
    exact ⟨x, y, h⟩
  | cons a t ih =>
    intro k x y f k' f' h hr
    obtain ⟨d, l⟩ := a
    cases d with
    | false =>
      rw [mil] at hr
      cases e : Chain.dbl N2.ops l x y with
      | none => rw [e] at hr; cases hr
      | some p =>
        obtain ⟨x₁, y₁⟩ := p
        rw [e] at hr
        simp only [forceL_eq] at hr
        exact ih _ _ _ _ _ _ (inv_dbl hp h e) hr
    | true =>
      rw [mil] at hr
      cases e : Chain.addp N2.ops l x y bx bY with
      | none => rw [e] at hr; cases hr
      | some p =>
        obtain ⟨x₁, y₁⟩ := p
        rw [e] at hr
        simp only [forceL_eq] at hr
        exact ih _ _ _ _ _ _ (inv_add hp hB h e) hr

theorem nev_one : nev [1] = 1 := by simp [nev, ev]

theorem inv_one : Inv g1Gen g2Gen 1 g2x g2y [1] := by
  refine ⟨by rw [one_nsmul]; exact g2Gen_isAt, by rw [nev_one]; exact one_ne_zero, ?_⟩
  rw [phi_congr nev_one, (cc_cocycle g1Gen).one]
  apply GT.ext
  rw [phi_val, one_pow, GT.val_one]

theorem mil_value : ∃ h : nev y0 ≠ 0, phi (nev y0) h = millerProd (cc g1Gen) g2Gen blsU := by
  have h := mil_run
  rw [Option.map_eq_some_iff] at h
  obtain ⟨⟨k, f⟩, h1, h2⟩ := h
  simp only [Prod.mk.injEq] at h2
  have hk : k = blsU := Nat.eq_of_beq_eq_true h2.1
  rw [hk, h2.2] at h1
  obtain ⟨x, y, h3⟩ := mil_sound g1Gen_isAt g2Gen_isAt _ _ _ _ _ _ _ inv_one h1
  exact h3.2

theorem nev_chain {a b : List ℕ} {k n m : ℕ} (h : powStep qLit y0 k n a = b) (ha : nev a = nev y0 ^ m)
    (hn : n < 2 ^ k) : nev b = nev y0 ^ (m * 2 ^ k + n) := by
  rw [← h, nev, ev_powStep q_zero two_le w12, Nat.mod_eq_of_lt hn]
  rw [nev, nev] at ha
  rw [ha, ← pow_mul, pow_add, nev]

theorem nev_s0 : nev s0 = nev y0 ^ 0 := by simp [nev, s0, ev]

theorem powAll : ∃ e : ℕ, e = fullExp ∧ nev s68 = nev y0 ^ e := by
  have h := nev_s0
  have h := nev_chain step0 h (by decide +kernel)
  have h := nev_chain step1 h (by decide +kernel)
  have h := nev_chain step2 h (by decide +kernel)
  have h := nev_chain step3 h (by decide +kernel)
  have h := nev_chain step4 h (by decide +kernel)
  have h := nev_chain step5 h (by decide +kernel)
  have h := nev_chain step6 h (by decide +kernel)
  have h := nev_chain step7 h (by decide +kernel)
  have h := nev_chain step8 h (by decide +kernel)
  have h := nev_chain step9 h (by decide +kernel)
  have h := nev_chain step10 h (by decide +kernel)
  have h := nev_chain step11 h (by decide +kernel)
  have h := nev_chain step12 h (by decide +kernel)
  have h := nev_chain step13 h (by decide +kernel)
  have h := nev_chain step14 h (by decide +kernel)
  have h := nev_chain step15 h (by decide +kernel)
  have h := nev_chain step16 h (by decide +kernel)
  have h := nev_chain step17 h (by decide +kernel)
  have h := nev_chain step18 h (by decide +kernel)
  have h := nev_chain step19 h (by decide +kernel)
  have h := nev_chain step20 h (by decide +kernel)
  have h := nev_chain step21 h (by decide +kernel)
  have h := nev_chain step22 h (by decide +kernel)
  have h := nev_chain step23 h (by decide +kernel)
  have h := nev_chain step24 h (by decide +kernel)
  have h := nev_chain step25 h (by decide +kernel)
  have h := nev_chain step26 h (by decide +kernel)
  have h := nev_chain step27 h (by decide +kernel)
  have h := nev_chain step28 h (by decide +kernel)
  have h := nev_chain step29 h (by decide +kernel)
  have h := nev_chain step30 h (by decide +kernel)
  have h := nev_chain step31 h (by decide +kernel)
  have h := nev_chain step32 h (by decide +kernel)
  have h := nev_chain step33 h (by decide +kernel)
  have h := nev_chain step34 h (by decide +kernel)
  have h := nev_chain step35 h (by decide +kernel)
  have h := nev_chain step36 h (by decide +kernel)
  have h := nev_chain step37 h (by decide +kernel)
  have h := nev_chain step38 h (by decide +kernel)
  have h := nev_chain step39 h (by decide +kernel)
  have h := nev_chain step40 h (by decide +kernel)
  have h := nev_chain step41 h (by decide +kernel)
  have h := nev_chain step42 h (by decide +kernel)
  have h := nev_chain step43 h (by decide +kernel)
  have h := nev_chain step44 h (by decide +kernel)
  have h := nev_chain step45 h (by decide +kernel)
  have h := nev_chain step46 h (by decide +kernel)
  have h := nev_chain step47 h (by decide +kernel)
  have h := nev_chain step48 h (by decide +kernel)
  have h := nev_chain step49 h (by decide +kernel)
  have h := nev_chain step50 h (by decide +kernel)
  have h := nev_chain step51 h (by decide +kernel)
  have h := nev_chain step52 h (by decide +kernel)
  have h := nev_chain step53 h (by decide +kernel)
  have h := nev_chain step54 h (by decide +kernel)
  have h := nev_chain step55 h (by decide +kernel)
  have h := nev_chain step56 h (by decide +kernel)
  have h := nev_chain step57 h (by decide +kernel)
  have h := nev_chain step58 h (by decide +kernel)
  have h := nev_chain step59 h (by decide +kernel)
  have h := nev_chain step60 h (by decide +kernel)
  have h := nev_chain step61 h (by decide +kernel)
  have h := nev_chain step62 h (by decide +kernel)
  have h := nev_chain step63 h (by decide +kernel)
  have h := nev_chain step64 h (by decide +kernel)
  have h := nev_chain step65 h (by decide +kernel)
  have h := nev_chain step66 h (by decide +kernel)
  have h := nev_chain step67 h (by decide +kernel)
  refine ⟨_, ?_, h⟩
  rw [fullExp, q, r]; decide +kernel

/-- The inverse of the pairing value minus one. -/
def iv : List ℕ := [0xd0088f51cbff34d258dd3db21a5d66bb23ba5c279c2895fb39869507b587b120f55ffff58a9ffffdcff7fffffffd555, 0x10e0016a9d3f1848875d55c15f04f3207a9490c7af3c45ddd36d9c179900e52efbf465a3d91b4c467677f74bd16f63bd, 0x0, 0x9bcf8a48dd4c8e4b6c281c3e3d7fba9255434057c16838903a80da75e9cedd0a0deebf5b2db6ff32733ed124479bdc8, 0x0, 0x19dda70322a574e9323e61220d06c0711a6e00f7acfc8dba1ad9a90fc5bf9acac36fbe9740d0528df9daf7eefb51682c, 0x0, 0x46fe155afdaa2611b1a476d7f530d9ae75e1b08697d1f230c24c8b232e7b9f6fa3f994fe31d69609b1f99974e0afb8, 0x0, 0x1732ebefc3f52516747c627672258c2a04799722e7bff67d24ce6d3258cdfaed8805ce8289c8a474f0c50bf3019b1b0a, 0x0, 0x164874c8b3c9f16c872ba92197796ed333d6708c43f3052cc1f4a3dc012e20119a7c64890a3624ef55bd04526c224df7]

theorem iv_mul : mul qLit (add s68 [qLit - 1]) iv = s0 := by decide +kernel

theorem nev_s68_ne : nev s68 ≠ 1 := by
  intro h
  have h1 := congrArg nev iv_mul
  have h2 : ((qLit - 1 : ℕ) : Fq12) = -1 := by
    rw [Nat.cast_sub (by decide +kernel), q_zero, Nat.cast_one, zero_sub]
  have h3 : nev (add s68 [qLit - 1]) = 0 := by
    rw [nev, ev_add, ← nev, h, ev, ev, h2]; ring
  rw [nev_mul, h3, zero_mul, nev_s0, pow_zero] at h1
  exact zero_ne_one h1

end ND

/-- The pairing of the generators is not one. -/
theorem ee_gens_ne_one : ee g1Gen g2Gen ≠ 1 := by
  intro h
  obtain ⟨hy, hv⟩ := ND.mil_value
  rw [ee, inv_eq_one, ← hv] at h
  have h1 := congrArg GT.val h
  obtain ⟨e, rfl, he⟩ := ND.powAll
  rw [phi_val, GT.val_one, ← he] at h1
  exact ND.nev_s68_ne h1

/-! ### Bilinearity on the r-torsion -/

theorem ee_zero_right (P : E1) : ee P 0 = 1 := by
  have h := ee_add_right P Eig.zero Eig.zero
  rw [add_zero] at h
  exact (left_eq_mul.mp h)

theorem ee_nsmul_left (P : E1) {Q : E2} (hQ : r • Q = 0) (k : ℕ) : ee (k • P) Q = ee P Q ^ k := by
  induction k with
  | zero => rw [zero_nsmul, ee_zero_left, pow_zero]
  | succ k ih => rw [succ_nsmul, ee_add_left _ _ (eig_of_torsion hQ), ih, pow_succ]

theorem ee_nsmul_right (P : E1) {Q : E2} (hQ : r • Q = 0) (k : ℕ) : ee P (k • Q) = ee P Q ^ k := by
  induction k with
  | zero => rw [zero_nsmul, ee_zero_right, pow_zero]
  | succ k ih => rw [succ_nsmul, ee_add_right _ ((eig_of_torsion hQ).nsmul k) (eig_of_torsion hQ), ih, pow_succ]

theorem orderOf_gens : orderOf (ee g1Gen g2Gen) = r :=
  orderOf_eq_prime (ee_pow_r _ _) ee_gens_ne_one

/-- Non-degeneracy: the pairing of nonzero r-torsion points is not one. -/
theorem ee_ne_one {P : E1} {Q : E2} (hP : r • P = 0) (hQ : r • Q = 0) (hP0 : P ≠ 0) (hQ0 : Q ≠ 0) : ee P Q ≠ 1 := by
  obtain ⟨a, rfl⟩ := E1.torsion hP
  obtain ⟨b, rfl⟩ := E2.torsion hQ
  rw [ee_nsmul_left _ hQ, ee_nsmul_right _ r_smul_g2Gen, ← pow_mul]
  intro h
  have h1 := orderOf_dvd_of_pow_eq_one h
  rw [orderOf_gens] at h1
  rcases r_prime.dvd_mul.mp h1 with h | h
  · apply hQ0
    rw [← addOrderOf_g2Gen] at h
    exact addOrderOf_dvd_iff_nsmul_eq_zero.mp h
  · apply hP0
    rw [← addOrderOf_g1Gen] at h
    exact addOrderOf_dvd_iff_nsmul_eq_zero.mp h

/-- A torsion point is determined by its pairing with a nonzero torsion point. -/
theorem ee_left_inj {P P' : E1} {Q : E2} (hP : r • P = 0) (hP' : r • P' = 0) (hQ : r • Q = 0) (hQ0 : Q ≠ 0)
    (h : ee P Q = ee P' Q) : P = P' := by
  by_contra hne
  have hs : r • (P - P') = 0 := by rw [nsmul_sub, hP, hP', sub_zero]
  refine ee_ne_one hs hQ (sub_ne_zero.mpr hne) hQ0 ?_
  rw [sub_eq_add_neg, ee_add_left _ _ (eig_of_torsion hQ), ee_neg_left, h, mul_inv_cancel]

theorem ee_right_inj {P : E1} {Q Q' : E2} (hP : r • P = 0) (hQ : r • Q = 0) (hQ' : r • Q' = 0) (hP0 : P ≠ 0)
    (h : ee P Q = ee P Q') : Q = Q' := by
  by_contra hne
  have hs : r • (Q - Q') = 0 := by rw [nsmul_sub, hQ, hQ', sub_zero]
  refine ee_ne_one hP hs hP0 (sub_ne_zero.mpr hne) ?_
  have h2 := ee_add_right P (eig_of_torsion hs) (eig_of_torsion hQ')
  rw [sub_add_cancel, h] at h2
  exact right_eq_mul.mp h2

end Bls
