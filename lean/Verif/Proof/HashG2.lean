import Verif.Model.Hash
import Verif.Proof.Swu
import Verif.Proof.HashG1
import Verif.Proof.N2
import Verif.Proof.G2
/-
The SWU map, the addition on `E2'` and the 3-isogeny of hash.go.
-/
set_option exponentiation.threshold 1000
namespace Bls

/-- The element of Fq2 with the two given integers as coordinates. -/
def fqHex2 (p : ℕ × ℕ) : FQ2 := ⟨fqHex p.1, fqHex p.2⟩

theorem fqHex2_rep {p : ℕ × ℕ} (h : p.1 < q ∧ p.2 < q) : (fqHex2 p).Rep (mkFq2 p) :=
  ⟨fqHex_rep h.1, fqHex_rep h.2⟩

theorem horner2_rep {l : List (ℕ × ℕ)} (h : ∀ c ∈ l, c.1 < q ∧ c.2 < q) (h0 : l ≠ []) {a : FQ2} {x : Fq2}
    (ha : a.Rep x) : (hornerFQ2 (l.map fqHex2) a).Rep (polyAt (l.map mkFq2) x) := by
  have key : ∀ (l : List (ℕ × ℕ)), (∀ c ∈ l, c.1 < q ∧ c.2 < q) → ∀ c : ℕ × ℕ, (c.1 < q ∧ c.2 < q) →
      ((l.map fqHex2).foldr (fun c v => (v.mul a).add c) (fqHex2 c)).Rep
        (polyAt ((l ++ [c]).map mkFq2) x) := by
    intro l
    induction l with
    | nil => intro _ c hc; simpa [polyAt] using fqHex2_rep hc
    | cons d l ih =>
      intro hl c hc
      have h1 := ih (fun e he => hl e (List.mem_cons_of_mem _ he)) c hc
      have h2 := (h1.mul ha).add (fqHex2_rep (hl d List.mem_cons_self))
      simp only [List.cons_append, List.map_cons, polyAt_cons, List.foldr_cons]
      rw [show mkFq2 d + x * polyAt ((l ++ [c]).map mkFq2) x = polyAt ((l ++ [c]).map mkFq2) x * x + mkFq2 d from by ring]
      exact h2
  rcases List.eq_nil_or_concat l with e | ⟨l', c, e⟩
  · exact absurd e h0
  · rw [e, List.concat_eq_append]
    rw [e, List.concat_eq_append] at h
    have := key l' (fun d hd => h d (by simp [hd])) c (h c (by simp))
    unfold hornerFQ2
    rw [List.map_append, List.map_cons, List.map_nil, List.reverse_append, List.reverse_cons, List.reverse_nil,
      List.nil_append, List.singleton_append]
    rw [List.map_append, List.map_cons, List.map_nil] at this ⊢
    dsimp only
    rw [List.foldl_reverse]
    exact this

/-- A finite point with the coordinates `x`, `y`. -/
def G2Affine.At (a : G2Affine) (x y : Fq2) : Prop := a.infinity = false ∧ a.x.Rep x ∧ a.y.Rep y

theorem Fq.isNeg_zero : ¬ Fq.IsNeg 0 := by unfold Fq.IsNeg; simp

open Classical in
theorem signFQ2_spec {a : FQ2} {x : Fq2} (h : a.Rep x) : signFQ2 a = if Fq2.IsNeg x then -1 else 1 := by
  have h4 := q_mod4
  have e : (q - 1) / 2 = q / 2 := by omega
  have hq := q_pos
  have ht : (FQ.ofRepr FQ.qMinus1Over2).Rep ((q / 2 : ℕ) : Fq) := by
    have := FQ.ofRepr_rep (o := FQ.qMinus1Over2) (by rw [qMinus1Over2_toNat]; omega)
    rwa [qMinus1Over2_toNat] at this
  have hv : ((q / 2 : ℕ) : Fq).val = q / 2 := by rw [ZMod.val_natCast]; exact Nat.mod_eq_of_lt (by omega)
  have h1 : ∀ {b : FQ} {y : Fq}, b.Rep y → (b.cmp (FQ.ofRepr FQ.qMinus1Over2) > 0 ↔ Fq.IsNeg y) := by
    intro b y hb
    rw [hb.cmp ht, hv, Fq.IsNeg, e]
    split_ifs <;> simp <;> omega
  have h0 : ∀ {b : FQ} {y : Fq}, b.Rep y → (b.cmp FQ.zero > 0 ↔ y ≠ 0) := by
    intro b y hb
    rw [hb.cmp FQ.zero_rep, ZMod.val_zero, Ne, ← ZMod.val_eq_zero]
    rw [if_neg (Nat.not_lt_zero _)]
    split_ifs with c <;> simp [c]
  unfold signFQ2
  dsimp only
  simp only [h1 h.c1, h0 h.c1, h1 h.c0, h0 h.c0]
  unfold Fq2.IsNeg
  by_cases c1 : x.c1 = 0
  · simp only [c1, Fq.isNeg_zero]; simp
  · by_cases c2 : Fq.IsNeg x.c1 <;> simp [c1, c2]

theorem Fq2.isNeg_neg {x : Fq2} (h : x ≠ 0) : Fq2.IsNeg (-x) ↔ ¬ Fq2.IsNeg x := by
  unfold Fq2.IsNeg
  simp only [Fq2.neg_c0, Fq2.neg_c1, neg_eq_zero]
  by_cases c1 : x.c1 = 0
  · have c0 : x.c0 ≠ 0 := fun e => h (by ext; exacts [e, c1])
    simp [c1, Fq.isNeg_zero, Fq.isNeg_neg c0]
  · simp [c1, Fq.isNeg_neg c1]

theorem matchSign_spec {a b : FQ2} {t y : Fq2} (ha : a.Rep t) (hb : b.Rep y) :
    ∃ y', (matchSign a b).Rep y' ∧ y' * y' = y * y ∧ (y' ≠ 0 → (Fq2.IsNeg y' ↔ Fq2.IsNeg t)) := by
  unfold matchSign
  rw [signFQ2_spec ha, signFQ2_spec hb]
  by_cases c : (Fq2.IsNeg t ↔ Fq2.IsNeg y)
  · refine ⟨y, ?_, rfl, fun _ => c.symm⟩
    rw [if_neg]; · exact hb
    by_cases c1 : Fq2.IsNeg t <;> by_cases c2 : Fq2.IsNeg y <;> simp [c1, c2] at c ⊢
  · refine ⟨-y, ?_, by ring, fun h => ?_⟩
    · rw [if_pos]; · exact hb.neg
      by_cases c1 : Fq2.IsNeg t <;> by_cases c2 : Fq2.IsNeg y <;> simp [c1, c2] at c ⊢
    · rw [Fq2.isNeg_neg (fun e => h (by rw [e, neg_zero]))]
      by_cases c1 : Fq2.IsNeg t <;> by_cases c2 : Fq2.IsNeg y <;> simp [c1, c2] at c ⊢

theorem fqSmall_rep {n : W} (h : n.toNat < q) : (FQ.ofRepr (.new n)).Rep (n.toNat : Fq) := by
  have e : (FQRepr.new n).toNat = n.toNat := by simp [FQRepr.new, FQRepr.toNat]
  have := FQ.ofRepr_rep (o := FQRepr.new n) (by rw [e]; exact h)
  rwa [e] at this

theorem ell2pA_rep : ell2pA.Rep swuA2 := by
  unfold ell2pA swuA2 mkFq2
  exact ⟨fqSmall_rep (n := 0) (by rw [q_eq]; decide +kernel), fqSmall_rep (n := 240) (by rw [q_eq]; decide +kernel)⟩
theorem ell2pB_rep : ell2pB.Rep swuB2 := by
  unfold ell2pB swuB2 mkFq2
  exact ⟨fqSmall_rep (n := 1012) (by rw [q_eq]; decide +kernel), fqSmall_rep (n := 1012) (by rw [q_eq]; decide +kernel)⟩
theorem fq2nqr_rep : fq2nqr.Rep xi := by
  unfold fq2nqr; exact ⟨FQ.one_rep, FQ.one_rep⟩

theorem swuA2_toF : swuA2 = (⟨0, 240⟩ : N2).toF := rfl
theorem swuB2_toF : swuB2 = (⟨1012, 1012⟩ : N2).toF := rfl

theorem N2.ne_of {a b : N2} (ha : a.re < qLit) (hb : b.re < qLit) (ha' : a.im < qLit) (hb' : b.im < qLit)
    (h : a ≠ b) : a.toF ≠ b.toF := by
  intro e
  have e1 := congrArg Fq2.c0 e
  have e2 := congrArg Fq2.c1 e
  rw [← q_eq] at *
  have h1 := natCast_inj_of_lt ha hb e1
  have h2 := natCast_inj_of_lt ha' hb' e2
  apply h
  cases a; cases b; simp_all

theorem swu2_A_ne : swuA2 ≠ 0 := by
  rw [swuA2_toF, show (0 : Fq2) = (⟨0, 0⟩ : N2).toF from by ext <;> simp [N2.toF]]
  exact N2.ne_of (by decide +kernel) (by decide +kernel) (by decide +kernel) (by decide +kernel) (by decide)

theorem swu2_exc : IsSquare (weier swuA2 swuB2 (swuB2 / (xi * swuA2))) := by
  obtain ⟨X, S, h1, h2⟩ : ∃ X S : N2, N2.mul X (N2.mul ⟨1, 1⟩ ⟨0, 240⟩) = ⟨1012, 1012⟩ ∧
      N2.add (N2.add (N2.mul X (N2.mul X X)) (N2.mul ⟨0, 240⟩ X)) ⟨1012, 1012⟩ = N2.mul S S :=
    ⟨⟨0, 1267429692486861341248966778149702982909679559647352497021818409772610022655431990406851082557521626945333186310595⟩, ⟨3618635807367071932257088830593156100895424173041531723895761206689772105897953626180322894931444109557042120614462, 3498025241678881281533087020354229128917763428678997226011805906905447515998515038045288870881091370496169069190245⟩, by decide +kernel, by decide +kernel⟩
  have h1 := congrArg N2.toF h1
  have h2 := congrArg N2.toF h2
  simp only [N2.toF_mul, N2.toF_add] at h1 h2
  rw [← swuA2_toF, ← swuB2_toF] at h1 h2
  rw [xi_toF] at h1
  have hA := swu2_A_ne
  have hx : xi ≠ 0 := fun e => Fq2.xi_nonsquare (e ▸ IsSquare.zero)
  have e : swuB2 / (xi * swuA2) = X.toF := by
    rw [div_eq_iff (mul_ne_zero hx hA)]; exact h1.symm
  rw [e]
  exact ⟨S.toF, by rw [← h2, weier]; ring⟩

theorem swu2_pick1 (f : FQ2 → FQ2 → G2Affine) {x0 x1 g0 g1 : FQ2} {s0 s1 : FQ2 × Bool} (h : s0.2 = true)
    (h0 : s0.1.square.equals g0 = true) :
    (if s0.2 && s0.1.square.equals g0 then some (some (f x0 s0.1))
      else if !s1.2 then none else if s1.1.square.equals g1 then some (some (f x1 s1.1)) else some none) =
      some (some (f x0 s0.1)) := by
  rw [if_pos (by rw [h, h0]; rfl)]

theorem swu2_pick2 (f : FQ2 → FQ2 → G2Affine) {x0 x1 g0 g1 : FQ2} {s0 s1 : FQ2 × Bool} (h : s0.2 = false)
    (h' : s1.2 = true) (h0 : s1.1.square.equals g1 = true) :
    (if s0.2 && s0.1.square.equals g0 then some (some (f x0 s0.1))
      else if !s1.2 then none else if s1.1.square.equals g1 then some (some (f x1 s1.1)) else some none) =
      some (some (f x1 s1.1)) := by
  rw [if_neg (by rw [h]; simp), if_neg (by rw [h']; decide), if_pos h0]

theorem swu2Helper_aux {A B ξ : Fq2} (hm : fq2nqr.Rep ξ) (hξ : ¬ IsSquare ξ) (hA : ell2pA.Rep A) (hB : ell2pB.Rep B)
    (hA0 : A ≠ 0) (exc : IsSquare (weier A B (B / (ξ * A)))) {a : FQ2} {t : Fq2} (h : a.Rep t) :
    ∃ p x y, optimizedSWU2MapHelper a = some (some p) ∧ p.At x y ∧ SwuAt A B ξ Fq2.IsNeg t x y := by
  have hN := (hm.square.mul h.square.square).add (hm.mul h.square)
  have hN' : (ξ * ξ * (t * t * (t * t)) + ξ * (t * t) : Fq2) = ξ ^ 2 * t ^ 4 + ξ * t ^ 2 := by ring
  rw [hN'] at hN
  have hz := hN.equals FQ2.zero_rep
  have key : ∀ x0 : FQ2, x0.Rep (swuX0 A B ξ t) →
      ∃ p x y, (if (((x0.square.mul x0).add (ell2pA.mul x0)).add ell2pB).sqrt.2 &&
              (((x0.square.mul x0).add (ell2pA.mul x0)).add ell2pB).sqrt.1.square.equals
                (((x0.square.mul x0).add (ell2pA.mul x0)).add ell2pB) then
            some (some (G2Affine.new x0 (matchSign a (((x0.square.mul x0).add (ell2pA.mul x0)).add ell2pB).sqrt.1)))
          else if !((((fq2nqr.square.mul fq2nqr).mul (a.square.mul a).square).mul
              (((x0.square.mul x0).add (ell2pA.mul x0)).add ell2pB)).sqrt.2) then none
          else if (((fq2nqr.square.mul fq2nqr).mul (a.square.mul a).square).mul
              (((x0.square.mul x0).add (ell2pA.mul x0)).add ell2pB)).sqrt.1.square.equals
                (((fq2nqr.square.mul fq2nqr).mul (a.square.mul a).square).mul
              (((x0.square.mul x0).add (ell2pA.mul x0)).add ell2pB)) then
            some (some (G2Affine.new ((fq2nqr.mul a.square).mul x0) (matchSign a
              (((fq2nqr.square.mul fq2nqr).mul (a.square.mul a).square).mul
              (((x0.square.mul x0).add (ell2pA.mul x0)).add ell2pB)).sqrt.1)))
          else some none) = some (some p) ∧ p.At x y ∧ SwuAt A B ξ Fq2.IsNeg t x y := by
    intro x0 hx0
    have hg : (((x0.square.mul x0).add (ell2pA.mul x0)).add ell2pB).Rep (weier A B (swuX0 A B ξ t)) :=
      (((hx0.square.mul hx0).add (hA.mul hx0)).add hB).of_eq (by unfold weier; ring)
    have fin : ∀ (xx yy : FQ2) (X s : Fq2), xx.Rep X → yy.Rep s → s * s = weier A B X →
        X = swuX A B ξ t →
        ∃ x y, (G2Affine.new xx (matchSign a yy)).At x y ∧ SwuAt A B ξ Fq2.IsNeg t x y := by
      intro xx yy X s hxx hyy hs hX
      obtain ⟨y', h1, h2, h3⟩ := matchSign_spec h hyy
      exact ⟨X, y', ⟨rfl, hxx, h1⟩, hX, by rw [sq, h2, hs], h3⟩
    by_cases hs : IsSquare (weier A B (swuX0 A B ξ t))
    · obtain ⟨e, s, hs1, hs2⟩ := hg.sqrt.1 hs
      obtain ⟨x, y, h1, h2⟩ := fin _ _ _ s hx0 hs1 hs2 (by rw [swuX, if_pos hs])
      exact ⟨_, x, y, swu2_pick1 (fun x y => G2Affine.new x (matchSign a y)) e
        ((hs1.square.equals hg).mpr hs2), h1, h2⟩
    · have e := (hg.sqrt.2 hs).1
      have hx1 := ((hm.mul h.square).mul hx0).of_eq
        (show ξ * (t * t) * swuX0 A B ξ t = ξ * t ^ 2 * swuX0 A B ξ t from by ring)
      have hN0 : ξ ^ 2 * t ^ 4 + ξ * t ^ 2 ≠ 0 := by
        intro e; rw [swuX0, if_pos e] at hs; exact hs exc
      have hg1 := (((hm.square.mul hm).mul (h.square.mul h).square).mul hg).of_eq
        (y := weier A B (ξ * t ^ 2 * swuX0 A B ξ t)) (by rw [swu_x1 hA0 hN0]; ring)
      have h2 := (swu_second hA0 Fq2.nonsquare_mul hξ exc hs).1
      obtain ⟨e', s, hs1, hs2⟩ := hg1.sqrt.1 h2
      obtain ⟨x, y, h1, h2⟩ := fin _ _ _ s hx1 hs1 hs2 (by rw [swuX, if_neg hs])
      exact ⟨_, x, y, swu2_pick2 (fun x y => G2Affine.new x (matchSign a y)) e e'
        ((hs1.square.equals hg1).mpr hs2), h1, h2⟩
  unfold optimizedSWU2MapHelper
  dsimp only
  by_cases hc : ξ ^ 2 * t ^ 4 + ξ * t ^ 2 = 0
  · rw [if_pos (hz.mpr hc)]
    refine key _ ?_
    rw [swuX0, if_pos hc]
    exact hB.div (hm.mul hA)
  · rw [if_neg (fun e => hc (hz.mp e))]
    refine key _ ?_
    rw [swuX0, if_neg hc, swuX0_eq hA0 hc]
    exact (hB.neg.mul (hN.add FQ2.one_rep)).div (hA.mul hN)

theorem optimizedSWU2MapHelper_spec {a : FQ2} {t : Fq2} (h : a.Rep t) :
    ∃ p x y, optimizedSWU2MapHelper a = some (some p) ∧ p.At x y ∧ SwuAt swuA2 swuB2 xi Fq2.IsNeg t x y :=
  swu2Helper_aux fq2nqr_rep Fq2.xi_nonsquare ell2pA_rep ell2pB_rep swu2_A_ne swu2_exc h

theorem add_chord2 {P Q : E2'.Point} {a b : G2Affine} {x₁ y₁ x₂ y₂ : Fq2} (ha : a.At x₁ y₁) (hb : b.At x₂ y₂)
    (hP : SwAt P x₁ y₁) (hQ : SwAt Q x₂ y₂) (hx : x₁ ≠ x₂) :
    ∃ x y, SwAt (P + Q) x y ∧ (a.toProjective.addAffine b).toAffine.At x y := by
  obtain ⟨ai, ax, ay⟩ := ha
  obtain ⟨bi, bx, byy⟩ := hb
  have h1 := FQ2.one_rep
  have hz1 : FQ2.one.isZero = false := by
    rw [Bool.eq_false_iff]; exact fun e => one_ne_zero (h1.isZero.mp e)
  have u2 := bx.mul h1.square
  have s2 := (byy.mul h1).mul h1.square
  have hh := u2.sub ax
  have h2 := hh.square
  have i := h2.double.double
  have j := hh.mul i
  have r := (s2.sub ay).double
  have v := ax.mul i
  have nx := ((r.square.sub j).sub v).sub v
  have ny := ((v.sub nx).mul r).sub (ay.mul j).double
  have nz := ((h1.add hh).square.sub h1.square).sub h2
  obtain ⟨hz, hS⟩ := SwAt.mixed (GoodCurve.two_ne (b := b2)) hP hQ hx rfl rfl rfl
  have ep : a.toProjective = ⟨a.x, a.y, FQ2.one⟩ := by
    unfold G2Affine.toProjective G2Affine.isZero; rw [if_neg (by rw [ai]; decide)]
  have hne : ¬ (a.x.equals (b.x.mul FQ2.one.square) && a.y.equals ((b.y.mul FQ2.one).mul FQ2.one.square)) = true := by
    rw [Bool.and_eq_true]; rintro ⟨c, _⟩
    have := (ax.equals u2).mp c
    exact hx (by linear_combination this)
  rw [ep]
  unfold G2Projective.addAffine
  rw [if_neg (by rw [G2Projective.isZero, hz1]; decide), if_neg (by rw [G2Affine.isZero, bi]; decide)]
  dsimp only
  rw [if_neg hne]
  unfold G2Projective.toAffine
  have nz' := nz.of_eq (y := 2 * (x₂ - x₁)) (by ring)
  rw [G2Projective.isZero, if_neg (fun t => hz (nz'.isZero.mp t))]
  dsimp only
  by_cases c1 : (2 * (x₂ - x₁) : Fq2) = 1
  · rw [if_pos ((nz'.equals h1).mpr c1)]
    refine ⟨_, _, hS, rfl, ?_, ?_⟩
    · exact nx.of_eq (by rw [c1]; simp only [inv_one]; ring)
    · exact ny.of_eq (by rw [c1]; simp only [inv_one]; ring)
  · rw [if_neg (fun t => c1 ((nz'.equals h1).mp t))]
    have hi := nz'.inverse
    refine ⟨_, _, hS, rfl, ?_, ?_⟩
    · exact (nx.mul hi.square).of_eq (by ring)
    · exact ((ny.mul hi.square).mul hi).of_eq (by ring)

/-! ### The isogeny -/

namespace N2L

def add : List N2 → List N2 → List N2
  | [], b => b
  | a, [] => a
  | x :: a, y :: b => N2.add x y :: add a b

def scale (c : N2) (a : List N2) : List N2 := a.map (N2.mul c)

def mul : List N2 → List N2 → List N2
  | [], _ => []
  | x :: a, b => add (scale x b) (⟨0, 0⟩ :: mul a b)

def of (l : List (ℕ × ℕ)) : List N2 := l.map fun p => ⟨p.1, p.2⟩

/-- The value at `x`. -/
noncomputable def ev (l : List N2) (x : Fq2) : Fq2 := polyAt (l.map N2.toF) x

theorem ev_nil (x : Fq2) : ev [] x = 0 := rfl
theorem ev_cons (c : N2) (l : List N2) (x : Fq2) : ev (c :: l) x = c.toF + x * ev l x := rfl

theorem ev_add (a b : List N2) (x : Fq2) : ev (add a b) x = ev a x + ev b x := by
  induction a generalizing b with
  | nil => rw [add, ev_nil, zero_add]
  | cons c a ih =>
    cases b with
    | nil => rw [add, ev_nil, add_zero]; simp
    | cons d b => rw [add, ev_cons, ev_cons, ev_cons, ih, N2.toF_add]; ring

theorem ev_scale (c : N2) (a : List N2) (x : Fq2) : ev (scale c a) x = c.toF * ev a x := by
  induction a with
  | nil => rw [scale, List.map_nil, ev_nil, mul_zero]
  | cons d a ih =>
    rw [scale] at ih ⊢
    rw [List.map_cons, ev_cons, ev_cons, ih, N2.toF_mul]; ring

theorem ev_mul (a b : List N2) (x : Fq2) : ev (mul a b) x = ev a x * ev b x := by
  induction a with
  | nil => rw [mul, ev_nil, zero_mul]
  | cons c a ih =>
    rw [mul, ev_add, ev_scale, ev_cons, ev_cons, ih, show (⟨0, 0⟩ : N2).toF = 0 from by ext <;> simp [N2.toF]]
    ring

theorem ev_of (l : List (ℕ × ℕ)) (x : Fq2) : ev (of l) x = polyAt (l.map mkFq2) x := by
  unfold ev of
  rw [List.map_map]; rfl

end N2L

theorem iso3_den (x : Fq2) : polyAt iso3Map.yDen x ^ 2 = polyAt iso3Map.xDen x ^ 3 := by
  have h : N2L.mul (N2L.of iso3YDen) (N2L.of iso3YDen) =
      N2L.mul (N2L.of iso3XDen) (N2L.mul (N2L.of iso3XDen) (N2L.of iso3XDen)) := by
    decide +kernel
  have := congrArg (N2L.ev · x) h
  simp only [N2L.ev_mul, N2L.ev_of] at this
  unfold iso3Map
  linear_combination this

theorem iso3_num (x : Fq2) : polyAt iso3Map.yNum x ^ 2 * weier swuA2 swuB2 x =
    polyAt iso3Map.xNum x ^ 3 + b2 * polyAt iso3Map.xDen x ^ 3 := by
  have h : N2L.mul (N2L.mul (N2L.of iso3YNum) (N2L.of iso3YNum)) [⟨1012, 1012⟩, ⟨0, 240⟩, ⟨0, 0⟩, ⟨1, 0⟩] =
      N2L.add (N2L.mul (N2L.of iso3XNum) (N2L.mul (N2L.of iso3XNum) (N2L.of iso3XNum)))
      (N2L.scale ⟨4, 4⟩ (N2L.mul (N2L.of iso3XDen) (N2L.mul (N2L.of iso3XDen) (N2L.of iso3XDen)))) := by
    decide +kernel
  have := congrArg (N2L.ev · x) h
  simp only [N2L.ev_mul, N2L.ev_of, N2L.ev_add, N2L.ev_scale, N2L.ev_cons, N2L.ev_nil] at this
  rw [← swuA2_toF, ← swuB2_toF, show (⟨0, 0⟩ : N2).toF = 0 from by ext <;> simp [N2.toF],
    show (⟨1, 0⟩ : N2).toF = 1 from N2.toF_one, show (⟨4, 4⟩ : N2).toF = b2 from by ext <;> simp [N2.toF, b2]] at this
  unfold iso3Map weier
  linear_combination this

theorem iso3_xDen (x : Fq2) : polyAt iso3Map.xDen x = (x + (⟨6, 0⟩ : N2).toF - (⟨0, 6⟩ : N2).toF) ^ 2 := by
  have h : N2L.of iso3XDen = N2L.mul [N2.sub ⟨6, 0⟩ ⟨0, 6⟩, ⟨1, 0⟩] [N2.sub ⟨6, 0⟩ ⟨0, 6⟩, ⟨1, 0⟩] := by
    decide +kernel
  have := congrArg (N2L.ev · x) h
  simp only [N2L.ev_mul, N2L.ev_of, N2L.ev_cons, N2L.ev_nil, N2.toF_sub] at this
  rw [show (⟨1, 0⟩ : N2).toF = 1 from N2.toF_one] at this
  unfold iso3Map
  linear_combination this

/-- The denominators do not vanish on `E2'`: the kernel points are not rational. -/
theorem iso3_xDen_ne {x y : Fq2} (on : y ^ 2 = weier swuA2 swuB2 x) : polyAt iso3Map.xDen x ≠ 0 := by
  intro e
  rw [iso3_xDen] at e
  have e := pow_eq_zero_iff (n := 2) (by norm_num) |>.mp e
  have ex : x = (N2.sub ⟨0, 6⟩ ⟨6, 0⟩).toF := by rw [N2.toF_sub]; linear_combination e
  have h : N2.add (N2.add (N2.mul (N2.sub ⟨0, 6⟩ ⟨6, 0⟩) (N2.mul (N2.sub ⟨0, 6⟩ ⟨6, 0⟩) (N2.sub ⟨0, 6⟩ ⟨6, 0⟩)))
      (N2.mul ⟨0, 240⟩ (N2.sub ⟨0, 6⟩ ⟨6, 0⟩))) ⟨1012, 1012⟩ = N2.mul (N2.mul ⟨2, 0⟩ ⟨2, 0⟩) ⟨1, 1⟩ := by decide +kernel
  have := congrArg N2.toF h
  simp only [N2.toF_mul, N2.toF_add] at this
  rw [← ex, ← swuA2_toF, ← swuB2_toF, xi_toF] at this
  have h2 : (⟨2, 0⟩ : N2).toF ≠ 0 := by
    rw [show (0 : Fq2) = (⟨0, 0⟩ : N2).toF from by ext <;> simp [N2.toF]]
    exact N2.ne_of (by decide +kernel) (by decide +kernel) (by decide +kernel) (by decide +kernel) (by decide)
  generalize (⟨2, 0⟩ : N2).toF = two at *
  apply Fq2.xi_nonsquare
  refine ⟨y / two, ?_⟩
  field_simp
  rw [on, weier]
  linear_combination -this

theorem iso3_spec {a : G2Affine} {x y : Fq2} (h : a.At x y) (on : y ^ 2 = weier swuA2 swuB2 x) :
    ∃ R : E2, IsAt R (polyAt iso3Map.xNum x / polyAt iso3Map.xDen x)
      (y * polyAt iso3Map.yNum x / polyAt iso3Map.yDen x) ∧ (iso3 a).Rep R := by
  obtain ⟨_, hx, hy⟩ := h
  have hd := iso3_xDen_ne on
  have hd2 : polyAt iso3Map.yDen x ≠ 0 := by
    intro e; have := iso3_den x; rw [e] at this; exact hd (pow_eq_zero_iff (n := 3) (by norm_num) |>.mp (by rw [← this]; ring))
  have on' : (y * polyAt iso3Map.yNum x / polyAt iso3Map.yDen x) ^ 2 =
      (polyAt iso3Map.xNum x / polyAt iso3Map.xDen x) ^ 3 + b2 := by
    have h1 := iso3_den x
    have h2 := iso3_num x
    rw [div_pow, div_pow, h1]
    rw [← on] at h2
    field_simp
    linear_combination h2
  have a1 := horner2_rep (l := iso3XNum) (by rw [q_eq]; decide +kernel) (by decide) hx
  have a2 := horner2_rep (l := iso3XDen) (by rw [q_eq]; decide +kernel) (by decide) hx
  have a3 := horner2_rep (l := iso3YNum) (by rw [q_eq]; decide +kernel) (by decide) hx
  have a4 := horner2_rep (l := iso3YDen) (by rw [q_eq]; decide +kernel) (by decide) hx
  rw [show iso3XNum.map fqHex2 = xNum3 from by unfold xNum3 iso3XNum; rfl] at a1
  rw [show iso3XDen.map fqHex2 = xDen3 from by unfold xDen3 iso3XDen; rfl] at a2
  rw [show iso3YNum.map fqHex2 = yNum3 from by unfold yNum3 iso3YNum; rfl] at a3
  rw [show iso3YDen.map fqHex2 = yDen3 from by unfold yDen3 iso3YDen; rfl] at a4
  unfold iso3
  refine ⟨pt _ _ on', pt_isAt on', Or.inr ⟨rfl, _, _, a1.div a2, (hy.mul a3).div a4, pt_isAt on'⟩⟩

end Bls
