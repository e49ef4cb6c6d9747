import Verif.Model.Hash
import Verif.Proof.Swu
import Verif.Proof.NPoly
import Verif.Proof.Encode
import Verif.Proof.G1
import Verif.Proof.FQInverse
/-
The SWU map, the addition on `E1'` and the 11-isogeny of hash.go.
-/
set_option exponentiation.threshold 1000
namespace Bls

theorem fqHex_rep {n : ℕ} (h : n < q) : (fqHex n).Rep (n : Fq) := by
  have e : (FQRepr.ofNat n).toNat = n := FQRepr.ofNat_toNat (by have := q_lt; omega)
  have := FQ.ofRepr_rep (o := FQRepr.ofNat n) (by rw [e]; exact h)
  rwa [e] at this

theorem horner_rep {l : List ℕ} (h : ∀ c ∈ l, c < q) (h0 : l ≠ []) {a : FQ} {x : Fq} (ha : a.Rep x) :
    (hornerFQ (l.map fqHex) a).Rep (polyAt (l.map Nat.cast) x) := by
  have key : ∀ (l : List ℕ), (∀ c ∈ l, c < q) → ∀ c, c < q →
      ((l.map fqHex).foldr (fun c v => (v.mul a).add c) (fqHex c)).Rep
        (polyAt ((l ++ [c]).map Nat.cast) x) := by
    intro l
    induction l with
    | nil => intro _ c hc; simpa [polyAt] using fqHex_rep hc
    | cons d l ih =>
      intro hl c hc
      have h1 := ih (fun e he => hl e (List.mem_cons_of_mem _ he)) c hc
      have h2 := (h1.mul ha).add (fqHex_rep (hl d List.mem_cons_self))
      simp only [List.cons_append, List.map_cons, polyAt_cons, List.foldr_cons]
      rw [show (d : Fq) + x * polyAt ((l ++ [c]).map Nat.cast) x = polyAt ((l ++ [c]).map Nat.cast) x * x + d from by ring]
      exact h2
  rcases List.eq_nil_or_concat l with e | ⟨l', c, e⟩
  · exact absurd e h0
  · rw [e, List.concat_eq_append]
    rw [e, List.concat_eq_append] at h
    have := key l' (fun d hd => h d (by simp [hd])) c (h c (by simp))
    unfold hornerFQ
    rw [List.map_append, List.map_cons, List.map_nil, List.reverse_append, List.reverse_cons, List.reverse_nil,
      List.nil_append, List.singleton_append]
    rw [List.map_append, List.map_cons, List.map_nil] at this ⊢
    dsimp only
    rw [List.foldl_reverse]
    exact this

/-- A finite point with the coordinates `x`, `y`. -/
def G1Affine.At (a : G1Affine) (x y : Fq) : Prop := a.infinity = false ∧ a.x.Rep x ∧ a.y.Rep y

theorem signFQ_rep {a : FQ} {x : Fq} (h : a.Rep x) : (signFQ a).Rep (if (q - 1) / 2 < x.val then -1 else 1) := by
  have h4 := q_mod4
  have e : (q - 1) / 2 = q / 2 := by omega
  have hq := q_pos
  have ht : (FQ.ofRepr FQ.qMinus1Over2).Rep ((q / 2 : ℕ) : Fq) := by
    have := FQ.ofRepr_rep (o := FQ.qMinus1Over2) (by rw [qMinus1Over2_toNat]; omega)
    rwa [qMinus1Over2_toNat] at this
  have hv : ((q / 2 : ℕ) : Fq).val = q / 2 := by rw [ZMod.val_natCast]; exact Nat.mod_eq_of_lt (by omega)
  unfold signFQ
  rw [h.cmp ht, hv, e]
  have hc : (if x.val < q / 2 then (-1 : ℤ) else if x.val = q / 2 then 0 else 1) > 0 ↔ q / 2 < x.val := by
    split_ifs <;> simp <;> omega
  by_cases hl : q / 2 < x.val
  · rw [if_pos (hc.mpr hl), if_pos hl]; exact negativeOneFQ_rep
  · rw [if_neg (fun t => hl (hc.mp t)), if_neg hl]; exact FQ.one_rep

theorem Fq.neg_one_nonsquare' : ¬ IsSquare (-1 : Fq) := by
  rintro ⟨s, hs⟩
  exact Fq.neg_one_nonsquare s (by rw [sq, hs])

theorem Fq.isNeg_neg {x : Fq} (h : x ≠ 0) : Fq.IsNeg (-x) ↔ ¬ Fq.IsNeg x := by
  have h4 := q_mod4
  have h1 : (-x).val = q - x.val := by
    have := ZMod.neg_val x
    rwa [if_neg h] at this
  have h2 := ZMod.val_lt x
  have h3 : x.val ≠ 0 := fun e => h ((ZMod.val_eq_zero x).mp e)
  unfold Fq.IsNeg
  rw [h1]; omega

theorem swu1_A_ne : (swuA1 : Fq) ≠ 0 := by
  unfold swuA1; rw [Ne, ZMod.natCast_eq_zero_iff]
  intro h; exact absurd (Nat.le_of_dvd (by decide) h) (by rw [q_eq]; decide +kernel)

theorem ellPA_rep : ellPA.Rep (swuA1 : Fq) := by
  unfold ellPA swuA1; exact fqHex_rep (by rw [q_eq]; decide +kernel)
theorem ellPB_rep : ellPB.Rep (swuB1 : Fq) := by
  unfold ellPB swuB1; exact fqHex_rep (by rw [q_eq]; decide +kernel)


theorem swu1_exc : IsSquare (weier (swuA1 : Fq) swuB1 (swuB1 / (-1 * swuA1))) := by
  obtain ⟨s, h⟩ : ∃ s : ℕ, ((s * s + swuA1 * swuB1 : ℕ) : Fq) = 0 := by
    refine ⟨1623061961749657700585795342304524340930447668914321059078523813700399665232814378713616141381054816626064688618518, ?_⟩
    rw [ZMod.natCast_eq_zero_iff, q_eq]; unfold swuA1 swuB1; exact Nat.dvd_of_mod_eq_zero (by decide +kernel)
  have hA := swu1_A_ne
  push_cast at h
  generalize (swuA1 : Fq) = A at *
  generalize (swuB1 : Fq) = B at *
  generalize (s : Fq) = s at *
  refine ⟨B * s / A ^ 2, ?_⟩
  unfold weier
  field_simp
  linear_combination (-B^2) * h

theorem swu_pick1 (f : FQ → FQ → G1Affine) {x0 x1 : FQ} {s0 s1 : FQ × Bool} (h : s0.2 = true) :
    Option.map (fun xy : FQ × FQ => f xy.1 xy.2) (if s0.2 then some (x0, s0.1) else if !s1.2 then none else some (x1, s1.1)) =
      some (f x0 s0.1) := by
  rw [if_pos h]; rfl

theorem swu_pick2 (f : FQ → FQ → G1Affine) {x0 x1 : FQ} {s0 s1 : FQ × Bool} (h : s0.2 = false) (h' : s1.2 = true) :
    Option.map (fun xy : FQ × FQ => f xy.1 xy.2) (if s0.2 then some (x0, s0.1) else if !s1.2 then none else some (x1, s1.1)) =
      some (f x1 s1.1) := by
  rw [if_neg (by rw [h]; decide), if_neg (by rw [h']; decide)]; rfl

theorem swuHelper_aux {A B ξ : Fq} (hm : FQ.negativeOneFQ.Rep ξ) (hξ : ¬ IsSquare ξ) (hA : ellPA.Rep A) (hB : ellPB.Rep B) (hA0 : A ≠ 0)
    (exc : IsSquare (weier A B (B / (ξ * A)))) {a : FQ} {t : Fq} (h : a.Rep t) :
    ∃ p x y, optimizedSWUMapHelper a = some p ∧ p.At x y ∧ SwuAt A B ξ Fq.IsNeg t x y := by
  have hN := (hm.square.mul h.square.square).add (hm.mul h.square)
  have hN' : (ξ * ξ * (t * t * (t * t)) + ξ * (t * t) : Fq) = ξ ^ 2 * t ^ 4 + ξ * t ^ 2 := by ring
  rw [hN'] at hN
  have hz := hN.equals FQ.zero_rep
  have key : ∀ x0 : FQ, x0.Rep (swuX0 A B ξ t) →
      ∃ p x y, (Option.map (fun xy : FQ × FQ => G1Affine.new xy.1 (xy.2.mul ((signFQ xy.2).mul (signFQ a))))
        (if ((x0.square.mul x0).add (ellPA.mul x0)).add ellPB |>.sqrt.2 then
            some (x0, (((x0.square.mul x0).add (ellPA.mul x0)).add ellPB).sqrt.1)
          else
            if !(((((FQ.negativeOneFQ.mul a.square).mul x0).square.mul ((FQ.negativeOneFQ.mul a.square).mul x0)).add (ellPA.mul ((FQ.negativeOneFQ.mul a.square).mul x0))).add ellPB).sqrt.2 then none
            else some (((FQ.negativeOneFQ.mul a.square).mul x0), (((((FQ.negativeOneFQ.mul a.square).mul x0).square.mul ((FQ.negativeOneFQ.mul a.square).mul x0)).add (ellPA.mul ((FQ.negativeOneFQ.mul a.square).mul x0))).add ellPB).sqrt.1))) = some p ∧ p.At x y ∧
        SwuAt A B ξ Fq.IsNeg t x y := by
    intro x0 hx0
    have hg : ∀ {x1 : FQ} {X : Fq}, x1.Rep X →
        (((x1.square.mul x1).add (ellPA.mul x1)).add ellPB).Rep (weier A B X) := by
      intro x1 X hx
      have := ((hx.square.mul hx).add (hA.mul hx)).add hB
      rwa [show X * X * X + A * X + B = weier A B X from by unfold weier; ring] at this
    have fin : ∀ (xx yy : FQ) (X s : Fq), xx.Rep X → yy.Rep s → s * s = weier A B X →
        X = swuX A B ξ t →
        ∃ x y, (G1Affine.new xx (yy.mul ((signFQ yy).mul (signFQ a)))).At x y ∧
          SwuAt A B ξ Fq.IsNeg t x y := by
      intro xx yy X s hxx hyy hs hX
      refine ⟨X, _, ⟨rfl, hxx, hyy.mul ((signFQ_rep hyy).mul (signFQ_rep h))⟩, hX, ?_, ?_⟩
      · rw [← hs]; split_ifs <;> simp [sq]
      · intro hne
        have hs0 : s ≠ 0 := fun e => hne (by rw [e, zero_mul])
        have hn := Fq.isNeg_neg hs0
        by_cases c1 : Fq.IsNeg s <;> by_cases c2 : Fq.IsNeg t <;> have d1 := c1 <;> have d2 := c2 <;>
          unfold Fq.IsNeg at d1 d2
        · rw [if_pos d1, if_pos d2]; simp [c1, c2]
        · rw [if_pos d1, if_neg d2]; simp [c1, c2, hn]
        · rw [if_neg d1, if_pos d2]; simp [c1, c2, hn]
        · rw [if_neg d1, if_neg d2]; simp [c1, c2]
    by_cases hs : IsSquare (weier A B (swuX0 A B ξ t))
    · obtain ⟨e, s, hs1, hs2⟩ := (hg hx0).sqrt.1 hs
      obtain ⟨x, y, h1, h2⟩ := fin _ _ _ s hx0 hs1 hs2 (by rw [swuX, if_pos hs])
      exact ⟨_, x, y, swu_pick1 (fun x y => G1Affine.new x (y.mul ((signFQ y).mul (signFQ a)))) e, h1, h2⟩
    · have e := ((hg hx0).sqrt.2 hs).1
      have hx1 := (hm.mul h.square).mul hx0
      rw [show ξ * (t * t) * swuX0 A B ξ t = ξ * t ^ 2 * swuX0 A B ξ t from by ring] at hx1
      have h2 := (swu_second hA0 Fq.nonsquare_mul hξ exc hs).1
      obtain ⟨e', s, hs1, hs2⟩ := (hg hx1).sqrt.1 h2
      obtain ⟨x, y, h1, h2⟩ := fin _ _ _ s hx1 hs1 hs2 (by rw [swuX, if_neg hs])
      exact ⟨_, x, y, swu_pick2 (fun x y => G1Affine.new x (y.mul ((signFQ y).mul (signFQ a)))) e e', h1, h2⟩
  unfold optimizedSWUMapHelper
  dsimp only
  by_cases hc : ξ ^ 2 * t ^ 4 + ξ * t ^ 2 = 0
  · rw [if_pos (hz.mpr hc)]
    refine key _ ?_
    rw [swuX0, if_pos hc]
    exact hB.div (hm.mul hA)
  · rw [if_neg (fun e => hc (hz.mp e))]
    refine key _ ?_
    rw [swuX0, if_neg hc]
    have := (hB.neg.mul (hN.add FQ.one_rep)).div (hA.mul hN)
    rwa [swuX0_eq hA0 hc]

theorem optimizedSWUMapHelper_spec {a : FQ} {t : Fq} (h : a.Rep t) :
    ∃ p x y, optimizedSWUMapHelper a = some p ∧ p.At x y ∧ SwuAt (swuA1 : Fq) swuB1 (-1) Fq.IsNeg t x y :=
  swuHelper_aux negativeOneFQ_rep Fq.neg_one_nonsquare' ellPA_rep ellPB_rep swu1_A_ne swu1_exc h

theorem FQ.Rep.of_eq {a : FQ} {x y : Fq} (h : a.Rep x) (e : x = y) : a.Rep y := e ▸ h

theorem add_chord {P Q : E1'.Point} {a b : G1Affine} {x₁ y₁ x₂ y₂ : Fq} (ha : a.At x₁ y₁) (hb : b.At x₂ y₂)
    (hP : SwAt P x₁ y₁) (hQ : SwAt Q x₂ y₂) (hx : x₁ ≠ x₂) :
    ∃ x y, SwAt (P + Q) x y ∧ (a.toProjective.addAffine b).toAffine.At x y := by
  obtain ⟨ai, ax, ay⟩ := ha
  obtain ⟨bi, bx, byy⟩ := hb
  have h1 := FQ.one_rep
  have hz1 : FQ.one.isZero = false := by
    rw [Bool.eq_false_iff]; exact fun e => one_ne_zero (h1.isZero.mp e)
  have u2 := bx.mul h1.square
  have s2 := (byy.mul h1).mul h1.square
  have hh := u2.sub ax
  have h2 := hh.square
  have i := h2.double.double
  have j := hh.mul i
  have r := (s2.sub ay).double
  have v := ax.mul i
  have nx := ((r.square.sub j).sub v).sub v
  have ny := ((v.sub nx).mul r).sub (ay.mul j).double
  have nz := ((h1.add hh).square.sub h1.square).sub h2
  obtain ⟨hz, hS⟩ := SwAt.mixed Fq.two_ne hP hQ hx rfl rfl rfl
  have ep : a.toProjective = ⟨a.x, a.y, FQ.one⟩ := by
    unfold G1Affine.toProjective G1Affine.isZero; rw [if_neg (by rw [ai]; decide)]
  have hne : ¬ (a.x.equals (b.x.mul FQ.one.square) && a.y.equals ((b.y.mul FQ.one).mul FQ.one.square)) = true := by
    rw [Bool.and_eq_true]; rintro ⟨c, _⟩
    have := (ax.equals u2).mp c
    exact hx (by linear_combination this)
  rw [ep]
  unfold G1Projective.addAffine
  rw [if_neg (by rw [G1Projective.isZero, hz1]; decide), if_neg (by rw [G1Affine.isZero, bi]; decide)]
  dsimp only
  rw [if_neg hne]
  unfold G1Projective.toAffine
  have nz' := nz
  rw [show (1 + (x₂ * (1 * 1) - x₁)) * (1 + (x₂ * (1 * 1) - x₁)) - 1 * 1 - (x₂ * (1 * 1) - x₁) * (x₂ * (1 * 1) - x₁)
    = 2 * (x₂ - x₁) from by ring] at nz'
  rw [G1Projective.isZero, if_neg (fun t => hz (nz'.isZero.mp t)), if_neg (fun t => hz (nz'.isZero.mp t))]
  have hi := nz'.inverse
  refine ⟨_, _, hS, rfl, ?_, ?_⟩
  · exact (nx.mul hi.square).of_eq (by ring)
  · exact ((ny.mul hi.square).mul hi).of_eq (by ring)

/-! ### The isogeny -/

theorem polyAt_ev (l : List ℕ) (x : Fq) : polyAt (l.map Nat.cast) x = NPoly.ev x l := by
  induction l with
  | nil => rfl
  | cons c l ih => rw [List.map_cons, polyAt_cons, ih, NPoly.ev]

theorem q_cast : ((qLit : ℕ) : Fq) = 0 := by rw [← q_eq, ZMod.natCast_self]

open NPoly in
theorem iso11_den (x : Fq) : polyAt iso11Map.yDen x ^ 2 = polyAt iso11Map.xDen x ^ 3 := by
  have h : modAll qLit (mulRaw iso11YDen iso11YDen) = modAll qLit (mulRaw iso11XDen (mulRaw iso11XDen iso11XDen)) := by
    decide +kernel
  have := congrArg (ev x) h
  rw [ev_modAll q_cast, ev_modAll q_cast, ev_mulRaw, ev_mulRaw, ev_mulRaw] at this
  unfold iso11Map
  dsimp only
  rw [polyAt_ev, polyAt_ev]
  linear_combination this

open NPoly in
theorem iso11_num (x : Fq) : polyAt iso11Map.yNum x ^ 2 * weier (swuA1 : Fq) swuB1 x =
    polyAt iso11Map.xNum x ^ 3 + 4 * polyAt iso11Map.xDen x ^ 3 := by
  have h : modAll qLit (mulRaw (mulRaw iso11YNum iso11YNum) [swuB1, swuA1, 0, 1]) =
      modAll qLit (add (mulRaw iso11XNum (mulRaw iso11XNum iso11XNum))
        (scale 4 (mulRaw iso11XDen (mulRaw iso11XDen iso11XDen)))) := by
    unfold swuA1 swuB1; decide +kernel
  have := congrArg (ev x) h
  rw [ev_modAll q_cast, ev_modAll q_cast, ev_mulRaw, ev_mulRaw, ev_add, ev_scale, ev_mulRaw, ev_mulRaw, ev_mulRaw,
    ev_mulRaw] at this
  unfold iso11Map weier
  dsimp only
  rw [polyAt_ev, polyAt_ev, polyAt_ev]
  have e : ev x [swuB1, swuA1, 0, 1] = x ^ 3 + swuA1 * x + swuB1 := by
    simp only [ev, Nat.cast_zero, Nat.cast_one]; ring
  rw [e] at this
  push_cast at this
  linear_combination this

theorem iso11_spec {a : G1Affine} {x y : Fq} (h : a.At x y) (on : y ^ 2 = weier (swuA1 : Fq) swuB1 x)
    (hd : polyAt iso11Map.xDen x ≠ 0) :
    ∃ R : E1, IsAt R (polyAt iso11Map.xNum x / polyAt iso11Map.xDen x)
      (y * polyAt iso11Map.yNum x / polyAt iso11Map.yDen x) ∧ (iso11 a).Rep R := by
  obtain ⟨_, hx, hy⟩ := h
  have hd2 : polyAt iso11Map.yDen x ≠ 0 := by
    intro e; have := iso11_den x; rw [e] at this; exact hd (pow_eq_zero_iff (n := 3) (by norm_num) |>.mp (by rw [← this]; ring))
  have on' : (y * polyAt iso11Map.yNum x / polyAt iso11Map.yDen x) ^ 2 =
      (polyAt iso11Map.xNum x / polyAt iso11Map.xDen x) ^ 3 + 4 := by
    have h1 := iso11_den x
    have h2 := iso11_num x
    rw [div_pow, div_pow, h1]
    rw [← on] at h2
    field_simp
    linear_combination h2
  have a1 := horner_rep (l := iso11XNum) (by rw [q_eq]; decide +kernel) (by decide) hx
  have a2 := horner_rep (l := iso11XDen) (by rw [q_eq]; decide +kernel) (by decide) hx
  have a3 := horner_rep (l := iso11YNum) (by rw [q_eq]; decide +kernel) (by decide) hx
  have a4 := horner_rep (l := iso11YDen) (by rw [q_eq]; decide +kernel) (by decide) hx
  rw [show iso11XNum.map fqHex = xNum11 from by unfold xNum11 iso11XNum; rfl] at a1
  rw [show iso11XDen.map fqHex = xDen11 from by unfold xDen11 iso11XDen; rfl] at a2
  rw [show iso11YNum.map fqHex = yNum11 from by unfold yNum11 iso11YNum; rfl] at a3
  rw [show iso11YDen.map fqHex = yDen11 from by unfold yDen11 iso11YDen; rfl] at a4
  unfold iso11
  refine ⟨pt _ _ on', pt_isAt on', Or.inr ⟨rfl, _, _, a1.div a2, (hy.mul a3).div a4, pt_isAt on'⟩⟩

end Bls
