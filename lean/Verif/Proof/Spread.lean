import Mathlib.Algebra.Polynomial.Roots
import Mathlib.Tactic.ComputeDegree
import Mathlib.Data.Set.Card
import Verif.Spec.Hash
/-
How many field elements the simplified SWU map sends to one point, how many points a rational map sends to one point, and
how many points a homomorphism does.
-/
namespace Bls.Spread
open Polynomial

section
variable {F : Type*} [Field F]

/-- A polynomial that vanishes at every `t` which the simplified SWU map sends to `x`. -/
private noncomputable def swuPoly (A B ξ x : F) : F[X] :=
  (C (ξ ^ 2) * X ^ 4 + C ξ * X ^ 2) * (C (x * A + B) * (C (ξ ^ 2) * X ^ 4 + C ξ * X ^ 2) + C B) *
    (C (B * ξ ^ 2) * X ^ 4 + C ((x * A + B) * ξ) * X ^ 2 + C (x * A + B))

private theorem swuPoly_ne {A B ξ : F} (hB : B ≠ 0) (hξ : ξ ≠ 0) (x : F) : swuPoly A B ξ x ≠ 0 := by
  have h1 : (C (ξ ^ 2) * X ^ 4 + C ξ * X ^ 2 : F[X]) ≠ 0 := fun e => by
    have := congrArg (fun p => p.coeff 4) e
    simp [coeff_X_pow, -map_pow] at this
    exact hξ this
  have h2 : (C (x * A + B) * (C (ξ ^ 2) * X ^ 4 + C ξ * X ^ 2) + C B : F[X]) ≠ 0 := fun e => by
    have := congrArg (fun p => p.eval 0) e
    simp at this
    exact hB this
  have h3 : (C (B * ξ ^ 2) * X ^ 4 + C ((x * A + B) * ξ) * X ^ 2 + C (x * A + B) : F[X]) ≠ 0 := fun e => by
    have := congrArg (fun p => p.coeff 4) e
    simp [coeff_X_pow, -map_mul, -map_add, -map_pow] at this
    exact this.elim hB hξ
  exact mul_ne_zero (mul_ne_zero h1 h2) h3

private theorem swuPoly_deg (A B ξ x : F) : (swuPoly A B ξ x).natDegree ≤ 12 := by
  unfold swuPoly
  compute_degree

private theorem swuPoly_root {A B ξ : F} (hA : A ≠ 0) {t x : F} (h : swuX A B ξ t = x) :
    (swuPoly A B ξ x).eval t = 0 := by
  have e : (swuPoly A B ξ x).eval t = (ξ ^ 2 * t ^ 4 + ξ * t ^ 2) * ((x * A + B) * (ξ ^ 2 * t ^ 4 + ξ * t ^ 2) + B) *
      (B * ξ ^ 2 * t ^ 4 + (x * A + B) * ξ * t ^ 2 + (x * A + B)) := by
    simp [swuPoly]
  rw [e]
  by_cases hD : ξ ^ 2 * t ^ 4 + ξ * t ^ 2 = 0
  · rw [hD]; ring
  have hx0 : swuX0 A B ξ t = -B / A * (1 + 1 / (ξ ^ 2 * t ^ 4 + ξ * t ^ 2)) := if_neg hD
  unfold swuX at h
  split at h
  · have : (x * A + B) * (ξ ^ 2 * t ^ 4 + ξ * t ^ 2) + B = 0 := by
      have hxe : x * A = -B * (1 + 1 / (ξ ^ 2 * t ^ 4 + ξ * t ^ 2)) := by
        rw [← h, hx0]
        field_simp
      have hc : (1 / (ξ ^ 2 * t ^ 4 + ξ * t ^ 2)) * (ξ ^ 2 * t ^ 4 + ξ * t ^ 2) = 1 := one_div_mul_cancel hD
      generalize 1 / (ξ ^ 2 * t ^ 4 + ξ * t ^ 2) = i at hxe hc
      rw [hxe]
      linear_combination -B * hc
    rw [this]; ring
  · have hs : ξ * t ^ 2 ≠ 0 := fun e => hD (by linear_combination (ξ * t ^ 2 + 1) * e)
    have : (ξ * t ^ 2) * (B * ξ ^ 2 * t ^ 4 + (x * A + B) * ξ * t ^ 2 + (x * A + B)) = 0 := by
      have hxe : x * A = ξ * t ^ 2 * (-B * (1 + 1 / (ξ ^ 2 * t ^ 4 + ξ * t ^ 2))) := by
        rw [← h, hx0]
        field_simp
      have hc : (1 / (ξ ^ 2 * t ^ 4 + ξ * t ^ 2)) * (ξ ^ 2 * t ^ 4 + ξ * t ^ 2) = 1 := one_div_mul_cancel hD
      generalize 1 / (ξ ^ 2 * t ^ 4 + ξ * t ^ 2) = i at hxe hc
      rw [hxe]
      linear_combination (-B * ξ * t ^ 2) * hc
    rw [(mul_eq_zero.mp this).resolve_left hs, mul_zero]

/-- At most twelve field elements have the same x. -/
theorem swuX_fibre {A B ξ : F} (hA : A ≠ 0) (hB : B ≠ 0) (hξ : ξ ≠ 0) (x : F) :
    {t | swuX A B ξ t = x}.Finite ∧ {t | swuX A B ξ t = x}.ncard ≤ 12 := by
  classical
  have hs : {t | swuX A B ξ t = x} ⊆ ((swuPoly A B ξ x).roots.toFinset : Set F) := fun t ht => by
    rw [Finset.mem_coe, Multiset.mem_toFinset, mem_roots (swuPoly_ne hB hξ x), IsRoot]
    exact swuPoly_root hA ht
  refine ⟨(Finset.finite_toSet _).subset hs, (Set.ncard_le_ncard hs (Finset.finite_toSet _)).trans ?_⟩
  rw [Set.ncard_coe_finset]
  exact (Multiset.toFinset_card_le _).trans ((card_roots' _).trans (swuPoly_deg A B ξ x))

/-- The polynomial with the coefficients `l`. -/
private noncomputable def toPoly (l : List F) : F[X] := l.foldr (fun c v => C c + X * v) 0

private theorem toPoly_eval (l : List F) (x : F) : (toPoly l).eval x = polyAt l x := by
  induction l with
  | nil => simp [toPoly, polyAt]
  | cons c l ih =>
    simp only [toPoly, polyAt, List.foldr_cons, eval_add, eval_C, eval_mul, eval_X] at ih ⊢
    rw [ih]

private theorem toPoly_coeff (l : List F) (n : ℕ) : (toPoly l).coeff n = l.getD n 0 := by
  induction l generalizing n with
  | nil => simp [toPoly]
  | cons c l ih =>
    cases n with
    | zero => simp [toPoly]
    | succ n =>
      have := ih n
      simp only [toPoly, List.foldr_cons, coeff_add, coeff_X_mul, coeff_C_succ, zero_add, List.getD_cons_succ] at this ⊢
      exact this

private theorem toPoly_deg (l : List F) : (toPoly l).natDegree ≤ l.length - 1 := by
  rw [natDegree_le_iff_coeff_eq_zero]
  intro n hn
  rw [toPoly_coeff, List.getD_eq_default]
  omega

/-- Roots of a polynomial given by a list. -/
theorem poly_roots {l : List F} {n : ℕ} (hn : l.length = n + 1) (hl : l.getD n 0 ≠ 0) :
    {x | polyAt l x = 0}.Finite ∧ {x | polyAt l x = 0}.ncard ≤ n := by
  classical
  have h0 : toPoly l ≠ 0 := fun e => hl (by rw [← toPoly_coeff, e, coeff_zero])
  have hs : {x | polyAt l x = 0} ⊆ ((toPoly l).roots.toFinset : Set F) := fun t ht => by
    rw [Finset.mem_coe, Multiset.mem_toFinset, mem_roots h0, IsRoot, toPoly_eval]
    exact ht
  refine ⟨(Finset.finite_toSet _).subset hs, (Set.ncard_le_ncard hs (Finset.finite_toSet _)).trans ?_⟩
  rw [Set.ncard_coe_finset]
  refine (Multiset.toFinset_card_le _).trans ((card_roots' _).trans ((toPoly_deg l).trans ?_))
  omega

/-- At most `n` arguments have the same quotient. -/
theorem quot_fibre {l m : List F} {n : ℕ} (hn : l.length = n + 1) (hl : l.getD n 0 ≠ 0) (hm : m.length ≤ n) (v : F) :
    {x | polyAt m x ≠ 0 ∧ polyAt l x / polyAt m x = v}.Finite ∧
      {x | polyAt m x ≠ 0 ∧ polyAt l x / polyAt m x = v}.ncard ≤ n := by
  classical
  have h0 : toPoly l - C v * toPoly m ≠ 0 := fun e => hl (by
    have := congrArg (fun p => p.coeff n) e
    simp only [coeff_sub, coeff_C_mul, toPoly_coeff, coeff_zero] at this
    rw [List.getD_eq_default m 0 hm, mul_zero, sub_zero] at this
    exact this)
  have hs : {x | polyAt m x ≠ 0 ∧ polyAt l x / polyAt m x = v} ⊆
      ((toPoly l - C v * toPoly m).roots.toFinset : Set F) := fun t ht => by
    rw [Finset.mem_coe, Multiset.mem_toFinset, mem_roots h0, IsRoot, eval_sub, eval_mul, eval_C, toPoly_eval, toPoly_eval,
      ← ht.2, div_mul_cancel₀ _ ht.1, sub_self]
  refine ⟨(Finset.finite_toSet _).subset hs, (Set.ncard_le_ncard hs (Finset.finite_toSet _)).trans ?_⟩
  rw [Set.ncard_coe_finset]
  refine (Multiset.toFinset_card_le _).trans ((card_roots' _).trans ((natDegree_sub_le _ _).trans (max_le ?_ ?_)))
  · have := toPoly_deg l; omega
  · have h1 := toPoly_deg m
    have h2 := natDegree_C_mul_le v (toPoly m)
    omega

end

/-- A set each of whose elements is related to one of at most `n` things, at most `k` to each. -/
theorem ncard_fib {α β : Type*} {R : α → β → Prop} {k : ℕ} {T : Set β} (hT : T.Finite)
    (hk : ∀ b ∈ T, {a | R a b}.Finite ∧ {a | R a b}.ncard ≤ k) :
    {a | ∃ b ∈ T, R a b}.Finite ∧ {a | ∃ b ∈ T, R a b}.ncard ≤ k * T.ncard := by
  induction T, hT using Set.Finite.induction_on with
  | empty => simp
  | @insert b T hb hT ih =>
    obtain ⟨h1, h2⟩ := ih fun c hc => hk c (Set.mem_insert_of_mem _ hc)
    obtain ⟨h3, h4⟩ := hk b (Set.mem_insert _ _)
    have e : {a | ∃ c ∈ insert b T, R a c} = {a | R a b} ∪ {a | ∃ c ∈ T, R a c} := by
      ext a
      simp
    rw [e, Set.ncard_insert_of_notMem hb hT, mul_add, mul_one, add_comm]
    exact ⟨h3.union h1, (Set.ncard_union_le _ _).trans (Nat.add_le_add h4 h2)⟩

theorem ncard_sub {α : Type*} {S T : Set α} {n : ℕ} (h : T.Finite ∧ T.ncard ≤ n) (hs : S ⊆ T) : S.Finite ∧ S.ncard ≤ n :=
  ⟨h.1.subset hs, (Set.ncard_le_ncard hs h.1).trans h.2⟩

section
variable {F : Type*} [Field F]

/-- Points with given x. -/
theorem points_x {A B : F} {s : Set F} {n : ℕ} (hs : s.Finite ∧ s.ncard ≤ n) :
    {P : (swCurve A B).Point | ∃ x y, SwAt P x y ∧ x ∈ s}.Finite ∧
      {P : (swCurve A B).Point | ∃ x y, SwAt P x y ∧ x ∈ s}.ncard ≤ 2 * n := by
  classical
  have h := ncard_fib (R := fun (P : (swCurve A B).Point) x => ∃ y, SwAt P x y) (k := 2) hs.1 fun x _ => by
    by_cases h0 : ∃ P : (swCurve A B).Point, ∃ y, SwAt P x y
    · obtain ⟨P, y, hP⟩ := h0
      have : {P : (swCurve A B).Point | ∃ y, SwAt P x y} ⊆ {P, -P} := by
        rintro Q ⟨y', h', rfl⟩
        obtain ⟨h, rfl⟩ := hP
        have e1 := h.1
        have e2 := h'.1
        rw [WeierstrassCurve.Affine.equation_iff] at e1 e2
        simp only [swCurve, zero_mul, add_zero] at e1 e2
        have : (y' - y) * (y' + y) = 0 := by linear_combination e2 - e1
        rcases mul_eq_zero.mp this with e | e
        · left
          rw [sub_eq_zero] at e
          subst e
          rfl
        · right
          rw [WeierstrassCurve.Affine.Point.neg_some, Set.mem_singleton_iff, WeierstrassCurve.Affine.Point.some.injEq]
          refine ⟨rfl, ?_⟩
          simp only [swCurve, WeierstrassCurve.Affine.negY, zero_mul, sub_zero]
          exact eq_neg_of_add_eq_zero_left e
      exact ncard_sub ⟨Set.toFinite _, (Set.ncard_insert_le _ _).trans (by rw [Set.ncard_singleton])⟩ this
    · have : {P : (swCurve A B).Point | ∃ y, SwAt P x y} = ∅ := by
        ext P
        simp only [Set.mem_ofPred_eq, Set.mem_empty_iff_false, iff_false]
        exact fun e => h0 ⟨P, e⟩
      rw [this]
      simp
  refine ncard_sub ⟨h.1, h.2.trans (Nat.mul_le_mul_left 2 hs.2)⟩ ?_
  rintro P ⟨x, y, h1, h2⟩
  exact ⟨x, h2, y, h1⟩

/-- At most `n` points go to the same point, if this is not of order 2. -/
theorem maps_fibre {A B b : F} {m : RatMap F} {n : ℕ} (hn : m.xNum.length = n + 1) (hl : m.xNum.getD n 0 ≠ 0)
    (hm : m.xDen.length ≤ n) {R : (curve b).Point} (hR : ∀ x, ¬ IsAt R x 0) :
    {S : (swCurve A B).Point | m.Maps S R}.Finite ∧ {S : (swCurve A B).Point | m.Maps S R}.ncard ≤ n := by
  classical
  cases R with
  | zero =>
    have : {S : (swCurve A B).Point | m.Maps S (.zero : (curve b).Point)} = ∅ := by
      ext S
      simp only [Set.mem_ofPred_eq, Set.mem_empty_iff_false, iff_false]
      rintro ⟨x, y, _, _, _, h⟩
      exact h.ne_zero rfl
    rw [this]
    simp
  | some u v hv =>
    obtain ⟨h1, h2⟩ := quot_fibre hn hl hm u
    have h := ncard_fib (R := fun (S : (swCurve A B).Point) x => (∃ y, SwAt S x y) ∧
      m.Maps S (.some u v hv : (curve b).Point)) (k := 1) h1 fun x _ => by
      have : {S : (swCurve A B).Point | (∃ y, SwAt S x y) ∧ m.Maps S (.some u v hv : (curve b).Point)}.Subsingleton := by
        rintro S ⟨⟨y, hS, rfl⟩, xm, ym, ⟨_, em⟩, d1, d2, d3⟩ S' ⟨⟨y', hS', rfl⟩, xm', ym', ⟨_, em'⟩, d1', d2', d3'⟩
        cases em
        cases em'
        have e := (d3.coord d3').2
        have hne : polyAt m.yNum x ≠ 0 := fun e0 => hR _ (by rw [e0, mul_zero, zero_div] at d3; exact d3)
        have e := mul_right_cancel₀ hne ((div_left_inj' d2).mp e)
        subst e
        rfl
      have hf : {S : (swCurve A B).Point | (∃ y, SwAt S x y) ∧ m.Maps S (.some u v hv : (curve b).Point)}.Finite := this.finite
      exact ⟨hf, (Set.ncard_le_one hf).mpr fun a ha c hc => this ha hc⟩
    refine ncard_sub ⟨h.1, h.2.trans ((one_mul _).trans_le h2)⟩ ?_
    rintro S hS
    obtain ⟨x, y, h3, h4, _, h5⟩ := id hS
    exact ⟨x, ⟨h4, (IsAt.coord ⟨hv, rfl⟩ h5).1.symm⟩, ⟨y, h3⟩, hS⟩

end

/-- A homomorphism that is injective on a subgroup of order `r` sends at most `h` elements to one. -/
theorem hom_fibre {G : Type*} [AddCommGroup G] [Finite G] {h r : ℕ} (hr : 0 < r) (hc : Nat.card G = h * r) {B : G}
    (hB : addOrderOf B = r) {f : G →+ G} (hf : ∀ X, r • X = 0 → f X = 0 → X = 0) (P : G) :
    {X | f X = P}.Finite ∧ {X | f X = P}.ncard ≤ h := by
  refine ⟨Set.toFinite _, ?_⟩
  have hinj : Function.Injective fun x : {X | f X = P} × AddSubgroup.zmultiples B => (x.1 : G) + (x.2 : G) := by
    rintro ⟨⟨x, hx⟩, ⟨t, ht⟩⟩ ⟨⟨x', hx'⟩, ⟨t', ht'⟩⟩ e
    have ee : x + t = x' + t' := e
    have h1 : f (t - t') = 0 := by
      have : t - t' = x' - x := by rw [sub_eq_sub_iff_add_eq_add, add_comm t x, ee]
      rw [this, map_sub, show f x' = P from hx', show f x = P from hx, sub_self]
    have h2 : r • (t - t') = 0 := by
      obtain ⟨k, hk⟩ := (AddSubgroup.sub_mem _ ht ht' : t - t' ∈ AddSubgroup.zmultiples B)
      have hk : k • B = t - t' := hk
      rw [← hk, smul_comm, ← hB, addOrderOf_nsmul_eq_zero, smul_zero]
    have h3 := sub_eq_zero.mp (hf _ h2 h1)
    subst h3
    have h4 := add_right_cancel ee
    subst h4
    rfl
  have := Nat.card_le_card_of_injective _ hinj
  rw [Nat.card_prod, Nat.card_zmultiples, hB, hc] at this
  exact Nat.le_of_mul_le_mul_right this hr

/-- The field elements `s` for which the sum of the images of `t` and `s` is not what the hash is defined for, or goes to
`P`. -/
theorem pairs {F : Type*} [Field F] [DecidableEq F] {A B ξ b : F} (hA : A ≠ 0) (hB : B ≠ 0) (hξ : ξ ≠ 0) {neg : F → Prop}
    {m : RatMap F} {n : ℕ} (hn : m.xNum.length = n + 1) (hl : m.xNum.getD n 0 ≠ 0) (hm : m.xDen.length ≤ n)
    (hR : ∀ (R : (curve b).Point) x, ¬ IsAt R x 0) {K : Set (swCurve A B).Point} {k : ℕ} (hK : K.Finite ∧ K.ncard ≤ k)
    {T : Set (curve b).Point} {h : ℕ} (hT : T.Finite ∧ T.ncard ≤ h) (U : (swCurve A B).Point) :
    {s | ∃ V : (swCurve A B).Point, (∃ x y, SwAt V x y ∧ SwuAt A B ξ neg s x y) ∧
      (U = V ∨ U = -V ∨ U + V ∈ K ∨ ∃ R ∈ T, m.Maps (U + V) R)}.Finite ∧
    {s | ∃ V : (swCurve A B).Point, (∃ x y, SwAt V x y ∧ SwuAt A B ξ neg s x y) ∧
      (U = V ∨ U = -V ∨ U + V ∈ K ∨ ∃ R ∈ T, m.Maps (U + V) R)}.ncard ≤ 12 * (2 + k + n * h) := by
  obtain ⟨h1, h2⟩ := ncard_fib (R := fun (S : (swCurve A B).Point) R => m.Maps S R) hT.1
    fun R _ => maps_fibre hn hl hm (hR R)
  have h2 := h2.trans (Nat.mul_le_mul_left n hT.2)
  have hW : ({U, -U} ∪ (fun S => S - U) '' K ∪ (fun S => S - U) '' {S | ∃ R ∈ T, m.Maps S R}).Finite ∧
      ({U, -U} ∪ (fun S => S - U) '' K ∪ (fun S => S - U) '' {S | ∃ R ∈ T, m.Maps S R}).ncard ≤ 2 + k + n * h := by
    refine ⟨((Set.toFinite _).union (hK.1.image _)).union (h1.image _), (Set.ncard_union_le _ _).trans
      (Nat.add_le_add ((Set.ncard_union_le _ _).trans (Nat.add_le_add ?_ ?_)) ((Set.ncard_image_le h1).trans h2))⟩
    · exact (Set.ncard_insert_le _ _).trans (by rw [Set.ncard_singleton])
    · exact (Set.ncard_image_le hK.1).trans hK.2
  obtain ⟨h3, h4⟩ := ncard_fib (R := fun s (V : (swCurve A B).Point) => ∃ x y, SwAt V x y ∧ SwuAt A B ξ neg s x y) (k := 12) hW.1
    fun V _ => by
      cases V with
      | zero =>
        have : {s | ∃ x y, SwAt (.zero : (swCurve A B).Point) x y ∧ SwuAt A B ξ neg s x y} = ∅ := by
          ext s
          simp only [Set.mem_ofPred_eq, Set.mem_empty_iff_false, iff_false]
          rintro ⟨x, y, ⟨_, e⟩, _⟩
          cases e
        rw [this]
        simp
      | some x y hv =>
        refine ncard_sub (swuX_fibre hA hB hξ x) ?_
        rintro s ⟨x', y', ⟨_, e⟩, hs⟩
        cases e
        exact hs.x_eq.symm
  refine ncard_sub ⟨h3, h4.trans (Nat.mul_le_mul_left 12 hW.2)⟩ ?_
  rintro s ⟨V, hV, hc⟩
  refine ⟨V, ?_, hV⟩
  rcases hc with e | e | e | e
  · exact .inl (.inl (.inl e.symm))
  · exact .inl (.inl (.inr (by rw [e, neg_neg]; rfl)))
  · exact .inl (.inr ⟨_, e, add_sub_cancel_left U V⟩)
  · exact .inr ⟨_, e, add_sub_cancel_left U V⟩

/-- Numbers below `N` with remainder in a given set. -/
theorem residues {q : ℕ} [NeZero q] (N : ℕ) {T : Set (ZMod q)} {n : ℕ} (hn : T.ncard ≤ n) :
    {v : Fin N | ((v : ℕ) : ZMod q) ∈ T}.ncard ≤ (N / q + 1) * n := by
  have h := ncard_fib (R := fun (v : Fin N) (c : ZMod q) => ((v : ℕ) : ZMod q) = c) (k := N / q + 1) (Set.toFinite T)
    fun c _ => by
      refine ⟨Set.toFinite _, ?_⟩
      have hi : Function.Injective fun v : {v : Fin N | ((v : ℕ) : ZMod q) = c} =>
          (⟨(v.1 : ℕ) / q, Nat.lt_succ_of_le (Nat.div_le_div_right v.1.2.le)⟩ : Fin (N / q + 1)) := by
        rintro ⟨v, hv⟩ ⟨w, hw⟩ e
        have e1 : (v : ℕ) / q = w / q := congrArg Fin.val e
        have e2 : (v : ℕ) % q = w % q := (ZMod.natCast_eq_natCast_iff' _ _ _).mp ((show ((v : ℕ) : ZMod q) = c from hv).trans (show ((w : ℕ) : ZMod q) = c from hw).symm)
        have := Nat.div_add_mod (v : ℕ) q
        have := Nat.div_add_mod (w : ℕ) q
        exact Subtype.ext (Fin.ext (by rw [← Nat.div_add_mod (v : ℕ) q, e1, e2, Nat.div_add_mod]))
      have := Nat.card_le_card_of_injective _ hi
      rwa [Nat.card_fin] at this
  have e : {v : Fin N | ((v : ℕ) : ZMod q) ∈ T} = {v : Fin N | ∃ c ∈ T, ((v : ℕ) : ZMod q) = c} := by
    ext v
    simp
  rw [e]
  exact h.2.trans (Nat.mul_le_mul_left _ hn)

end Bls.Spread
