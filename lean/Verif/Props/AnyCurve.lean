import Verif.Proof.AnyCurveInv
import Verif.Proof.Gens
import Verif.Proof.LineData
import Verif.Model.G1Pubs
import Verif.Model.G2Pubs
/-
C73: points that are not on the curve (Verif/Spec/AnyCurve.lean). The formulas of the library do not use the constant of
the curve, so they compute on the curve the point is on.
-/
set_option exponentiation.threshold 1000
namespace Bls.Props

private theorem good_g1 {c : Fq} (h : c ≠ 0) : GoodCurve c :=
  ⟨(inferInstance : GoodCurve (4 : Fq)).two_ne, (inferInstance : GoodCurve (4 : Fq)).three_ne, h⟩

private theorem good_g2 {c : Fq2} (h : c ≠ 0) : GoodCurve c :=
  ⟨(inferInstance : GoodCurve b2).two_ne, (inferInstance : GoodCurve b2).three_ne, h⟩

/-! ## G1 -/

/-- A finite value with canonical coordinates is a point of one curve, that with `c = y² - x³`. It is the library's curve
exactly if `IsOnCurve` accepts, and unless `c` is 0 the value is a point of a group. -/
theorem C73_own_g1 (a : G1Affine) (hi : a.infinity = false) (hx : a.x.isValid) (hy : a.y.isValid) :
    ∃ c : Fq, a.OnCurve c ∧ (∀ c', a.OnCurve c' → c' = c) ∧ (a.isOnCurve = true ↔ c = 4) ∧
      (c ≠ 0 → ∃ P : (curve c).Point, P ≠ 0 ∧ a.DenotesOn P) := by
  have rx := FQ.rep_int hx
  have ry := FQ.rep_int hy
  refine ⟨(a.y.int : Fq) ^ 2 - (a.x.int : Fq) ^ 3, Or.inr ⟨hi, hx, hy, by ring⟩, ?_, ?_, ?_⟩
  · rintro c' (rfl | ⟨_, _, _, h⟩)
    · cases hi
    · rw [h]; ring
  · rw [G1Affine.isOnCurve_iff rx ry hi, sub_eq_iff_eq_add, add_comm]
  · intro hc
    have := good_g1 hc
    have at_ := pt_isAt (b := (a.y.int : Fq) ^ 2 - (a.x.int : Fq) ^ 3) (x := (a.x.int : Fq)) (y := (a.y.int : Fq)) (by ring)
    exact ⟨_, at_.ne_zero, Or.inr ⟨hi, hx, hy, at_⟩⟩

/-- The operations are those of the group of the curve the points are on, for every curve with `c ≠ 0`. -/
theorem C73_group_g1 {c : Fq} (hc : c ≠ 0) {g k : G1Projective} {a : G1Affine} {P Q : (curve c).Point}
    (hg : g.DenotesOn P) (hk : k.DenotesOn Q) (ha : a.DenotesOn Q) (n : FQRepr) (m : FRRepr) :
    g.double.DenotesOn (P + P) ∧ (g.add k).DenotesOn (P + Q) ∧ (g.addAffine a).DenotesOn (P + Q) ∧
    (g.mul n).DenotesOn (n.toNat • P) ∧ (g.mulFR m).DenotesOn (m.toNat • P) ∧
    (a.mul n).DenotesOn (n.toNat • Q) ∧ (a.mulFR m).DenotesOn (m.toNat • Q) ∧
    g.neg.DenotesOn (-P) ∧ a.neg.DenotesOn (-Q) ∧ g.toAffine.DenotesOn P ∧ a.toProjective.DenotesOn Q ∧
    (g.equal k = true ↔ P = Q) ∧ (g.isZero = true ↔ P = 0) := by
  have := good_g1 hc
  rw [G1Projective.denotesOn_iff] at hg hk
  rw [G1Affine.denotesOn_iff] at ha
  simp only [G1Projective.denotesOn_iff, G1Affine.denotesOn_iff]
  exact ⟨hg.double, hg.add hk, hg.addAffine ha, hg.mul n, hg.mulFR m, ha.mul n, ha.mulFR m,  hg.neg, ha.neg, hg.toAffine,
    ha.toProjective, hg.equal hk, hg.isZero⟩

/-- `IsInCorrectSubgroupAssumingOnCurve` tells whether the order divides `r` in the group of that curve. -/
theorem C73_subgroup_g1 {c : Fq} (hc : c ≠ 0) {a : G1Affine} {P : (curve c).Point} (ha : a.DenotesOn P) :
    a.isInCorrectSubgroup = true ↔ r • P = 0 := by
  have := good_g1 hc
  exact (G1Affine.denotesOn_iff.mp ha).isInCorrectSubgroup

/-- It does not replace `IsOnCurve`: from every point of the subgroup but infinity, and every `u` with `u⁶ ≠ 1`, it makes a
point `(u² x, u³ y)` that passes the subgroup check and is on another curve. -/
theorem C73_subgroup_alone_g1 {a : G1Affine} {P : E1} (ha : a.Denotes P) (h0 : P ≠ 0) (hr : r • P = 0) {u : FQ}
    (hu : u.isValid) (hu0 : (u.int : Fq) ≠ 0) (hu6 : (u.int : Fq) ^ 6 ≠ 1) :
    (G1Affine.mk (a.x.mul u.square) (a.y.mul (u.square.mul u)) false).isInCorrectSubgroup = true ∧
    (G1Affine.mk (a.x.mul u.square) (a.y.mul (u.square.mul u)) false).isOnCurve = false := by
  rcases ha with ⟨_, rfl⟩ | ⟨hi, hx, hy, hP⟩
  · exact absurd rfl h0
  have ru := FQ.rep_int hu
  have rx := (FQ.rep_int hx).mul ru.square
  have ry := (FQ.rep_int hy).mul (ru.square.mul ru)
  have hb : 4 ≠ (0 : Fq) := GoodCurve.b_ne
  have hc : (u.int : Fq) ^ 6 * 4 ≠ 0 := mul_ne_zero (pow_ne_zero _ hu0) hb
  have := good_g1 hc
  let t : TwistData (4 : Fq) ((u.int : Fq) ^ 6 * 4) :=
    ⟨RingHom.id _, (u.int : Fq) ^ 2, (u.int : Fq) ^ 3, pow_ne_zero _ hu0, by ring, by rw [RingHom.id_apply]; ring⟩
  have at_ := t.hom_at hP
  have rep : (G1Affine.mk (a.x.mul u.square) (a.y.mul (u.square.mul u)) false).RepOn (t.hom P) := by
    refine Or.inr ⟨rfl, _, _, rx, ry, ?_⟩
    have e1 : t.α * t.f (a.x.int : Fq) = (a.x.int : Fq) * ((u.int : Fq) * (u.int : Fq)) := show (u.int : Fq) ^ 2 * (a.x.int : Fq) = _ by ring
    have e2 : t.β * t.f (a.y.int : Fq) = (a.y.int : Fq) * ((u.int : Fq) * (u.int : Fq) * (u.int : Fq)) := show (u.int : Fq) ^ 3 * (a.y.int : Fq) = _ by ring
    rw [e1, e2] at at_
    simpa [pow_two] using at_
  refine ⟨?_, ?_⟩
  · rw [rep.isInCorrectSubgroup, ← map_nsmul, hr, map_zero]
  · rw [Bool.eq_false_iff, Ne, G1Affine.isOnCurve_iff rx ry rfl]
    intro e
    have h1 := hP.on
    apply hu6
    have : ((u.int : Fq) ^ 6 - 1) * 4 = 0 := by linear_combination e - (u.int : Fq) ^ 6 * h1
    rcases mul_eq_zero.mp this with h | h
    · exact sub_eq_zero.mp h
    · exact absurd h hb

/-- Whatever is computed from points of one curve, any `c`, is infinity or on that curve. -/
theorem C73_stays_g1 {c : Fq} {S : G1Affine → Prop} (hS : ∀ a, S a → a.OnCurve c) {g : G1Projective} (h : G1Made S g) :
    g.OnCurve c ∧ g.toAffine.OnCurve c := by
  have hS' : ∀ a, S a → a.InvOn c := fun a h => G1Affine.onCurve_iff.mp (hS a h)
  have key : g.InvOn c := by
    induction h with
    | zero => exact .zero
    | toProjective a h => exact (hS' a h).toProjective
    | negAssign a h => exact (hS' a h).neg.toProjective
    | affine g _ ih => exact ih.toAffine.toProjective
    | negAffine g _ ih => exact ih.toAffine.neg.toProjective
    | neg g _ ih => exact ih.neg
    | double g _ ih => exact ih.double
    | add g k _ _ ih ih' => exact ih.add ih'
    | addAffine g a _ h ih => exact ih.addAffine (hS' a h)
    | addToAffine g k _ _ ih ih' => exact ih.addAffine ih'.toAffine
    | mul g n _ ih => exact ih.mul n
    | mulFR g n _ ih => exact ih.mulFR n
    | mulAffine a n h => exact .mulAffine (hS' a h) n
    | mulFRAffine a n h => exact .mulFRAffine (hS' a h) n
  exact ⟨G1Projective.onCurve_iff.mpr key, G1Affine.onCurve_iff.mpr key.toAffine⟩

/-- So a value off the curve cannot be turned into one that `IsOnCurve` accepts, other than infinity: of everything
computed from it, only infinity passes. The check may be made late. -/
theorem C73_late_g1 {a : G1Affine} (hi : a.infinity = false) (hx : a.x.isValid) (hy : a.y.isValid) (hc : a.isOnCurve = false)
    {g : G1Projective} (h : G1Made (· = a) g) : g.toAffine.isOnCurve = true ↔ g.isZero = true := by
  obtain ⟨c, h1, _, h3, _⟩ := C73_own_g1 a hi hx hy
  have hne : c ≠ 4 := fun e => by rw [h3.mpr e] at hc; cases hc
  have s := (C73_stays_g1 (c := c) (fun b e => by subst e; exact h1) h).2
  rw [(G1Affine.onCurve_iff.mp s).isOnCurve hne]
  unfold G1Projective.toAffine
  constructor
  · intro e
    by_contra hz
    rw [if_neg hz] at e
    have e := congrArg G1Affine.infinity e
    split_ifs at e <;> cases e
  · intro hz
    rw [if_pos hz]

/-- `AggregateSignatures` of the package with signatures in G1 and `AggregatePublicKeys` of the other, on points of one curve: the sum in the group of that curve. -/
theorem C73_aggregate_g1 {c : Fq} (hc : c ≠ 0) {l : List (G1Projective × (curve c).Point)}
    (h : ∀ x ∈ l, x.1.DenotesOn x.2) :
    (G2Pubs.aggregateSignatures (l.map fun x => ⟨x.1⟩)).s.DenotesOn (l.map Prod.snd).sum ∧
    (G1Pubs.aggregatePublicKeys (l.map fun x => ⟨x.1⟩)).p.DenotesOn (l.map Prod.snd).sum := by
  have := good_g1 hc
  simp only [G1Projective.denotesOn_iff] at h ⊢
  have key : ∀ (l : List (G1Projective × (curve c).Point)) (g : G1Projective) (P : (curve c).Point), g.RepOn P →
      (∀ x ∈ l, x.1.RepOn x.2) →
      ((l.map fun x => (⟨x.1⟩ : G2Pubs.Signature)).foldl G2Pubs.Signature.aggregate ⟨g⟩).s.RepOn (P + (l.map Prod.snd).sum) ∧
      ((l.map fun x => (⟨x.1⟩ : G1Pubs.PublicKey)).foldl G1Pubs.PublicKey.aggregate ⟨g⟩).p.RepOn (P + (l.map Prod.snd).sum) := by
    intro l
    induction l with
    | nil => exact fun g P hg _ => ⟨by rw [show (List.map Prod.snd ([] : List (G1Projective × (curve c).Point))).sum = 0 from rfl, add_zero]; exact hg, by rw [show (List.map Prod.snd ([] : List (G1Projective × (curve c).Point))).sum = 0 from rfl, add_zero]; exact hg⟩
    | cons x l ih =>
      intro g P hg hl
      have := ih (g.add x.1) (P + x.2) (hg.add (hl x List.mem_cons_self)) fun y m => hl y (List.mem_cons_of_mem _ m)
      rw [add_assoc] at this
      exact this
  have := key l G1Projective.zero 0 .zero h
  rwa [zero_add] at this

/-! ## G2 -/

/-- A finite value with canonical coordinates is a point of one curve, that with `c = y² - x³`. It is the library's curve
exactly if `IsOnCurve` accepts, and unless `c` is 0 the value is a point of a group. -/
theorem C73_own_g2 (a : G2Affine) (hi : a.infinity = false) (hx : a.x.isValid) (hy : a.y.isValid) :
    ∃ c : Fq2, a.OnCurve c ∧ (∀ c', a.OnCurve c' → c' = c) ∧ (a.isOnCurve = true ↔ c = b2) ∧
      (c ≠ 0 → ∃ P : (curve c).Point, P ≠ 0 ∧ a.DenotesOn P) := by
  have rx := FQ2.rep hx
  have ry := FQ2.rep hy
  refine ⟨a.y.fld ^ 2 - a.x.fld ^ 3, Or.inr ⟨hi, hx, hy, by ring⟩, ?_, ?_, ?_⟩
  · rintro c' (rfl | ⟨_, _, _, h⟩)
    · cases hi
    · rw [h]; ring
  · rw [G2Affine.isOnCurve_iff rx ry hi, sub_eq_iff_eq_add, add_comm]
  · intro hc
    have := good_g2 hc
    have at_ := pt_isAt (b := a.y.fld ^ 2 - a.x.fld ^ 3) (x := a.x.fld) (y := a.y.fld) (by ring)
    exact ⟨_, at_.ne_zero, Or.inr ⟨hi, hx, hy, at_⟩⟩

/-- The operations are those of the group of the curve the points are on, for every curve with `c ≠ 0`. -/
theorem C73_group_g2 {c : Fq2} (hc : c ≠ 0) {g k : G2Projective} {a : G2Affine} {P Q : (curve c).Point}
    (hg : g.DenotesOn P) (hk : k.DenotesOn Q) (ha : a.DenotesOn Q) (n : FQRepr) (m : FRRepr) :
    g.double.DenotesOn (P + P) ∧ (g.add k).DenotesOn (P + Q) ∧ (g.addAffine a).DenotesOn (P + Q) ∧
    (g.mul n).DenotesOn (n.toNat • P) ∧ (g.mulFR m).DenotesOn (m.toNat • P) ∧
    (a.mul n).DenotesOn (n.toNat • Q) ∧ (a.mulFR m).DenotesOn (m.toNat • Q) ∧
    (∀ N : ℕ, (a.mulBig N).DenotesOn (N • Q)) ∧
     a.neg.DenotesOn (-Q) ∧ g.toAffine.DenotesOn P ∧ a.toProjective.DenotesOn Q ∧
    (g.equals k = true ↔ P = Q) ∧ (g.isZero = true ↔ P = 0) := by
  have := good_g2 hc
  rw [G2Projective.denotesOn_iff] at hg hk
  rw [G2Affine.denotesOn_iff] at ha
  simp only [G2Projective.denotesOn_iff, G2Affine.denotesOn_iff]
  exact ⟨hg.double, hg.add hk, hg.addAffine ha, hg.mul n, hg.mulFR m, ha.mul n, ha.mulFR m, ha.mulBig,   ha.neg, hg.toAffine,
    ha.toProjective, hg.equal hk, hg.isZero⟩

/-- `IsInCorrectSubgroupAssumingOnCurve` tells whether the order divides `r` in the group of that curve. -/
theorem C73_subgroup_g2 {c : Fq2} (hc : c ≠ 0) {a : G2Affine} {P : (curve c).Point} (ha : a.DenotesOn P) :
    a.isInCorrectSubgroup = true ↔ r • P = 0 := by
  have := good_g2 hc
  exact (G2Affine.denotesOn_iff.mp ha).isInCorrectSubgroup

/-- It does not replace `IsOnCurve`: from every point of the subgroup but infinity, and every `u` with `u⁶ ≠ 1`, it makes a
point `(u² x, u³ y)` that passes the subgroup check and is on another curve. -/
theorem C73_subgroup_alone_g2 {a : G2Affine} {P : E2} (ha : a.Denotes P) (h0 : P ≠ 0) (hr : r • P = 0) {u : FQ2}
    (hu : u.isValid) (hu0 : u.fld ≠ 0) (hu6 : u.fld ^ 6 ≠ 1) :
    (G2Affine.mk (a.x.mul u.square) (a.y.mul (u.square.mul u)) false).isInCorrectSubgroup = true ∧
    (G2Affine.mk (a.x.mul u.square) (a.y.mul (u.square.mul u)) false).isOnCurve = false := by
  rcases ha with ⟨_, rfl⟩ | ⟨hi, hx, hy, hP⟩
  · exact absurd rfl h0
  have ru := FQ2.rep hu
  have rx := (FQ2.rep hx).mul ru.square
  have ry := (FQ2.rep hy).mul (ru.square.mul ru)
  have hb : b2 ≠ (0 : Fq2) := GoodCurve.b_ne
  have hc : u.fld ^ 6 * b2 ≠ 0 := mul_ne_zero (pow_ne_zero _ hu0) hb
  have := good_g2 hc
  let t : TwistData b2 (u.fld ^ 6 * b2) :=
    ⟨RingHom.id _, u.fld ^ 2, u.fld ^ 3, pow_ne_zero _ hu0, by ring, by rw [RingHom.id_apply]; ring⟩
  have at_ := t.hom_at hP
  have rep : (G2Affine.mk (a.x.mul u.square) (a.y.mul (u.square.mul u)) false).RepOn (t.hom P) := by
    refine Or.inr ⟨rfl, _, _, rx, ry, ?_⟩
    have e1 : t.α * t.f a.x.fld = a.x.fld * (u.fld * u.fld) := show u.fld ^ 2 * a.x.fld = _ by ring
    have e2 : t.β * t.f a.y.fld = a.y.fld * (u.fld * u.fld * u.fld) := show u.fld ^ 3 * a.y.fld = _ by ring
    rw [e1, e2] at at_
    simpa [pow_two] using at_
  refine ⟨?_, ?_⟩
  · rw [rep.isInCorrectSubgroup, ← map_nsmul, hr, map_zero]
  · rw [Bool.eq_false_iff, Ne, G2Affine.isOnCurve_iff rx ry rfl]
    intro e
    have h1 := hP.on
    apply hu6
    have : (u.fld ^ 6 - 1) * b2 = 0 := by linear_combination e - u.fld ^ 6 * h1
    rcases mul_eq_zero.mp this with h | h
    · exact sub_eq_zero.mp h
    · exact absurd h hb

/-- Whatever is computed from points of one curve, any `c`, is infinity or on that curve. -/
theorem C73_stays_g2 {c : Fq2} {S : G2Affine → Prop} (hS : ∀ a, S a → a.OnCurve c) {g : G2Projective} (h : G2Made S g) :
    g.OnCurve c ∧ g.toAffine.OnCurve c := by
  have hS' : ∀ a, S a → a.InvOn c := fun a h => G2Affine.onCurve_iff.mp (hS a h)
  have key : g.InvOn c := by
    induction h with
    | zero => exact .zero
    | toProjective a h => exact (hS' a h).toProjective
    | negAssign a h => exact (hS' a h).neg.toProjective
    | affine g _ ih => exact ih.toAffine.toProjective
    | negAffine g _ ih => exact ih.toAffine.neg.toProjective
    | double g _ ih => exact ih.double
    | add g k _ _ ih ih' => exact ih.add ih'
    | addAffine g a _ h ih => exact ih.addAffine (hS' a h)
    | addToAffine g k _ _ ih ih' => exact ih.addAffine ih'.toAffine
    | mul g n _ ih => exact ih.mul n
    | mulFR g n _ ih => exact ih.mulFR n
    | mulAffine a n h => exact .mulAffine (hS' a h) n
    | mulFRAffine a n h => exact .mulFRAffine (hS' a h) n
    | mulBig a n h => exact .mulBig (hS' a h) n
  exact ⟨G2Projective.onCurve_iff.mpr key, G2Affine.onCurve_iff.mpr key.toAffine⟩

/-- So a value off the curve cannot be turned into one that `IsOnCurve` accepts, other than infinity: of everything
computed from it, only infinity passes. The check may be made late. -/
theorem C73_late_g2 {a : G2Affine} (hi : a.infinity = false) (hx : a.x.isValid) (hy : a.y.isValid) (hc : a.isOnCurve = false)
    {g : G2Projective} (h : G2Made (· = a) g) : g.toAffine.isOnCurve = true ↔ g.isZero = true := by
  obtain ⟨c, h1, _, h3, _⟩ := C73_own_g2 a hi hx hy
  have hne : c ≠ b2 := fun e => by rw [h3.mpr e] at hc; cases hc
  have s := (C73_stays_g2 (c := c) (fun b e => by subst e; exact h1) h).2
  rw [(G2Affine.onCurve_iff.mp s).isOnCurve hne]
  unfold G2Projective.toAffine
  constructor
  · intro e
    by_contra hz
    rw [if_neg hz] at e
    have e := congrArg G2Affine.infinity e
    split_ifs at e <;> cases e
  · intro hz
    rw [if_pos hz]

/-- `AggregateSignatures` of the package with signatures in G2 and `AggregatePublicKeys` of the other, on points of one curve: the sum in the group of that curve. -/
theorem C73_aggregate_g2 {c : Fq2} (hc : c ≠ 0) {l : List (G2Projective × (curve c).Point)}
    (h : ∀ x ∈ l, x.1.DenotesOn x.2) :
    (G1Pubs.aggregateSignatures (l.map fun x => ⟨x.1⟩)).s.DenotesOn (l.map Prod.snd).sum ∧
    (G2Pubs.aggregatePublicKeys (l.map fun x => ⟨x.1⟩)).p.DenotesOn (l.map Prod.snd).sum := by
  have := good_g2 hc
  simp only [G2Projective.denotesOn_iff] at h ⊢
  have key : ∀ (l : List (G2Projective × (curve c).Point)) (g : G2Projective) (P : (curve c).Point), g.RepOn P →
      (∀ x ∈ l, x.1.RepOn x.2) →
      ((l.map fun x => (⟨x.1⟩ : G1Pubs.Signature)).foldl G1Pubs.Signature.aggregate ⟨g⟩).s.RepOn (P + (l.map Prod.snd).sum) ∧
      ((l.map fun x => (⟨x.1⟩ : G2Pubs.PublicKey)).foldl G2Pubs.PublicKey.aggregate ⟨g⟩).p.RepOn (P + (l.map Prod.snd).sum) := by
    intro l
    induction l with
    | nil => exact fun g P hg _ => ⟨by rw [show (List.map Prod.snd ([] : List (G2Projective × (curve c).Point))).sum = 0 from rfl, add_zero]; exact hg, by rw [show (List.map Prod.snd ([] : List (G2Projective × (curve c).Point))).sum = 0 from rfl, add_zero]; exact hg⟩
    | cons x l ih =>
      intro g P hg hl
      have := ih (g.add x.1) (P + x.2) (hg.add (hl x List.mem_cons_self)) fun y m => hl y (List.mem_cons_of_mem _ m)
      rw [add_assoc] at this
      exact this
  have := key l G2Projective.zero 0 .zero h
  rwa [zero_add] at this

/-- Beside C73_own_g1, C73_late_g1: `(1, 1)` has canonical coordinates and is off the curve. -/
example : (FQ.one.isValid = true) ∧ (G1Affine.mk FQ.one FQ.one false).isOnCurve = false := by
  refine ⟨FQ.isValid_iff.mpr FQ.one_rep.1, ?_⟩
  rw [Bool.eq_false_iff, Ne, G1Affine.isOnCurve_iff FQ.one_rep FQ.one_rep rfl]
  intro e
  exact (GoodCurve.b_ne : (4 : Fq) ≠ 0) (by linear_combination -e)

/-- Beside C73_own_g2, C73_late_g2: `(1, 1)` has canonical coordinates and is off the curve. -/
example : (FQ2.one.isValid = true) ∧ (G2Affine.mk FQ2.one FQ2.one false).isOnCurve = false := by
  refine ⟨(FQ2.rep_iff.mp FQ2.one_rep).1, ?_⟩
  rw [Bool.eq_false_iff, Ne, G2Affine.isOnCurve_iff FQ2.one_rep FQ2.one_rep rfl]
  intro e
  exact (GoodCurve.b_ne : b2 ≠ 0) (by linear_combination -e)

/-- Beside C73_subgroup_alone_g1: the generator and `u = 2`. -/
example : ∃ a : G1Affine, a.infinity = false ∧ a.isInCorrectSubgroup = true ∧ a.isOnCurve = false := by
  obtain ⟨h1, h2⟩ := FQ.rep_iff_int.mp (FQ.one_rep.add FQ.one_rep)
  refine ⟨_, rfl, C73_subgroup_alone_g1 (a := G1Affine.one) (u := FQ.one.add FQ.one) (G1Affine.denotes_iff.mpr G1Affine.one_rep)
    g1Gen_ne_zero r_smul_g1Gen h1 ?_ ?_⟩
  · rw [h2]
    intro e
    exact (inferInstance : GoodCurve (4 : Fq)).two_ne (by linear_combination e)
  · rw [h2]
    intro e
    have : ((63 : ℕ) : Fq) = 0 := by push_cast; linear_combination e
    exact absurd (N2.cast_eq_zero.mp this) (by decide +kernel)

/-- Beside C73_subgroup_alone_g2: the generator and a square root of -1. -/
example : ∃ a : G2Affine, a.infinity = false ∧ a.isInCorrectSubgroup = true ∧ a.isOnCurve = false := by
  have h : (⟨0, 1⟩ : Fq2) ^ 2 = -1 := by ext <;> simp [pow_two]
  obtain ⟨h1, h2⟩ := FQ2.rep_iff.mp (show (FQ2.mk FQ.zero FQ.one).Rep ⟨0, 1⟩ from ⟨FQ.zero_rep, FQ.one_rep⟩)
  refine ⟨_, rfl, C73_subgroup_alone_g2 (a := G2Affine.one) (u := ⟨FQ.zero, FQ.one⟩) (G2Affine.denotes_iff.mpr G2Affine.one_rep)
    g2Gen_ne_zero r_smul_g2Gen h1 ?_ ?_⟩
  · rw [h2]
    intro e
    rw [e] at h
    exact one_ne_zero (by linear_combination h : (1 : Fq2) = 0)
  · rw [h2]
    intro e
    exact (inferInstance : GoodCurve b2).two_ne (by
      linear_combination (1 - (⟨0, 1⟩ : Fq2) ^ 2 + (⟨0, 1⟩ : Fq2) ^ 4) * h - e)

end Bls.Props
