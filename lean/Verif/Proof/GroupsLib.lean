import Verif.Proof.Groups
import Verif.Proof.Compress
import Verif.Proof.Nondegen
import Verif.Proof.Gens
import Verif.Proof.Cards
import Verif.Proof.G1Pubs
import Verif.Proof.G2Pubs
import Verif.Props.Repr
/-
The library's operations on scalars, points and values of the pairing agree with those on paper.
-/
namespace Bls.Groups

open Classical

theorem g1_unique {a : G1Affine} {P : E1} (h : a.Rep P) : (G1Affine.exists_rep P).choose = a :=
  (G1Affine.exists_rep P).choose_spec.inj h

theorem g2_unique {a : G2Affine} {P : E2} (h : a.Rep P) : (G2Affine.exists_rep P).choose = a :=
  (G2Affine.exists_rep P).choose_spec.inj h

theorem fr_exists (x : Fr) : ∃ a : FR, a.Rep x := by
  have hk := FRRepr.ofNat_toNat (n := x.val) (lt_trans (ZMod.val_lt x) (by rw [r_eq]; decide +kernel))
  obtain ⟨a, -, ha⟩ := FR.ofRepr?_lt (o := FRRepr.ofNat x.val) (by rw [hk]; exact ZMod.val_lt x)
  rw [hk, ZMod.natCast_zmod_val] at ha
  exact ⟨a, ha⟩

/-- The library's pairing and encodings. -/
noncomputable def choice : Choice where
  e P Q := (ee P Q).val
  encF x := (fr_exists x).choose.bytes
  enc1 P := (G1Affine.exists_rep P).choose.compress
  enc2 P := (G2Affine.exists_rep P).choose.compress
  dec1 b := if h : ∃ P, ∃ a : G1Affine, G1Affine.decompress b = some a ∧ a.Rep P then some h.choose else none
  dec2 b := if h : ∃ P, ∃ a : G2Affine, G2Affine.decompress b = some a ∧ a.Rep P then some h.choose else none

theorem dec1_some {b : List UInt8} {a : G1Affine} {P : E1} (h : G1Affine.decompress b = some a) (ha : a.Rep P) :
    choice.dec1 b = some P := by
  have hx : ∃ P, ∃ a : G1Affine, G1Affine.decompress b = some a ∧ a.Rep P := ⟨P, a, h, ha⟩
  unfold choice; dsimp only
  rw [dif_pos hx]
  obtain ⟨a', h', ha'⟩ := hx.choose_spec
  rw [h, Option.some.injEq] at h'
  subst h'
  rw [ha'.fn ha]

theorem dec2_some {b : List UInt8} {a : G2Affine} {P : E2} (h : G2Affine.decompress b = some a) (ha : a.Rep P) :
    choice.dec2 b = some P := by
  have hx : ∃ P, ∃ a : G2Affine, G2Affine.decompress b = some a ∧ a.Rep P := ⟨P, a, h, ha⟩
  unfold choice; dsimp only
  rw [dif_pos hx]
  obtain ⟨a', h', ha'⟩ := hx.choose_spec
  rw [h, Option.some.injEq] at h'
  subst h'
  rw [ha'.fn ha]

theorem dec1_none {b : List UInt8} (h : G1Affine.decompress b = none) : choice.dec1 b = none := by
  unfold choice; dsimp only
  rw [dif_neg]
  rintro ⟨_, _, e, _⟩
  rw [h] at e; cases e

theorem dec2_none {b : List UInt8} (h : G2Affine.decompress b = none) : choice.dec2 b = none := by
  unfold choice; dsimp only
  rw [dif_neg]
  rintro ⟨_, _, e, _⟩
  rw [h] at e; cases e

theorem enc1_eq {a : G1Affine} {P : E1} (h : a.Rep P) : choice.enc1 P = a.compress := by
  show (G1Affine.exists_rep P).choose.compress = _
  rw [g1_unique h]

theorem enc2_eq {a : G2Affine} {P : E2} (h : a.Rep P) : choice.enc2 P = a.compress := by
  show (G2Affine.exists_rep P).choose.compress = _
  rw [g2_unique h]

theorem encF_eq {a : FR} {x : Fr} (h : a.Rep x) : choice.encF x = a.bytes := by
  show (fr_exists x).choose.bytes = _
  rw [(fr_exists x).choose_spec.inj h]

/-- Points of the subgroup of order r. -/
abbrev R1 (g : G1Projective) (P : E1) : Prop := g.Rep P ∧ r • P = 0
/-- Points of the subgroup of order r. -/
abbrev R2 (g : G2Projective) (P : E2) : Prop := g.Rep P ∧ r • P = 0
/-- Roots of unity. -/
abbrev RT (a : FQ12) (x : Fq12) : Prop := a.Rep x ∧ x ^ r = 1

theorem bool_eq {b : Bool} {p : Prop} [Decidable p] (h : b = true ↔ p) : b = decide p := by
  by_cases hp : p
  · rw [h.mpr hp, decide_eq_true hp]
  · rw [decide_eq_false hp]; exact Bool.eq_false_iff.mpr fun hb => hp (h.mp hb)

theorem prodE_val (ds : List (E1 × E2)) : (prodE ds).val = (ds.map fun x => choice.e x.1 x.2).prod := by
  induction ds with
  | nil => simp [prodE, GT.val_one]
  | cons d ds ih =>
    unfold prodE at ih ⊢
    rw [List.map_cons, List.prod_cons, List.map_cons, List.prod_cons, GT.val_mul, ih]; rfl

theorem prodE_root (ds : List (E1 × E2)) : (prodE ds).val ^ r = 1 := by
  rw [← GT.val_pow]
  suffices prodE ds ^ r = 1 by rw [this, GT.val_one]
  induction ds with
  | nil => simp [prodE]
  | cons d ds ih =>
    unfold prodE at ih ⊢
    rw [List.map_cons, List.prod_cons, mul_pow, ih, ee_pow_r, mul_one]

theorem prepare_ok {l : List (G1Projective × G2Projective)} {ds : List (E1 × E2)}
    (h : List.Forall₂ (fun a d => R1 a.1 d.1 ∧ R2 a.2 d.2) l ds) :
    ∃ items, (l.mapM fun (x : G1Projective × G2Projective) => x.2.toAffine.toPrepared.map fun t => (x.1.toAffine, t)) =
      some items ∧ List.Forall₂ ItemRep items ds := by
  induction h with
  | nil => exact ⟨[], rfl, .nil⟩
  | @cons a d l ds h _ ih =>
    obtain ⟨items, e, hi⟩ := ih
    obtain ⟨t, ht, -⟩ := toPrepared_ok a.2.toAffine
    refine ⟨(a.1.toAffine, t) :: items, ?_, .cons ⟨h.1.1.toAffine, _, h.2.1.toAffine, ht⟩ hi⟩
    rw [List.mapM_cons, e, ht]; rfl

theorem mem_item {items : List (G1Affine × G2Prepared)} {ds : List (E1 × E2)} (h : List.Forall₂ ItemRep items ds)
    {d : E1 × E2} (hd : d ∈ ds) : ∃ it ∈ items, ItemRep it d := by
  induction h with
  | nil => cases hd
  | cons h _ ih =>
    rcases List.mem_cons.mp hd with rfl | hd
    · exact ⟨_, List.mem_cons_self, h⟩
    · obtain ⟨it, hi, hr⟩ := ih hd
      exact ⟨it, List.mem_cons_of_mem _ hi, hr⟩

theorem mem_order {l : List (G1Projective × G2Projective)} {ds : List (E1 × E2)}
    (h : List.Forall₂ (fun a d => R1 a.1 d.1 ∧ R2 a.2 d.2) l ds) {d : E1 × E2} (hd : d ∈ ds) : r • d.2 = 0 := by
  induction h with
  | nil => cases hd
  | cons h _ ih =>
    rcases List.mem_cons.mp hd with rfl | hd
    · exact h.2.2
    · exact ih hd

theorem pairs_related {l : List (G1Projective × G2Projective)} {ds : List (E1 × E2)}
    (h : List.Forall₂ (fun a d => R1 a.1 d.1 ∧ R2 a.2 d.2) l ds) :
    Option.Rel RT (library.pairs l) ((paper choice g1Gen g2Gen).pairs ds) := by
  obtain ⟨items, e, hi⟩ := prepare_ok h
  show Option.Rel RT (pairAll l) (if _ then none else some _)
  unfold pairAll
  rw [e, Option.bind_some]
  split
  · rename_i hz
    obtain ⟨d, hd, hz⟩ := hz
    obtain ⟨it, hit, h1, a, ha, hp⟩ := mem_item hi hd
    rw [millerLoop_none hit]
    · exact .none
    · rcases hz with hz | hz
      · exact Or.inl (h1.infinity_iff.mpr hz)
      · obtain ⟨t, ht, hz'⟩ := toPrepared_ok a
        rw [hp, Option.some.injEq] at ht
        subst ht
        exact Or.inr (by rw [hz']; exact ha.infinity_iff.mpr hz)
  · rename_i hz
    push Not at hz
    obtain ⟨f, Y, hY, hf, hr, hphi⟩ := millerLoop_spec hi (fun d hd => (hz d hd).1)
      fun d hd => Ord.reg_tail ⟨(hz d hd).2, mem_order h hd⟩
    obtain ⟨g, hg, hgr⟩ := finalExp_phi hr hY
    rw [hf, Option.bind_some, hg]
    rw [hphi] at hgr
    rw [← prodE_val]
    exact .some ⟨hgr, prodE_root ds⟩

theorem r_dvd_q6 : r ∣ q ^ 6 + 1 := by
  rw [r_eq, q_eq]; decide +kernel

theorem conj_root {x : Fq12} (h : x ^ r = 1) : Fq12.conj x = x⁻¹ := by
  obtain ⟨k, hk⟩ := r_dvd_q6
  rw [Fq12.conj_eq]
  refine eq_inv_of_mul_eq_one_left ?_
  rw [← pow_succ, hk, pow_mul, h, one_pow]

theorem nsmul_val {α : Type} [AddCommGroup α] {P : α} (k : Nat) (h : r • P = 0) : r • (k • P) = 0 := by
  rw [smul_comm, h, smul_zero]

theorem root_ne_zero {x : Fq12} (h : x ^ r = 1) : x ≠ 0 := by
  rintro rfl
  rw [zero_pow r_pos.ne'] at h
  exact zero_ne_one h

theorem g1_decompress_rep {b : List UInt8} (hb : b.length = 48) {a : G1Affine} (h : G1Affine.decompress b = some a) :
    ∃ P : E1, a.Rep P ∧ r • P = 0 := by
  obtain ⟨h, hs⟩ := G1Affine.decompress_iff.mp h
  obtain ⟨P, hP⟩ := G1Affine.decompressUnchecked_rep hb h
  exact ⟨P, hP, hP.isInCorrectSubgroup.mp hs⟩

theorem g2_decompress_rep {b : List UInt8} (hb : b.length = 96) {a : G2Affine} (h : G2Affine.decompress b = some a) :
    ∃ P : E2, a.Rep P ∧ r • P = 0 := by
  obtain ⟨h, hs⟩ := G2Affine.decompress_iff.mp h
  obtain ⟨P, hP⟩ := G2Affine.decompressUnchecked_rep hb h
  exact ⟨P, hP, hP.isInCorrectSubgroup.mp hs⟩

theorem read1_related (b : List UInt8) (hb : b.length = 48) :
    Option.Rel R1 (library.read1 b) ((paper choice g1Gen g2Gen).read1 b) := by
  show Option.Rel R1 ((G1Affine.decompress b).map G1Affine.toProjective) (choice.dec1 b)
  rcases hd : G1Affine.decompress b with _ | a
  · rw [dec1_none hd]; exact .none
  · obtain ⟨P, hP, h0⟩ := g1_decompress_rep hb hd
    rw [dec1_some hd hP]
    exact .some ⟨hP.toProjective, h0⟩

theorem read2_related (b : List UInt8) (hb : b.length = 96) :
    Option.Rel R2 (library.read2 b) ((paper choice g1Gen g2Gen).read2 b) := by
  show Option.Rel R2 ((G2Affine.decompress b).map G2Affine.toProjective) (choice.dec2 b)
  rcases hd : G2Affine.decompress b with _ | a
  · rw [dec2_none hd]; exact .none
  · obtain ⟨P, hP, h0⟩ := g2_decompress_rep hb hd
    rw [dec2_some hd hP]
    exact .some ⟨hP.toProjective, h0⟩

theorem related : Related library (paper choice g1Gen g2Gen) FR.Rep R1 R2 RT where
  scalar k := by
    show Option.Rel _ (FR.ofRepr? k) (if _ then _ else _)
    by_cases h : k.toNat < r
    · obtain ⟨a, e, ha⟩ := FR.ofRepr?_lt h
      rw [if_pos h, e]; exact .some ha
    · rw [if_neg h, FR.ofRepr?_of_le (not_lt.mp h)]; exact .none
  binF o _ _ _ _ hx hy := by
    cases o with
    | add => exact hx.add hy
    | sub => exact hx.sub hy
    | mul => exact hx.mul hy
  unF o _ _ hx := by
    cases o with
    | neg => exact hx.neg
    | double => exact hx.double
    | square => exact hx.square
  invF {x x'} hx := by
    show Option.Rel _ x.inverse?.join (if _ then _ else _)
    by_cases h : x' = 0
    · subst h
      rw [hx.inverse?_zero, if_pos rfl]; exact .none
    · obtain ⟨g, e, hg⟩ := hx.inverse?_ne h
      rw [e, if_neg h]; exact .some hg
  outF hx := (encF_eq hx).symm
  eqF hx hy := bool_eq (hx.equals hy)
  zeroF hx := bool_eq hx.isZero
  gen1 := ⟨G1Affine.one_rep.toProjective, r_smul_g1Gen⟩
  inf1 := ⟨G1Projective.Rep.zero, nsmul_zero _⟩
  bin1 o _ _ _ _ hx hy := by
    refine ⟨?_, by show r • (_ + _) = 0; rw [nsmul_add, hx.2, hy.2, add_zero]⟩
    cases o with
    | add => exact hx.1.add hy.1
    | mixed => exact hx.1.addAffine hy.1.toAffine
  un1 o _ _ hx := by
    cases o with
    | neg => exact ⟨hx.1.neg, by show r • (- _) = 0; rw [neg_nsmul, hx.2, neg_zero]⟩
    | double => exact ⟨hx.1.double, by show r • (_ + _) = 0; rw [nsmul_add, hx.2, add_zero]⟩
    | affine => exact ⟨hx.1.toAffine.toProjective, hx.2⟩
  mul1 o _ _ y y' hx hy := by
    refine ⟨?_, nsmul_val _ hx.2⟩
    cases o with
    | projective => have h := hx.1.mulFR y.toRepr; rw [hy.toRepr] at h; exact h
    | affine => have h := hx.1.toAffine.mulFR y.toRepr; rw [hy.toRepr] at h; exact h
  out1 hx := (enc1_eq hx.1.toAffine).symm
  read1 := read1_related
  eq1 hx hy := bool_eq (hx.1.equal hy.1)
  zero1 hx := bool_eq hx.1.isZero
  gen2 := ⟨G2Affine.one_rep.toProjective, r_smul_g2Gen⟩
  inf2 := ⟨G2Projective.Rep.zero, nsmul_zero _⟩
  bin2 o _ _ _ _ hx hy := by
    refine ⟨?_, by show r • (_ + _) = 0; rw [nsmul_add, hx.2, hy.2, add_zero]⟩
    cases o with
    | add => exact hx.1.add hy.1
    | mixed => exact hx.1.addAffine hy.1.toAffine
  un2 o _ _ hx := by
    cases o with
    | neg => exact ⟨hx.1.toAffine.neg.toProjective, by show r • (- _) = 0; rw [neg_nsmul, hx.2, neg_zero]⟩
    | double => exact ⟨hx.1.double, by show r • (_ + _) = 0; rw [nsmul_add, hx.2, add_zero]⟩
    | affine => exact ⟨hx.1.toAffine.toProjective, hx.2⟩
  mul2 o _ _ y y' hx hy := by
    refine ⟨?_, nsmul_val _ hx.2⟩
    cases o with
    | projective => have h := hx.1.mulFR y.toRepr; rw [hy.toRepr] at h; exact h
    | affine => have h := hx.1.toAffine.mulFR y.toRepr; rw [hy.toRepr] at h; exact h
  out2 hx := (enc2_eq hx.1.toAffine).symm
  read2 := read2_related
  eq2 hx hy := bool_eq (hx.1.equal hy.1)
  zero2 hx := bool_eq hx.1.isZero
  pairs h := pairs_related h
  pair {x x' y y'} hx hy := by
    show Option.Rel RT (pairing x y).join (if _ then _ else _)
    by_cases h : x' = 0 ∨ y' = 0
    · rw [if_pos h, pairing_none hx.1 hy.1 h]; exact .none
    · rw [if_neg h]
      push Not at h
      obtain ⟨e, he, hr⟩ := pairing_spec hx.1 hy.1 h.1 ⟨h.2, hy.2⟩
      rw [he]
      refine .some ⟨hr, ?_⟩
      show (ee _ _).val ^ r = 1
      rw [← GT.val_pow, ee_pow_r, GT.val_one]
  oneT := ⟨FQ12.one_rep, one_pow _⟩
  mulT hx hy := ⟨hx.1.mul hy.1, by show (_ * _) ^ r = 1; rw [mul_pow, hx.2, hy.2, mul_one]⟩
  unT o _ _ hx := by
    cases o with
    | square => exact ⟨hx.1.square, by show (_ * _) ^ r = 1; rw [mul_pow, hx.2, mul_one]⟩
    | conjugate =>
      have h := hx.1.conjugate
      rw [conj_root hx.2] at h
      exact ⟨h, by show (_ : Fq12)⁻¹ ^ r = 1; rw [inv_pow, hx.2, inv_one]⟩
  invT {x x'} hx := by
    obtain ⟨h, hi⟩ := hx.1.inverse_ne (root_ne_zero hx.2)
    show Option.Rel RT (if x.inverse.2 then some x.inverse.1 else none) (some x'⁻¹)
    rw [h]
    exact .some ⟨hi, by rw [inv_pow, hx.2, inv_one]⟩
  expT {x x' y y'} hx hy := by
    have h := hx.1.exp y.toRepr.toFQ
    rw [Props.C07_fr_toFQ, hy.toRepr] at h
    exact ⟨h, by show (_ ^ _) ^ r = 1; rw [← pow_mul, mul_comm, pow_mul, hx.2, one_pow]⟩
  eqT hx hy := bool_eq (hx.1.equals hy.1)
  compare {x x' y y' z z' w w'} hx hy hz hw := by
    show compareTwoPairings x y z w = if _ then _ else _
    by_cases h : x' = 0 ∨ y' = 0 ∨ z' = 0 ∨ w' = 0
    · rw [if_pos h, compareTwoPairings_none hx.1 hy.1 hz.1 hw.1 (by tauto)]
    · rw [if_neg h]
      push Not at h
      obtain ⟨c, e, hc⟩ := compareTwoPairings_spec hx.1 hy.1 hz.1 hw.1 h.1 h.2.2.1 ⟨h.2.1, hy.2⟩ ⟨h.2.2.2, hw.2⟩
      rw [e, bool_eq hc]
      congr 2
      exact propext ⟨fun h => by show (ee _ _).val = (ee _ _).val; rw [h], fun h => GT.ext h⟩

theorem lawful : choice.Lawful where
  add_left P P' Q _ _ hQ := by
    show (ee _ _).val = _
    rw [ee_add_left _ _ (eig_of_torsion hQ), GT.val_mul]; rfl
  add_right P Q Q' _ hQ hQ' := by
    show (ee _ _).val = _
    rw [ee_add_right _ (eig_of_torsion hQ) (eig_of_torsion hQ'), GT.val_mul]; rfl
  nondegenerate P Q hP hQ hP0 hQ0 h := ee_ne_one hP hQ hP0 hQ0 (GT.ext (by rw [GT.val_one]; exact h))
  root P Q _ _ := by
    show (ee _ _).val ^ r = 1
    rw [← GT.val_pow, ee_pow_r, GT.val_one]
  encF x := by
    obtain ⟨a, ha⟩ := fr_exists x
    rw [encF_eq ha]
    exact ⟨FRRepr.bytes_length _, (FRRepr.beNat_bytes _).trans ha.toRepr⟩
  enc1 P := by
    obtain ⟨a, ha⟩ := G1Affine.exists_rep P
    rw [enc1_eq ha]; exact ha.compress_length
  enc2 P := by
    obtain ⟨a, ha⟩ := G2Affine.exists_rep P
    rw [enc2_eq ha]; exact ha.compress_length
  dec1 b P hb := by
    constructor
    · intro h
      rcases hd : G1Affine.decompress b with _ | a
      · rw [dec1_none hd] at h; cases h
      · obtain ⟨P', hP, h0⟩ := g1_decompress_rep hb hd
        rw [dec1_some hd hP, Option.some.injEq] at h
        subst h
        refine ⟨h0, ?_⟩
        rw [enc1_eq hP]
        exact (G1Affine.compress_decompressUnchecked hb (G1Affine.decompress_iff.mp hd).1 (G1Affine.decompress_lt hb hd)).symm
    · rintro ⟨h0, rfl⟩
      obtain ⟨a, ha⟩ := G1Affine.exists_rep P
      rw [enc1_eq ha]
      exact dec1_some (ha.decompress_compress h0) ha
  dec2 P h0 := by
    obtain ⟨a, ha⟩ := G2Affine.exists_rep P
    rw [enc2_eq ha]
    exact dec2_some (ha.decompress_compress h0) ha
  order2 b P hb h := by
    rcases hd : G2Affine.decompress b with _ | a
    · rw [dec2_none hd] at h; cases h
    · obtain ⟨P', hP, h0⟩ := g2_decompress_rep hb hd
      rw [dec2_some hd hP, Option.some.injEq] at h
      subst h; exact h0

theorem denote_iff {v : Vars FR G1Projective G2Projective FQ12} {w : Vars (ZMod r) E1 E2 Fq12} :
    Denote v w ↔ VRel FR.Rep R1 R2 RT v w := by
  have hF : (fun (a : FR) (x : ZMod r) => a.isValid = true ∧ (a.int : ZMod r) = x) = FR.Rep := by
    funext a x
    refine propext ⟨fun h => ?_, fun h => ⟨FR.isValid_iff.mpr h.valid, ?_⟩⟩
    · rw [← h.2]; exact FR.rep_int h.1
    · rw [h.int, ZMod.natCast_zmod_val]
  have h1 : (fun (g : G1Projective) (P : E1) => g.Denotes P ∧ r • P = 0) = R1 := by
    funext g P; rw [G1Projective.denotes_iff]
  have h2 : (fun (g : G2Projective) (P : E2) => g.Denotes P ∧ r • P = 0) = R2 := by
    funext g P; rw [G2Projective.denotes_iff]
  have hT : (fun (a : FQ12) (x : Fq12) => a.isValid = true ∧ a.fld = x ∧ x ^ r = 1) = RT := by
    funext a x
    refine propext ⟨fun h => ⟨?_, h.2.2⟩, fun h => ⟨h.1.out.1, h.1.out.2, h.2⟩⟩
    rw [← h.2.1]; exact FQ12.rep_iff.mpr ⟨h.1, rfl⟩
  constructor
  · rintro ⟨a, b, c, d⟩
    rw [hF] at a; rw [h1] at b; rw [h2] at c; rw [hT] at d
    exact ⟨a, b, c, d⟩
  · rintro ⟨a, b, c, d⟩
    rw [← hF] at a; rw [← h1] at b; rw [← h2] at c; rw [← hT] at d
    exact ⟨a, b, c, d⟩

end Bls.Groups
