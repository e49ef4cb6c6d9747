import Verif.Proof.Uniform
import Verif.Props.Rand
import Verif.Proof.Lists
import Verif.Proof.G1Pubs
import Verif.Proof.G2Pubs
import Verif.Props.Pairing
/-
C65: random values are uniformly distributed. `rand.Int(reader, n)` draws from [0, n) and the reader draws a byte; all
draws are equally likely (that is their contract). So a function of them gives two results with the same probability
exactly if the same number of draws gives either. These numbers are counted here, for `RandG1` and `RandG2` over the lists
of draws of every length.
-/
set_option exponentiation.threshold 1000
namespace Bls.Props

/-! ## C65: field elements and keys -/

/-- Each scalar is given by one draw. -/
theorem C65_randFR (k : ℕ) (hk : k < r) :
    Nat.card {z : Fin r // ∃ f, FR.rand (some (z : ℤ)) = some (some (some f)) ∧ f.isValid = true ∧ f.int = k} = 1 := by
  rw [Nat.card_eq_one_iff_unique]
  have key (z : Fin r) := (C47_randFR z (by omega) (by exact_mod_cast z.2)).1
  refine ⟨⟨fun z z' => ?_⟩, ⟨⟨⟨k, hk⟩, ?_⟩⟩⟩
  · obtain ⟨z, f, h1, _, h2⟩ := z
    obtain ⟨z', f', h1', _, h2'⟩ := z'
    obtain ⟨g, e, _, e'⟩ := key z
    obtain ⟨g', e1, _, e1'⟩ := key z'
    rw [h1] at e
    rw [h1'] at e1
    cases e
    cases e1
    refine Subtype.ext (Fin.ext ?_)
    change z.1 = z'.1
    omega
  · obtain ⟨f, h1, h2, h3⟩ := key ⟨k, hk⟩
    exact ⟨f, h1, h2, by exact_mod_cast h3⟩

/-! ## C65: points -/

/-- The coordinates of a point. -/
def ptX {F : Type} [Field F] [DecidableEq F] {b : F} : (curve b).Point → F
  | .zero => 0
  | .some x _ _ => x
def ptY {F : Type} [Field F] [DecidableEq F] {b : F} : (curve b).Point → F
  | .zero => 0
  | .some _ y _ => y

theorem isAt_pt {F : Type} [Field F] [DecidableEq F] {b : F} {T : (curve b).Point} (h : T ≠ 0) :
    IsAt T (ptX T) (ptY T) := by
  cases T with
  | zero => exact absurd rfl h
  | some x y h' => exact ⟨h', rfl⟩

theorem isAt_eq {F : Type} [Field F] [DecidableEq F] {b : F} {T : (curve b).Point} {x y : F} (h : IsAt T x y) :
    ptX T = x ∧ ptY T = y := by
  obtain ⟨h', rfl⟩ := h
  exact ⟨rfl, rfl⟩

theorem greater_total1 {y : Fq} (h : y ≠ -y) : Fq.Greater (-y) y ↔ ¬ Fq.Greater y (-y) := by
  have : y.val ≠ (-y).val := fun e => h (ZMod.val_injective q e)
  unfold Fq.Greater
  omega

theorem greater_total2 {y : Fq2} (h : y ≠ -y) : Fq2.Greater (-y) y ↔ ¬ Fq2.Greater y (-y) := by
  have h0 : y.c0 = (-y).c0 ↔ y.c0.val = (-y).c0.val := (ZMod.val_injective q).eq_iff.symm
  have h1 : y.c1 = (-y).c1 ↔ y.c1.val = (-y).c1.val := (ZMod.val_injective q).eq_iff.symm
  have : ¬ (y.c0.val = (-y).c0.val ∧ y.c1.val = (-y).c1.val) := fun e => h (Fq2.ext (h0.mpr e.1) (h1.mpr e.2))
  unfold Fq2.Greater
  rw [eq_comm (a := (-y).c1), h1]
  omega

theorem even_byte (b : UInt8) : (if b % 2 == 0 then true else false) = true ↔ b % 2 = 0 := by
  by_cases h : b % 2 = 0
  · rw [h]; decide
  · rw [if_neg (by simpa using h)]
    exact iff_of_false Bool.false_ne_true h

instance : Finite UInt8 := Finite.of_injective UInt8.toFin fun _ _ h => UInt8.toFin_inj.mp h

theorem card_u8 : Nat.card UInt8 = 256 := by
  rw [Nat.card_congr (⟨UInt8.toFin, UInt8.ofFin, fun _ => rfl, fun _ => rfl⟩ : UInt8 ≃ Fin 256), Nat.card_fin]

theorem card_ne_zero {G : Type*} [Zero G] [Finite G] : Nat.card {T : G // T ≠ 0} = Nat.card G - 1 := by
  classical
  rw [Nat.card_congr (Equiv.optionSubtypeNe (0 : G)).symm, Finite.card_option, Nat.add_sub_cancel]

theorem card_not {D : Type*} [Finite D] (p : D → Prop) : Nat.card {d // ¬ p d} = Nat.card D - Nat.card {d // p d} := by
  classical
  rw [Nat.card_congr (Equiv.sumCompl p).symm, Nat.card_sum, Nat.add_sub_cancel_left]

/-- The draw that a point of E1 comes from: its x and whether its y is the greater of ±y. -/
noncomputable def xOf1 (T : E1) : Fin q := ⟨(ptX T).val, ZMod.val_lt _⟩
def gr1 (T : E1) : Prop := Fq.Greater (ptY T) (-ptY T)

theorem inj1 (T T' : E1) (h0 : T ≠ 0) (h0' : T' ≠ 0) (h : xOf1 T = xOf1 T') (hg : gr1 T ↔ gr1 T') : T = T' := by
  have hx : ptX T = ptX T' := ZMod.val_injective q (congrArg Fin.val h)
  have a := isAt_pt h0
  have a' := isAt_pt h0'
  rw [← hx] at a'
  have e : ptY T ^ 2 = ptY T' ^ 2 := by rw [a.on, a'.on]
  have y0 : ptY T ≠ 0 := fun h => E1.y_ne_zero (h ▸ a.on)
  rcases sq_eq_sq_iff_eq_or_eq_neg.mp e with e | e
  · rw [← e] at a'
    exact a.inj a'
  · rw [gr1, gr1, e, neg_neg] at hg
    have h' := greater_total1 (y := ptY T') fun h' => ne_neg_self (b := (4 : Fq)) y0 (by rw [e, neg_neg]; exact h'.symm)
    tauto

/-- One iteration: it gives the cofactor times the point that the draw selects, and another iteration follows if there is
none. -/
theorem step1 (d : UInt8 × Fin q) : ∃ o, randG1Step (some d.1) (some (d.2 : ℤ)) = .ok o ∧
    (∀ p, o = some p → ∃ T, Uniform.Sel xOf1 gr1 d T ∧ p.Rep (h1 • T)) ∧
    (o = none → ¬ ∃ T, Uniform.Sel xOf1 gr1 d T) := by
  obtain ⟨f, e, hf, _⟩ := FQ.rand_spec (z := d.2) (by omega) (by exact_mod_cast d.2.2)
  have hx : ∀ T : E1, xOf1 T = d.2 ↔ ptX T = (((d.2 : ℤ).toNat : ℕ) : Fq) := fun T => by
    rw [xOf1, Fin.ext_iff, Int.toNat_natCast]
    refine ⟨fun h => ?_, fun h => ?_⟩
    · rw [← show (ptX T).val = d.2.1 from h, ZMod.natCast_zmod_val]
    · change (ptX T).val = d.2.1
      rw [h]
      exact ZMod.val_cast_of_lt d.2.2
  rw [randG1Step]
  rw [e]
  dsimp only
  generalize hg : G1Affine.getPointFromX f _ = g
  cases g with
  | none =>
    refine ⟨none, rfl, fun p h => (by cases h), ?_⟩
    rintro - ⟨T, hT, hT', _⟩
    have := (isAt_pt hT).on
    rw [(hx T).mp hT'] at this
    exact (G1Affine.getPointFromX_none hf _).mp hg ⟨ptY T, by rw [← this, sq]⟩
  | some a =>
    obtain ⟨e1, e2, y, hy, on, hgr⟩ := G1Affine.getPointFromX_some hf hg
    have hat := pt_isAt on
    have hr : a.Rep (pt _ _ on) := Or.inr ⟨e2, _, y, e1 ▸ hf, hy, hat⟩
    have hz : a.isZero = false := e2
    have y0 : y ≠ 0 := fun h => E1.y_ne_zero (h ▸ on)
    rw [Option.bind_some, hz, if_pos (by decide)]
    refine ⟨_, rfl, fun p h => ?_, fun h => absurd h (Option.some_ne_none _)⟩
    obtain rfl := Option.some.inj h
    refine ⟨_, ⟨hat.ne_zero, (hx _).mpr (isAt_eq hat).1, ?_⟩, ?_⟩
    · rw [gr1, (isAt_eq hat).2, ← hgr (ne_neg_self (b := (4 : Fq)) y0), even_byte]
    · have hm := hr.mul G1Affine.cofactor
      rw [G1Affine.cofactor_eq] at hm
      exact hm

/-- The draws of `RandG1`: a byte and the integer. -/
def draw1 (d : UInt8 × Fin q) : Option UInt8 × Option ℤ := (some d.1, some (d.2 : ℤ))

theorem run1 (d : UInt8 × Fin q) (l : List (UInt8 × Fin q)) (P : E1) :
    (∃ p, randG1 ((d :: l).map draw1) = .ok p ∧ p.Denotes P) ↔
      (∃ T, Uniform.Sel xOf1 gr1 d T ∧ h1 • T = P) ∨
      ((¬ ∃ T, Uniform.Sel xOf1 gr1 d T) ∧ ∃ p, randG1 (l.map draw1) = .ok p ∧ p.Denotes P) := by
  obtain ⟨o, e, k1, k2⟩ := step1 d
  rw [List.map_cons, draw1, randG1, e]
  cases o with
  | none =>
    have := k2 rfl
    refine ⟨fun h => .inr ⟨this, h⟩, ?_⟩
    rintro (⟨T, h, _⟩ | ⟨_, h⟩)
    · exact absurd ⟨T, h⟩ this
    · exact h
  | some p =>
    obtain ⟨T, hT, hp⟩ := k1 p rfl
    constructor
    · rintro ⟨p', hp', hP⟩
      obtain rfl := Outcome.ok.inj hp'
      exact .inl ⟨T, hT, hp.fn (G1Projective.denotes_iff.mp hP)⟩
    · rintro (⟨T', hT', rfl⟩ | ⟨h, _⟩)
      · rw [Uniform.Sel.unique inj1 hT' hT]
        exact ⟨p, rfl, G1Projective.denotes_iff.mpr hp⟩
      · exact absurd ⟨T, hT⟩ h

theorem coprime1 : Nat.Coprime h1 r := by rw [h1, r_eq]; decide +kernel

theorem fibre1 (P : E1) (hP : r • P = 0) : Nat.card {d // ∃ T, Uniform.Sel xOf1 gr1 d T ∧ h1 • T = P} =
    (if P = 0 then h1 - 1 else h1) * 128 := by
  rw [Uniform.card_sel inj1 fun T => h1 • T = P,
    Uniform.card_fibre_ne r_prime.one_lt E1.card coprime1 addOrderOf_g1Gen (fun _ => E1.torsion) hP]

/-- `RandG1` gives all points of the subgroup but the identity with the same probability: for every n, the number of
lists of n draws on which it returns P does not depend on P. -/
theorem C65_randG1 (n : ℕ) (P P' : E1) (hP : r • P = 0) (hP' : r • P' = 0) (h0 : P ≠ 0) (h0' : P' ≠ 0) :
    Nat.card {v : Fin n → UInt8 × Fin q // ∃ p, randG1 ((List.ofFn v).map draw1) = .ok p ∧ p.Denotes P} =
    Nat.card {v : Fin n → UInt8 × Fin q // ∃ p, randG1 ((List.ofFn v).map draw1) = .ok p ∧ p.Denotes P'} := by
  refine Uniform.card_run_eq (fun d P => ∃ T, Uniform.Sel xOf1 gr1 d T ∧ h1 • T = P)
    (fun d => ¬ ∃ T, Uniform.Sel xOf1 gr1 d T)
    (fun l P => ∃ p, randG1 (l.map draw1) = .ok p ∧ p.Denotes P) (fun P h => ?_) run1 (fun d P h h' => ?_) ?_ n
  · obtain ⟨p, h, _⟩ := h
    rw [List.map_nil, randG1] at h
    cases h
  · obtain ⟨T, hT, _⟩ := h'
    exact h ⟨T, hT⟩
  · rw [fibre1 P hP, fibre1 P' hP', if_neg h0, if_neg h0']

/-- The numbers for one draw: 128 times the cofactor, and 128 less for the identity. So every point of the subgroup can be
returned. -/
theorem C65_randG1_one (P : E1) (hP : r • P = 0) :
    Nat.card {d : UInt8 × Fin q // ∃ p, randG1 [draw1 d] = .ok p ∧ p.Denotes P} =
      128 * (if P = 0 then G1Affine.cofactor.toNat - 1 else G1Affine.cofactor.toNat) := by
  rw [G1Affine.cofactor_eq, mul_comm, ← fibre1 P hP]
  refine Nat.card_congr (Equiv.subtypeEquivRight fun d => ?_)
  refine (run1 d [] P).trans (or_iff_left ?_)
  rintro ⟨_, p, h, _⟩
  rw [List.map_nil, randG1] at h
  cases h

theorem running1 (l : List (UInt8 × Fin q)) :
    randG1 (l.map draw1) = .running ↔ ∀ d ∈ l, ¬ ∃ T, Uniform.Sel xOf1 gr1 d T := by
  induction l with
  | nil => rw [List.map_nil, randG1]; exact iff_of_true rfl nofun
  | cons d l ih =>
    obtain ⟨o, e, k1, k2⟩ := step1 d
    rw [List.map_cons, draw1, randG1, e, List.forall_mem_cons]
    cases o with
    | none => exact ih.trans (and_iff_right (k2 rfl)).symm
    | some p =>
      obtain ⟨T, hT, _⟩ := k1 p rfl
      exact ⟨fun h => (by cases h), fun h => absurd ⟨T, hT⟩ h.1⟩

/-- `RandG1` ends: the number of lists of n draws that do not suffice is the n-th power of a number that is little more
than half of the number of draws. -/
theorem C65_randG1_ends (n : ℕ) :
    Nat.card {v : Fin n → UInt8 × Fin q // randG1 ((List.ofFn v).map draw1) = .running} =
      (256 * q - 128 * (G1Affine.cofactor.toNat * r - 1)) ^ n ∧
    256 * q - 128 * (G1Affine.cofactor.toNat * r - 1) < 129 * q ∧ Nat.card (UInt8 × Fin q) = 256 * q := by
  have hc : Nat.card (UInt8 × Fin q) = 256 * q := by rw [Nat.card_prod, Nat.card_fin, card_u8]
  have hs : Nat.card {d // ∃ T, Uniform.Sel xOf1 gr1 d T} = 128 * (G1Affine.cofactor.toNat * r - 1) := by
    have := Uniform.card_sel inj1 fun _ => True
    simp only [and_true] at this
    rw [this, G1Affine.cofactor_eq, mul_comm, ← E1.card, card_ne_zero]
  have hr : Nat.card {d // ¬ ∃ T, Uniform.Sel xOf1 gr1 d T} = 256 * q - 128 * (G1Affine.cofactor.toNat * r - 1) := by
    rw [← hs, ← hc]
    exact card_not _
  refine ⟨?_, ?_, hc⟩
  · rw [← hr, ← Nat.card_fin n, ← Nat.card_fun, Nat.card_fin]
    refine Nat.card_congr (Equiv.trans (Equiv.subtypeEquivRight fun v => ?_) Equiv.subtypePiEquivPi)
    rw [running1, List.forall_mem_ofFn_iff]
  · rw [G1Affine.cofactor_eq, h1, r_eq, q_eq]
    decide +kernel

theorem cofactor2_eq : G2Affine.cofactor = h2 := by rw [h2]; unfold G2Affine.cofactor; decide +kernel

/-- The draw that a point of E2 comes from: its x and whether its y is the greater of ±y. -/
noncomputable def xOf2 (T : E2) : Fin q × Fin q := (⟨(ptX T).c0.val, ZMod.val_lt _⟩, ⟨(ptX T).c1.val, ZMod.val_lt _⟩)
def gr2 (T : E2) : Prop := Fq2.Greater (ptY T) (-ptY T)

theorem inj2 (T T' : E2) (h0 : T ≠ 0) (h0' : T' ≠ 0) (h : xOf2 T = xOf2 T') (hg : gr2 T ↔ gr2 T') : T = T' := by
  have hx : ptX T = ptX T' := Fq2.ext (ZMod.val_injective q (congrArg (fun z => (z.1 : Fin q).val) h))
    (ZMod.val_injective q (congrArg (fun z => (z.2 : Fin q).val) h))
  have a := isAt_pt h0
  have a' := isAt_pt h0'
  rw [← hx] at a'
  have e : ptY T ^ 2 = ptY T' ^ 2 := by rw [a.on, a'.on]
  have y0 : ptY T ≠ 0 := fun h => E2.y_ne_zero (h ▸ a.on)
  rcases sq_eq_sq_iff_eq_or_eq_neg.mp e with e | e
  · rw [← e] at a'
    exact a.inj a'
  · rw [gr2, gr2, e, neg_neg] at hg
    have h' := greater_total2 (y := ptY T') fun h' => ne_neg_self (b := b2) y0 (by rw [e, neg_neg]; exact h'.symm)
    tauto

/-- One iteration: it gives the cofactor times the point that the draw selects, and another iteration follows if there is
none. -/
theorem step2 (d : UInt8 × Fin q × Fin q) : ∃ o, randG2Step (some d.1) (some (d.2.1 : ℤ)) (some (d.2.2 : ℤ)) = .ok o ∧
    (∀ p, o = some p → ∃ T, Uniform.Sel xOf2 gr2 d T ∧ p.Rep (h2 • T)) ∧
    (o = none → ¬ ∃ T, Uniform.Sel xOf2 gr2 d T) := by
  obtain ⟨f, e, hf, _⟩ := FQ2.rand_spec (z := d.2.1) (w := d.2.2) (by omega) (by exact_mod_cast d.2.1.2) (by omega)
    (by exact_mod_cast d.2.2.2)
  have hx : ∀ T : E2, xOf2 T = d.2 ↔ ptX T = ⟨(((d.2.1 : ℤ).toNat : ℕ) : Fq), (((d.2.2 : ℤ).toNat : ℕ) : Fq)⟩ := fun T => by
    rw [xOf2, Prod.ext_iff, Fin.ext_iff, Fin.ext_iff, Int.toNat_natCast, Int.toNat_natCast]
    refine ⟨fun h => Fq2.ext ?_ ?_, fun h => ?_⟩
    · rw [← show (ptX T).c0.val = d.2.1.1 from h.1, ZMod.natCast_zmod_val]
    · rw [← show (ptX T).c1.val = d.2.2.1 from h.2, ZMod.natCast_zmod_val]
    · change (ptX T).c0.val = d.2.1.1 ∧ (ptX T).c1.val = d.2.2.1
      rw [h]
      exact ⟨ZMod.val_cast_of_lt d.2.1.2, ZMod.val_cast_of_lt d.2.2.2⟩
  rw [randG2Step]
  rw [e]
  dsimp only
  generalize hg : G2Affine.getPointFromX f _ = g
  cases g with
  | none =>
    refine ⟨none, rfl, fun p h => (by cases h), ?_⟩
    rintro - ⟨T, hT, hT', _⟩
    have := (isAt_pt hT).on
    rw [(hx T).mp hT'] at this
    exact (G2Affine.getPointFromX_none hf _).mp hg ⟨ptY T, by rw [← this, sq]⟩
  | some a =>
    obtain ⟨e1, e2, y, hy, on, hgr⟩ := G2Affine.getPointFromX_some hf hg
    have hat := pt_isAt on
    have hr : a.Rep (pt _ _ on) := Or.inr ⟨e2, _, y, e1 ▸ hf, hy, hat⟩
    have hz : a.isZero = false := e2
    have y0 : y ≠ 0 := fun h => E2.y_ne_zero (h ▸ on)
    rw [Option.bind_some, hz, if_pos (by decide)]
    refine ⟨_, rfl, fun p h => ?_, fun h => absurd h (Option.some_ne_none _)⟩
    obtain rfl := Option.some.inj h
    refine ⟨_, ⟨hat.ne_zero, (hx _).mpr (isAt_eq hat).1, ?_⟩, ?_⟩
    · rw [gr2, (isAt_eq hat).2, ← hgr (ne_neg_self (b := b2) y0), even_byte]
    · have hm := hr.mulBig G2Affine.cofactor
      rw [cofactor2_eq] at hm
      unfold G2Affine.scaleByCofactor
      rw [cofactor2_eq]
      exact hm

/-- The draws of `RandG2`: a byte and the two integers. -/
def draw2 (d : UInt8 × Fin q × Fin q) : Option UInt8 × Option ℤ × Option ℤ := (some d.1, some (d.2.1 : ℤ), some (d.2.2 : ℤ))

theorem run2 (d : UInt8 × Fin q × Fin q) (l : List (UInt8 × Fin q × Fin q)) (P : E2) :
    (∃ p, randG2 ((d :: l).map draw2) = .ok p ∧ p.Denotes P) ↔
      (∃ T, Uniform.Sel xOf2 gr2 d T ∧ h2 • T = P) ∨
      ((¬ ∃ T, Uniform.Sel xOf2 gr2 d T) ∧ ∃ p, randG2 (l.map draw2) = .ok p ∧ p.Denotes P) := by
  obtain ⟨o, e, k1, k2⟩ := step2 d
  rw [List.map_cons, draw2, randG2, e]
  cases o with
  | none =>
    have := k2 rfl
    refine ⟨fun h => .inr ⟨this, h⟩, ?_⟩
    rintro (⟨T, h, _⟩ | ⟨_, h⟩)
    · exact absurd ⟨T, h⟩ this
    · exact h
  | some p =>
    obtain ⟨T, hT, hp⟩ := k1 p rfl
    constructor
    · rintro ⟨p', hp', hP⟩
      obtain rfl := Outcome.ok.inj hp'
      exact .inl ⟨T, hT, hp.fn (G2Projective.denotes_iff.mp hP)⟩
    · rintro (⟨T', hT', rfl⟩ | ⟨h, _⟩)
      · rw [Uniform.Sel.unique inj2 hT' hT]
        exact ⟨p, rfl, G2Projective.denotes_iff.mpr hp⟩
      · exact absurd ⟨T, hT⟩ h

theorem coprime2 : Nat.Coprime h2 r := by rw [h2, r_eq]; decide +kernel

theorem fibre2 (P : E2) (hP : r • P = 0) : Nat.card {d // ∃ T, Uniform.Sel xOf2 gr2 d T ∧ h2 • T = P} =
    (if P = 0 then h2 - 1 else h2) * 128 := by
  rw [Uniform.card_sel inj2 fun T => h2 • T = P,
    Uniform.card_fibre_ne r_prime.one_lt E2.card coprime2 addOrderOf_g2Gen (fun _ => E2.torsion) hP]

/-- `RandG2` gives all points of the subgroup but the identity with the same probability: for every n, the number of
lists of n draws on which it returns P does not depend on P. -/
theorem C65_randG2 (n : ℕ) (P P' : E2) (hP : r • P = 0) (hP' : r • P' = 0) (h0 : P ≠ 0) (h0' : P' ≠ 0) :
    Nat.card {v : Fin n → UInt8 × Fin q × Fin q // ∃ p, randG2 ((List.ofFn v).map draw2) = .ok p ∧ p.Denotes P} =
    Nat.card {v : Fin n → UInt8 × Fin q × Fin q // ∃ p, randG2 ((List.ofFn v).map draw2) = .ok p ∧ p.Denotes P'} := by
  refine Uniform.card_run_eq (fun d P => ∃ T, Uniform.Sel xOf2 gr2 d T ∧ h2 • T = P)
    (fun d => ¬ ∃ T, Uniform.Sel xOf2 gr2 d T)
    (fun l P => ∃ p, randG2 (l.map draw2) = .ok p ∧ p.Denotes P) (fun P h => ?_) run2 (fun d P h h' => ?_) ?_ n
  · obtain ⟨p, h, _⟩ := h
    rw [List.map_nil, randG2] at h
    cases h
  · obtain ⟨T, hT, _⟩ := h'
    exact h ⟨T, hT⟩
  · rw [fibre2 P hP, fibre2 P' hP', if_neg h0, if_neg h0']

/-- The numbers for one draw: 128 times the cofactor, and 128 less for the identity. So every point of the subgroup can be
returned. -/
theorem C65_randG2_one (P : E2) (hP : r • P = 0) :
    Nat.card {d : UInt8 × Fin q × Fin q // ∃ p, randG2 [draw2 d] = .ok p ∧ p.Denotes P} =
      128 * (if P = 0 then G2Affine.cofactor - 1 else G2Affine.cofactor) := by
  rw [cofactor2_eq, mul_comm, ← fibre2 P hP]
  refine Nat.card_congr (Equiv.subtypeEquivRight fun d => ?_)
  refine (run2 d [] P).trans (or_iff_left ?_)
  rintro ⟨_, p, h, _⟩
  rw [List.map_nil, randG2] at h
  cases h

theorem running2 (l : List (UInt8 × Fin q × Fin q)) :
    randG2 (l.map draw2) = .running ↔ ∀ d ∈ l, ¬ ∃ T, Uniform.Sel xOf2 gr2 d T := by
  induction l with
  | nil => rw [List.map_nil, randG2]; exact iff_of_true rfl nofun
  | cons d l ih =>
    obtain ⟨o, e, k1, k2⟩ := step2 d
    rw [List.map_cons, draw2, randG2, e, List.forall_mem_cons]
    cases o with
    | none => exact ih.trans (and_iff_right (k2 rfl)).symm
    | some p =>
      obtain ⟨T, hT, _⟩ := k1 p rfl
      exact ⟨fun h => (by cases h), fun h => absurd ⟨T, hT⟩ h.1⟩

/-- `RandG2` ends: the number of lists of n draws that do not suffice is the n-th power of a number that is little more
than half of the number of draws. -/
theorem C65_randG2_ends (n : ℕ) :
    Nat.card {v : Fin n → UInt8 × Fin q × Fin q // randG2 ((List.ofFn v).map draw2) = .running} =
      (256 * q ^ 2 - 128 * (G2Affine.cofactor * r - 1)) ^ n ∧
    256 * q ^ 2 - 128 * (G2Affine.cofactor * r - 1) < 129 * q ^ 2 ∧ Nat.card (UInt8 × Fin q × Fin q) = 256 * q ^ 2 := by
  have hc : Nat.card (UInt8 × Fin q × Fin q) = 256 * q ^ 2 := by rw [Nat.card_prod, Nat.card_prod, Nat.card_fin, card_u8, pow_two]
  have hs : Nat.card {d // ∃ T, Uniform.Sel xOf2 gr2 d T} = 128 * (G2Affine.cofactor * r - 1) := by
    have := Uniform.card_sel inj2 fun _ => True
    simp only [and_true] at this
    rw [this, cofactor2_eq, mul_comm, ← E2.card, card_ne_zero]
  have hr : Nat.card {d // ¬ ∃ T, Uniform.Sel xOf2 gr2 d T} = 256 * q ^ 2 - 128 * (G2Affine.cofactor * r - 1) := by
    rw [← hs, ← hc]
    exact card_not _
  refine ⟨?_, ?_, hc⟩
  · rw [← hr, ← Nat.card_fin n, ← Nat.card_fun, Nat.card_fin]
    refine Nat.card_congr (Equiv.trans (Equiv.subtypeEquivRight fun v => ?_) Equiv.subtypePiEquivPi)
    rw [running2, List.forall_mem_ofFn_iff]
  · rw [cofactor2_eq, h2, r_eq, q_eq]
    decide +kernel

/-- Each public key of g1pubs comes from one draw of `RandKey`. -/
theorem C65_publicKey_g1pubs (P : E1) (hP : r • P = 0) :
    Nat.card {z : Fin r // ∃ sk pub, G1Pubs.randKey (some (z : ℤ)) = some (some sk) ∧ G1Pubs.privToPub sk = some pub ∧
      pub.p.Denotes P} = 1 := by
  rw [Nat.card_eq_one_iff_unique]
  have key (z : Fin r) : ∃ sk, G1Pubs.randKey (some (z : ℤ)) = some (some sk) ∧ sk.Holds z := by
    obtain ⟨h1, _, h2, _⟩ := C47_randKey z z.2
    first | exact h1 | exact h2
  refine ⟨⟨fun z z' => ?_⟩, ?_⟩
  · obtain ⟨z, sk, pub, h1, h2, h3⟩ := z
    obtain ⟨z', sk', pub', h1', h2', h3'⟩ := z'
    obtain ⟨sk₁, e1, k1⟩ := key z
    obtain ⟨sk₂, e2, k2⟩ := key z'
    rw [h1] at e1
    rw [h1'] at e2
    cases e1
    cases e2
    obtain ⟨p, e3, k3⟩ := k1.toPub
    obtain ⟨p', e4, k4⟩ := k2.toPub
    rw [h2] at e3
    rw [h2'] at e4
    cases e3
    cases e4
    have e := (k3.fn (G1Projective.denotes_iff.mp h3)).trans (k4.fn (G1Projective.denotes_iff.mp h3')).symm
    have e := nsmul_injOn_Iio_addOrderOf (by rw [addOrderOf_g1Gen]; exact z.2) (by rw [addOrderOf_g1Gen]; exact z'.2) e
    exact Subtype.ext (Fin.ext e)
  · obtain ⟨k, rfl⟩ := E1.torsion hP
    rw [nsmul_mod_r r_smul_g1Gen]
    obtain ⟨sk, h1, h2⟩ := key ⟨k % r, Nat.mod_lt _ r_prime.pos⟩
    obtain ⟨pub, h3, h4⟩ := h2.toPub
    exact ⟨⟨⟨k % r, Nat.mod_lt _ r_prime.pos⟩, sk, pub, h1, h3, G1Projective.denotes_iff.mpr h4⟩⟩

/-- Each public key of g2pubs comes from one draw of `RandKey`. -/
theorem C65_publicKey_g2pubs (P : E2) (hP : r • P = 0) :
    Nat.card {z : Fin r // ∃ sk pub, G2Pubs.randKey (some (z : ℤ)) = some (some sk) ∧ G2Pubs.privToPub sk = some pub ∧
      pub.p.Denotes P} = 1 := by
  rw [Nat.card_eq_one_iff_unique]
  have key (z : Fin r) : ∃ sk, G2Pubs.randKey (some (z : ℤ)) = some (some sk) ∧ sk.Holds z := by
    obtain ⟨h1, _, h2, _⟩ := C47_randKey z z.2
    first | exact h1 | exact h2
  refine ⟨⟨fun z z' => ?_⟩, ?_⟩
  · obtain ⟨z, sk, pub, h1, h2, h3⟩ := z
    obtain ⟨z', sk', pub', h1', h2', h3'⟩ := z'
    obtain ⟨sk₁, e1, k1⟩ := key z
    obtain ⟨sk₂, e2, k2⟩ := key z'
    rw [h1] at e1
    rw [h1'] at e2
    cases e1
    cases e2
    obtain ⟨p, e3, k3⟩ := k1.toPub
    obtain ⟨p', e4, k4⟩ := k2.toPub
    rw [h2] at e3
    rw [h2'] at e4
    cases e3
    cases e4
    have e := (k3.fn (G2Projective.denotes_iff.mp h3)).trans (k4.fn (G2Projective.denotes_iff.mp h3')).symm
    have e := nsmul_injOn_Iio_addOrderOf (by rw [addOrderOf_g2Gen]; exact z.2) (by rw [addOrderOf_g2Gen]; exact z'.2) e
    exact Subtype.ext (Fin.ext e)
  · obtain ⟨k, rfl⟩ := E2.torsion hP
    rw [nsmul_mod_r r_smul_g2Gen]
    obtain ⟨sk, h1, h2⟩ := key ⟨k % r, Nat.mod_lt _ r_prime.pos⟩
    obtain ⟨pub, h3, h4⟩ := h2.toPub
    exact ⟨⟨⟨k % r, Nat.mod_lt _ r_prime.pos⟩, sk, pub, h1, h3, G2Projective.denotes_iff.mpr h4⟩⟩

/-- The counts are not 0: the generators are points of the subgroup other than the identity. -/
example : r • g1Gen = 0 ∧ g1Gen ≠ 0 ∧ r • g2Gen = 0 ∧ g2Gen ≠ 0 ∧ 0 < 128 * G1Affine.cofactor.toNat ∧
    0 < 128 * G2Affine.cofactor :=
  ⟨r_smul_g1Gen, g1Gen_ne_zero, r_smul_g2Gen, g2Gen_ne_zero, by rw [G1Affine.cofactor_eq, h1]; decide +kernel,
    by rw [cofactor2_eq, h2]; decide +kernel⟩

end Bls.Props
