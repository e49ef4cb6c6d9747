import Verif.Proof.Euclid
import Verif.Proof.G1
import Verif.Proof.Denote
import Verif.Proof.Gens
/-
C87: the steps of an inversion reveal the element, and there are at most so many.
-/
set_option exponentiation.threshold 1000
namespace Bls.Props

/-- The inversion of an element of FQ other than zero halves at most 761 times and has at most 762 rounds, and from its steps
one can compute the element. The first component is what `Inverse` returns. -/
theorem C87_fq (f : FQ) (hv : f.isValid) (h0 : f.int ≠ 0) :
    ∃ g l, f.inverse? = some (g, true) ∧ f.inverseLogged = some (g, l) ∧ l.observed q = f.int * 2 ^ 384 % q ∧
      l.halvings ≤ 761 ∧ l.rounds.length ≤ 762 := by
  have hf := FQ.rep_int hv
  have hx : (f.int : Fq) ≠ 0 := fun e =>
    h0 (Nat.eq_zero_of_dvd_of_lt ((ZMod.natCast_eq_zero_iff _ _).mp e) hf.int_lt)
  obtain ⟨g, hg, -⟩ := hf.inverse?_ne hx
  have hf' := FQ.rep_iff.mp hf
  have hne : f.n.toNat ≠ 0 := fun h => hx (hf.toNat_eq_zero.mp h)
  have hg' := hg
  rw [FQ.inverse?, if_neg (fun h => hx (hf.isZero.mp h)), ← FQ.inverseLoopLogged_map] at hg'
  obtain ⟨d, hd, e⟩ := Option.map_eq_some_iff.mp hg'
  obtain ⟨⟨g', l⟩, hl, rfl⟩ := Option.map_eq_some_iff.mp hd
  obtain rfl : g' = g := by simpa using e
  obtain ⟨h1, h2, h3⟩ := FQ.inverseLogged_spec hf'.1 hne hl
  simp only at h1 h2 h3
  have hb : l.halvings ≤ 761 := by
    have hq := q_lt
    have a1 : q < 2 ^ 381 := by rw [q_eq]; decide +kernel
    have a2 : f.n.toNat * q < 2 ^ 381 * 2 ^ 381 := Nat.mul_lt_mul'' (lt_trans hf'.1 a1) a1
    rw [← pow_add] at a2
    have := (Nat.pow_lt_pow_iff_right (by norm_num : 1 < 2)).mp (lt_of_le_of_lt h2 a2)
    omega
  refine ⟨_, l, hg, hl, ?_, hb, le_trans h3 (by omega)⟩
  show l.observed q = _
  rw [h1]
  refine ((ZMod.natCast_eq_natCast_iff' _ _ _).mp ?_) |> fun e => (Nat.mod_eq_of_lt hf'.1).symm.trans e
  rw [hf'.2, Rq_eq, Nat.cast_mul]

/-- Inversions with the same steps are of the same element. -/
theorem C87_fq_injective (f f' : FQ) (hf : f.isValid) (hf' : f'.isValid) (h0 : f.int ≠ 0) (h0' : f'.int ≠ 0) (g g' : FQ)
    (l : Euclid) (h : f.inverseLogged = some (g, l)) (h' : f'.inverseLogged = some (g', l)) : f = f' := by
  obtain ⟨_, l1, -, e1, o1, -⟩ := C87_fq f hf h0
  obtain ⟨_, l2, -, e2, o2, -⟩ := C87_fq f' hf' h0'
  rw [h] at e1; rw [h'] at e2
  obtain ⟨-, rfl⟩ := Prod.mk.inj (Option.some.inj e1)
  obtain ⟨-, rfl⟩ := Prod.mk.inj (Option.some.inj e2)
  have o := (ZMod.natCast_eq_natCast_iff' _ _ q).mpr (o1.symm.trans o2)
  rw [Nat.cast_mul, Nat.cast_mul, Nat.cast_pow, Nat.cast_ofNat] at o
  have e : (f.int : Fq) = f'.int := mul_right_cancel₀ (pow_ne_zero 384 Fq.two_ne) o
  have hr := FQ.rep_int hf
  rw [e] at hr
  exact hr.inj (FQ.rep_int hf')

/-- The number of rounds is not the same for all elements. -/
theorem C87_fq_varies : ∃ (f f' : FQ) (g g' : FQ) (l l' : Euclid), f.isValid ∧ f'.isValid ∧ f.int ≠ 0 ∧ f'.int ≠ 0 ∧
    f.inverseLogged = some (g, l) ∧ f'.inverseLogged = some (g', l') ∧ l.rounds.length ≠ l'.rounds.length := by
  have h : ∀ n : FQRepr, n.toNat < q → n.toNat ≠ 0 → (⟨n⟩ : FQ).isValid ∧ (⟨n⟩ : FQ).int ≠ 0 := fun n hn h0 => by
    have hv : (⟨n⟩ : FQ).isValid := FQ.isValid_iff.mpr hn
    refine ⟨hv, fun e => h0 ?_⟩
    have := FQ.rep_int hv
    rw [e, Nat.cast_zero] at this
    exact this.toNat_eq_zero.mpr rfl
  have e1 : (FQRepr.new 1).toNat = 1 := by decide
  have e2 : (FQRepr.new 2).toNat = 2 := by decide
  have hq : 2 < q := by rw [q_eq]; decide +kernel
  obtain ⟨a1, a2⟩ := h (.new 1) (by omega) (by omega)
  obtain ⟨b1, b2⟩ := h (.new 2) (by omega) (by omega)
  obtain ⟨g, l, -, hl, -⟩ := C87_fq _ a1 a2
  obtain ⟨g', l', -, hl', -⟩ := C87_fq _ b1 b2
  refine ⟨_, _, g, g', l, l', a1, b1, a2, b2, hl, hl', ?_⟩
  have c1 : (FQ.inverseLogged ⟨.new 1⟩).map (fun o => o.2.rounds.length) = some 0 := by decide +kernel
  have c2 : (FQ.inverseLogged ⟨.new 2⟩).map (fun o => o.2.rounds.length) = some 1 := by decide +kernel
  rw [hl, Option.map_some] at c1
  rw [hl', Option.map_some] at c2
  rw [Option.some.inj c1, Option.some.inj c2]
  decide

example : (FQ.inverseLogged ⟨.new 100⟩).map (fun o => (o.2.halvings, o.2.rounds.length, o.2.observed q)) = some (381, 208, 100) := by
  rw [q_eq]; decide +kernel

/-- The inversion of an element of FR other than zero halves at most 509 times and has at most 510 rounds, and from its steps
one can compute the element. The first component is what `Inverse` returns. -/
theorem C87_fr (f : FR) (hv : f.isValid) (h0 : f.int ≠ 0) :
    ∃ g l, f.inverse? = some (some g) ∧ f.inverseLogged = some (g, l) ∧ l.observed r = f.int * 2 ^ 256 % r ∧
      l.halvings ≤ 509 ∧ l.rounds.length ≤ 510 := by
  have hf := FR.rep_int hv
  have hx : (f.int : Fr) ≠ 0 := fun e =>
    h0 (Nat.eq_zero_of_dvd_of_lt ((ZMod.natCast_eq_zero_iff _ _).mp e) hf.int_lt)
  obtain ⟨g, hg, -⟩ := hf.inverse?_ne hx
  have hf' := FR.rep_iff.mp hf
  have hne : f.n.toNat ≠ 0 := fun h => hx (hf.toNat_eq_zero.mp h)
  have hg' := hg
  rw [FR.inverse?, if_neg (fun h => hx (hf.isZero.mp h)), ← FR.inverseLoopLogged_map] at hg'
  obtain ⟨d, hd, e⟩ := Option.map_eq_some_iff.mp hg'
  obtain ⟨⟨g', l⟩, hl, rfl⟩ := Option.map_eq_some_iff.mp hd
  obtain rfl : g' = g := by simpa using e
  obtain ⟨h1, h2, h3⟩ := FR.inverseLogged_spec hf'.1 hne hl
  simp only at h1 h2 h3
  have hb : l.halvings ≤ 509 := by
    have hq := r_lt
    have a1 : r < 2 ^ 255 := by rw [r_eq]; decide +kernel
    have a2 : f.n.toNat * r < 2 ^ 255 * 2 ^ 255 := Nat.mul_lt_mul'' (lt_trans hf'.1 a1) a1
    rw [← pow_add] at a2
    have := (Nat.pow_lt_pow_iff_right (by norm_num : 1 < 2)).mp (lt_of_le_of_lt h2 a2)
    omega
  refine ⟨_, l, hg, hl, ?_, hb, le_trans h3 (by omega)⟩
  show l.observed r = _
  rw [h1]
  refine ((ZMod.natCast_eq_natCast_iff' _ _ _).mp ?_) |> fun e => (Nat.mod_eq_of_lt hf'.1).symm.trans e
  rw [hf'.2, Rr_eq, Nat.cast_mul]

/-- Inversions with the same steps are of the same element. -/
theorem C87_fr_injective (f f' : FR) (hf : f.isValid) (hf' : f'.isValid) (h0 : f.int ≠ 0) (h0' : f'.int ≠ 0) (g g' : FR)
    (l : Euclid) (h : f.inverseLogged = some (g, l)) (h' : f'.inverseLogged = some (g', l)) : f = f' := by
  obtain ⟨_, l1, -, e1, o1, -⟩ := C87_fr f hf h0
  obtain ⟨_, l2, -, e2, o2, -⟩ := C87_fr f' hf' h0'
  rw [h] at e1; rw [h'] at e2
  obtain ⟨-, rfl⟩ := Prod.mk.inj (Option.some.inj e1)
  obtain ⟨-, rfl⟩ := Prod.mk.inj (Option.some.inj e2)
  have o := (ZMod.natCast_eq_natCast_iff' _ _ r).mpr (o1.symm.trans o2)
  rw [Nat.cast_mul, Nat.cast_mul, Nat.cast_pow, Nat.cast_ofNat] at o
  have e : (f.int : Fr) = f'.int := mul_right_cancel₀ (pow_ne_zero 256 Fr.two_ne) o
  have hr := FR.rep_int hf
  rw [e] at hr
  exact hr.inj (FR.rep_int hf')

/-- The number of rounds is not the same for all elements. -/
theorem C87_fr_varies : ∃ (f f' : FR) (g g' : FR) (l l' : Euclid), f.isValid ∧ f'.isValid ∧ f.int ≠ 0 ∧ f'.int ≠ 0 ∧
    f.inverseLogged = some (g, l) ∧ f'.inverseLogged = some (g', l') ∧ l.rounds.length ≠ l'.rounds.length := by
  have h : ∀ n : FRRepr, n.toNat < r → n.toNat ≠ 0 → (⟨n⟩ : FR).isValid ∧ (⟨n⟩ : FR).int ≠ 0 := fun n hn h0 => by
    have hv : (⟨n⟩ : FR).isValid := FR.isValid_iff.mpr hn
    refine ⟨hv, fun e => h0 ?_⟩
    have := FR.rep_int hv
    rw [e, Nat.cast_zero] at this
    exact this.toNat_eq_zero.mpr rfl
  have e1 : (FRRepr.new 1).toNat = 1 := by decide
  have e2 : (FRRepr.new 2).toNat = 2 := by decide
  have hq : 2 < r := by rw [r_eq]; decide +kernel
  obtain ⟨a1, a2⟩ := h (.new 1) (by omega) (by omega)
  obtain ⟨b1, b2⟩ := h (.new 2) (by omega) (by omega)
  obtain ⟨g, l, -, hl, -⟩ := C87_fr _ a1 a2
  obtain ⟨g', l', -, hl', -⟩ := C87_fr _ b1 b2
  refine ⟨_, _, g, g', l, l', a1, b1, a2, b2, hl, hl', ?_⟩
  have c1 : (FR.inverseLogged ⟨.new 1⟩).map (fun o => o.2.rounds.length) = some 0 := by decide +kernel
  have c2 : (FR.inverseLogged ⟨.new 2⟩).map (fun o => o.2.rounds.length) = some 1 := by decide +kernel
  rw [hl, Option.map_some] at c1
  rw [hl', Option.map_some] at c2
  rw [Option.some.inj c1, Option.some.inj c2]
  decide

example : (FR.inverseLogged ⟨.new 100⟩).map (fun o => (o.2.halvings, o.2.rounds.length, o.2.observed r)) = some (258, 124, 100) := by
  rw [r_eq]; decide +kernel

/-- `ToAffine` of a point of the first curve other than infinity: the steps of its inversion and the result determine the
representation, that is all three coordinates of the receiver. -/
theorem C87_toAffine (p p' : G1Projective) (P P' : E1) (hp : p.Denotes P) (hp' : p'.Denotes P') (hP : P ≠ 0) (hP' : P' ≠ 0) :
    (∃ l, p.toAffineLogged = some (p.toAffine, some l)) ∧ (p.toAffineLogged = p'.toAffineLogged → p = p') := by
  have key : ∀ (p : G1Projective) (P : E1), p.Denotes P → P ≠ 0 → ∃ g l, p.z.inverseLogged = some (g, l) ∧
      p.z.int ≠ 0 ∧ p.toAffineLogged = some (p.toAffine, some l) := by
    intro p P hp hP
    have hr := G1Projective.denotes_iff.mp hp
    have n0 : ¬p.isZero = true := fun e => hP (hr.isZero.mp e)
    have hz := hp.2.2.1
    have z0 : p.z.int ≠ 0 := fun e => by
      have := hp.2.2.2.zero_iff.mp (by rw [e, Nat.cast_zero])
      exact hP this
    have z1 : ¬p.z.isZero = true := fun e => n0 e
    obtain ⟨g, l, h1, h2, -⟩ := C87_fq p.z hz z0
    refine ⟨g, l, h2, z0, ?_⟩
    rw [G1Projective.toAffineLogged, if_neg n0, if_neg z1, h2, G1Projective.toAffine, if_neg n0, if_neg z1, FQ.inverse, h1]
    rfl
  obtain ⟨g, l, a1, a2, a3⟩ := key p P hp hP
  obtain ⟨g', l', b1, b2, b3⟩ := key p' P' hp' hP'
  refine ⟨⟨l, a3⟩, fun h => ?_⟩
  rw [a3, b3] at h
  obtain ⟨e1, e2⟩ := Prod.mk.inj (Option.some.inj h)
  obtain rfl := Option.some.inj e2
  have ez : p.z = p'.z := C87_fq_injective _ _ hp.2.2.1 hp'.2.2.1 a2 b2 _ _ _ a1 b1
  have hr := G1Projective.denotes_iff.mp hp
  have hr' := G1Projective.denotes_iff.mp hp'
  obtain rfl : P = P' := by
    have := hr.toAffine
    rw [e1] at this
    exact this.fn hr'.toAffine
  obtain ⟨x, y, z, hx, hy, hz, hj⟩ := hr
  obtain ⟨x', y', z', hx', hy', hz', hj'⟩ := hr'
  have zz : z = z' := by rw [ez] at hz; exact hz.fn hz'
  subst zz
  have n1 : z ≠ 0 := fun e => hP (hj.zero_iff.mp e)
  obtain ⟨i1, i2⟩ := (hj.isAt n1).coord (hj'.isAt n1)
  have ex : x = x' := by field_simp at i1; exact i1
  have ey : y = y' := by field_simp at i2; exact i2
  subst ex ey
  cases p; cases p'
  simp only at ez hx hy hx' hy'
  rw [ez, hx.inj hx', hy.inj hy']

/-- The generator and twice the generator: the first is converted with another number of rounds. -/
example : G1Affine.one.toProjective.Denotes g1Gen ∧ g1Gen ≠ 0 ∧
    G1Affine.one.toProjective.toAffineLogged.map (fun o => o.2.map fun l => l.rounds.length) ≠
      G1Affine.one.toProjective.double.toAffineLogged.map (fun o => o.2.map fun l => l.rounds.length) :=
  ⟨G1Projective.denotes_iff.mpr G1Affine.one_rep.toProjective, g1Gen_ne_zero, by decide +kernel⟩

end Bls.Props
