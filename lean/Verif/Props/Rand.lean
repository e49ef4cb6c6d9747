import Verif.Proof.Rand
import Verif.Spec.Curve
/-
C47: random generation. `rand.Int(reader, n)` is by contract an error or an integer in [0, n); the theorems hold for
every outcome of every draw. `RandG1` and `RandG2` are given the list of the draws they make.
-/
set_option exponentiation.threshold 1000
namespace Bls.Props

/-- `RandFQ` returns the canonical element that denotes the integer drawn, or the error. -/
theorem C47_randFQ (z : ℤ) (h0 : 0 ≤ z) (h : z < q) :
    (∃ f, FQ.rand (some z) = some (some f) ∧ f.isValid = true ∧ (f.int : ℤ) = z) ∧ FQ.rand none = some none := by
  obtain ⟨f, h1, h2, h3⟩ := FQ.rand_spec h0 h
  exact ⟨⟨f, h1, h2.isValid, by omega⟩, rfl⟩

/-- `RandFQ2` returns the element with the two integers drawn, or the error of either draw. -/
theorem C47_randFQ2 (z w : ℤ) (h0 : 0 ≤ z) (h : z < q) (h0' : 0 ≤ w) (h' : w < q) (d : Option ℤ) :
    (∃ f, FQ2.rand (some z) (some w) = some (some f) ∧ f.isValid = true ∧ (f.c0.int : ℤ) = z ∧ (f.c1.int : ℤ) = w) ∧
    FQ2.rand none d = some none ∧ FQ2.rand (some z) none = some none := by
  obtain ⟨f, h1, h2, h3, h4⟩ := FQ2.rand_spec h0 h h0' h'
  refine ⟨⟨f, h1, ?_, by omega, by omega⟩, rfl, ?_⟩
  · rw [FQ2.isValid, h2.1.isValid, h2.2.isValid]; rfl
  · obtain ⟨g, e, _⟩ := FQ.rand_spec h0 h
    rw [FQ2.rand, e]; rfl

/-- `RandFQ6` and `RandFQ12` return canonical elements if no draw fails. -/
theorem C47_randFQ12 (z : Fin 12 → ℤ) (h0 : ∀ i, 0 ≤ z i) (h : ∀ i, z i < q) :
    ∃ f g, FQ6.rand (some (z 0), some (z 1)) (some (z 2), some (z 3)) (some (z 4), some (z 5)) = some (some f) ∧
      FQ12.rand (some (z 0), some (z 1)) (some (z 2), some (z 3)) (some (z 4), some (z 5)) (some (z 6), some (z 7))
        (some (z 8), some (z 9)) (some (z 10), some (z 11)) = some (some g) ∧
      f.isValid = true ∧ g.isValid = true ∧ g.c0 = f ∧
      [f.c0.c0, f.c0.c1, f.c1.c0, f.c1.c1, f.c2.c0, f.c2.c1, g.c1.c0.c0, g.c1.c0.c1, g.c1.c1.c0, g.c1.c1.c1, g.c1.c2.c0,
        g.c1.c2.c1].map (fun e => (e.int : ℤ)) = List.ofFn z := by
  obtain ⟨⟨a, a1, a2, a3, a4⟩, -⟩ := C47_randFQ2 (z 0) (z 1) (h0 _) (h _) (h0 _) (h _) none
  obtain ⟨⟨b, b1, b2, b3, b4⟩, -⟩ := C47_randFQ2 (z 2) (z 3) (h0 _) (h _) (h0 _) (h _) none
  obtain ⟨⟨c, c1, c2, c3, c4⟩, -⟩ := C47_randFQ2 (z 4) (z 5) (h0 _) (h _) (h0 _) (h _) none
  obtain ⟨⟨d, d1, d2, d3, d4⟩, -⟩ := C47_randFQ2 (z 6) (z 7) (h0 _) (h _) (h0 _) (h _) none
  obtain ⟨⟨e, e1, e2, e3, e4⟩, -⟩ := C47_randFQ2 (z 8) (z 9) (h0 _) (h _) (h0 _) (h _) none
  obtain ⟨⟨f, f1, f2, f3, f4⟩, -⟩ := C47_randFQ2 (z 10) (z 11) (h0 _) (h _) (h0 _) (h _) none
  have k1 : FQ6.rand (some (z 0), some (z 1)) (some (z 2), some (z 3)) (some (z 4), some (z 5)) = some (some ⟨a, b, c⟩) := by
    simp only [FQ6.rand, a1, b1, c1, Option.bind_some]
  have k2 : FQ6.rand (some (z 6), some (z 7)) (some (z 8), some (z 9)) (some (z 10), some (z 11)) =
      some (some ⟨d, e, f⟩) := by
    simp only [FQ6.rand, d1, e1, f1, Option.bind_some]
  refine ⟨⟨a, b, c⟩, ⟨⟨a, b, c⟩, ⟨d, e, f⟩⟩, k1, ?_, ?_, ?_, rfl, ?_⟩
  · simp only [FQ12.rand, k1, k2, Option.bind_some]
  · simp only [FQ6.isValid, a2, b2, c2, Bool.and_self]
  · simp only [FQ12.isValid, FQ6.isValid, a2, b2, c2, d2, e2, f2, Bool.and_self]
  · simp only [List.map_cons, List.map_nil, a3, a4, b3, b4, c3, c4, d3, d4, e3, e4, f3, f4]
    rfl

/-- `RandFR` returns the canonical scalar that denotes the integer drawn, or the error. -/
theorem C47_randFR (z : ℤ) (h0 : 0 ≤ z) (h : z < r) :
    (∃ f, FR.rand (some z) = some (some (some f)) ∧ f.isValid = true ∧ (f.int : ℤ) = z) ∧ FR.rand none = some none := by
  obtain ⟨f, h1, h2, h3⟩ := FR.rand_spec h0 h
  exact ⟨⟨f, h1, h2, by omega⟩, rfl⟩

/-- `RandKey` returns the usable key with the scalar drawn, or the error. -/
theorem C47_randKey (k : ℕ) (h : k < r) :
    (∃ sk, G1Pubs.randKey (some k) = some (some sk) ∧ sk.Holds k) ∧ G1Pubs.randKey none = some none ∧
    (∃ sk, G2Pubs.randKey (some k) = some (some sk) ∧ sk.Holds k) ∧ G2Pubs.randKey none = some none := by
  obtain ⟨f, h1, h2, h3⟩ := FR.rand_spec (z := k) (by omega) (by exact_mod_cast h)
  refine ⟨⟨⟨some f⟩, ?_, f, rfl, h2, h3⟩, rfl, ⟨⟨some f⟩, ?_, f, rfl, h2, h3⟩, rfl⟩
  · rw [G1Pubs.randKey, h1]; rfl
  · rw [G2Pubs.randKey, h1]; rfl

/-- `RandG1` never panics; a result is `h1·P` for a finite point `P` of the curve whose x-coordinate was drawn, so it
is in the subgroup of order r. Missing for the full claim: the result can be the identity, see
`C47_randG1_false`. -/
theorem C47_randG1_partial (draws : List (Option UInt8 × Option ℤ))
    (hd : ∀ d ∈ draws, ∀ z, d.2 = some z → 0 ≤ z ∧ z < q) :
    randG1 draws ≠ .panic ∧ ∀ p, randG1 draws = .ok p → ∃ (P : E1) (b : UInt8) (z : ℤ) (y : Fq),
      (some b, some z) ∈ draws ∧ IsAt P ((z.toNat : ℕ) : Fq) y ∧ p.Denotes (h1 • P) ∧ r • (h1 • P) = 0 := by
  induction draws with
  | nil => exact ⟨by rw [randG1]; exact fun h => (by cases h), fun p h => by rw [randG1] at h; cases h⟩
  | cons d l ih =>
    obtain ⟨b, d⟩ := d
    obtain ⟨ih1, ih2⟩ := ih fun x hx => hd x (List.mem_cons_of_mem _ hx)
    have ih2' : ∀ p, randG1 l = .ok p → ∃ (P : E1) (b' : UInt8) (z : ℤ) (y : Fq), (some b', some z) ∈ (b, d) :: l ∧
        IsAt P ((z.toNat : ℕ) : Fq) y ∧ p.Denotes (h1 • P) ∧ r • (h1 • P) = 0 := by
      intro p h
      obtain ⟨P, b, z, y, h1, h2⟩ := ih2 p h
      exact ⟨P, b, z, y, List.mem_cons_of_mem _ h1, h2⟩
    rw [randG1]
    cases b with
    | none => exact ⟨fun h => (by cases h), fun p h => by cases h⟩
    | some b =>
      cases d with
      | none => exact ⟨fun h => (by cases h), fun p h => by cases h⟩
      | some z =>
        obtain ⟨h0, h⟩ := hd _ List.mem_cons_self z rfl
        obtain ⟨o, e, k1, _⟩ := randG1Step_spec b h0 h
        rw [e]
        cases o with
        | none => exact ⟨ih1, ih2'⟩
        | some a =>
          refine ⟨fun h => (by cases h), fun p h => ?_⟩
          obtain rfl := Outcome.ok.inj h
          obtain ⟨P, y, hat, hm⟩ := k1 a rfl
          exact ⟨P, b, z, y, List.mem_cons_self, hat, G1Projective.denotes_iff.mpr hm, E1.cofactor_torsion _⟩

/-- `RandG1` returns the identity when the x-coordinate drawn is 0: the check is on the point before it is multiplied
by the cofactor, and the points (0, ±2) have order 3. -/
theorem C47_randG1_false (b : UInt8) : ∃ p, randG1 [(some b, some 0)] = .ok p ∧ p.Denotes 0 := by
  have hq : (0 : ℤ) < q := by exact_mod_cast q_prime.pos
  have key := C47_randG1_partial [(some b, some 0)] (by
    intro d hd z hz
    rw [List.mem_singleton] at hd
    subst hd
    obtain rfl := Option.some.inj hz
    exact ⟨le_refl _, hq⟩)
  have ho : ∃ p, randG1 [(some b, some 0)] = .ok p := by
    obtain ⟨o, e, _, k2⟩ := randG1Step_spec b (le_refl (0 : ℤ)) hq
    obtain ⟨p, hp⟩ := Option.ne_none_iff_exists'.mp (k2 ⟨2, by push_cast [Int.toNat_zero]; ring⟩)
    rw [randG1, e, hp]
    exact ⟨_, rfl⟩
  obtain ⟨p, hp⟩ := ho
  refine ⟨p, hp, ?_⟩
  obtain ⟨P, b', z, y, hm, hat, hD, _⟩ := key.2 p hp
  rw [List.mem_singleton] at hm
  obtain rfl : z = 0 := Option.some.inj (congrArg Prod.snd hm)
  rw [Int.toNat_zero, Nat.cast_zero] at hat
  have e : h1 = 3 * (h1 / 3) := by rw [h1]
  rw [e, mul_nsmul, E1.three hat, nsmul_zero] at hD
  exact hD

/-- `RandG2` never panics; a result is `h2·P` for a finite point `P` of the curve whose x-coordinate was drawn, so it
is in the subgroup of order r. Missing for the full claim: the result can be the identity, see
`C47_randG2_false`. -/
theorem C47_randG2_partial (draws : List (Option UInt8 × Option ℤ × Option ℤ))
    (hd : ∀ d ∈ draws, ∀ z, d.2.1 = some z ∨ d.2.2 = some z → 0 ≤ z ∧ z < q) :
    randG2 draws ≠ .panic ∧ ∀ p, randG2 draws = .ok p → ∃ (P : E2) (b : UInt8) (z w : ℤ) (y : Fq2),
      (some b, some z, some w) ∈ draws ∧ IsAt P ⟨((z.toNat : ℕ) : Fq), ((w.toNat : ℕ) : Fq)⟩ y ∧
      p.Denotes (h2 • P) ∧ r • (h2 • P) = 0 := by
  induction draws with
  | nil => exact ⟨by rw [randG2]; exact fun h => (by cases h), fun p h => by rw [randG2] at h; cases h⟩
  | cons d l ih =>
    obtain ⟨b, d, d'⟩ := d
    obtain ⟨ih1, ih2⟩ := ih fun x hx => hd x (List.mem_cons_of_mem _ hx)
    have ih2' : ∀ p, randG2 l = .ok p → ∃ (P : E2) (b' : UInt8) (z w : ℤ) (y : Fq2),
        (some b', some z, some w) ∈ (b, d, d') :: l ∧ IsAt P ⟨((z.toNat : ℕ) : Fq), ((w.toNat : ℕ) : Fq)⟩ y ∧
        p.Denotes (h2 • P) ∧ r • (h2 • P) = 0 := by
      intro p h
      obtain ⟨P, b, z, w, y, h1, h2⟩ := ih2 p h
      exact ⟨P, b, z, w, y, List.mem_cons_of_mem _ h1, h2⟩
    rw [randG2]
    cases b with
    | none => exact ⟨fun h => (by cases h), fun p h => by cases h⟩
    | some b =>
      cases d with
      | none => exact ⟨fun h => (by cases h), fun p h => by cases h⟩
      | some z =>
        obtain ⟨h0, h⟩ := hd _ List.mem_cons_self z (Or.inl rfl)
        cases d' with
        | none =>
          obtain ⟨g, e, _⟩ := FQ.rand_spec h0 h
          have e : randG2Step (some b) (some z) none = .err := by
            rw [randG2Step, FQ2.rand, e]; rfl
          rw [e]
          exact ⟨fun h => (by cases h), fun p h => by cases h⟩
        | some w =>
          obtain ⟨h0', h'⟩ := hd _ List.mem_cons_self w (Or.inr rfl)
          obtain ⟨o, e, k1, _⟩ := randG2Step_spec b h0 h h0' h'
          rw [e]
          cases o with
          | none => exact ⟨ih1, ih2'⟩
          | some a =>
            refine ⟨fun h => (by cases h), fun p h => ?_⟩
            obtain rfl := Outcome.ok.inj h
            obtain ⟨P, y, hat, hm⟩ := k1 a rfl
            exact ⟨P, b, z, w, y, List.mem_cons_self, hat, G2Projective.denotes_iff.mpr hm, E2.cofactor_torsion _⟩

/-- `RandG2` returns the identity for some x-coordinates, for instance that of a point of order 13. -/
theorem C47_randG2_false : ∃ z w : ℤ, (0 ≤ z ∧ z < q) ∧ (0 ≤ w ∧ w < q) ∧ ∀ b : UInt8,
    ∃ p, randG2 [(some b, some z, some w)] = .ok p ∧ p.Denotes 0 := by
  have b1 : (0 : ℤ) ≤ Chain.b13x.re ∧ (Chain.b13x.re : ℤ) < q := by
    rw [q_eq]; exact ⟨by omega, by exact_mod_cast (by decide +kernel : Chain.b13x.re < qLit)⟩
  have b2 : (0 : ℤ) ≤ Chain.b13x.im ∧ (Chain.b13x.im : ℤ) < q := by
    rw [q_eq]; exact ⟨by omega, by exact_mod_cast (by decide +kernel : Chain.b13x.im < qLit)⟩
  refine ⟨Chain.b13x.re, Chain.b13x.im, b1, b2, fun b => ?_⟩
  have key := C47_randG2_partial [(some b, some (Chain.b13x.re : ℤ), some (Chain.b13x.im : ℤ))] (by
    intro d hd z hz
    rw [List.mem_singleton] at hd
    subst hd
    rcases hz with hz | hz
    · obtain rfl := Option.some.inj hz
      exact b1
    · obtain rfl := Option.some.inj hz
      exact b2)
  have ho : ∃ p, randG2 [(some b, some (Chain.b13x.re : ℤ), some (Chain.b13x.im : ℤ))] = .ok p := by
    obtain ⟨o, e, _, k2⟩ := randG2Step_spec b b1.1 b1.2 b2.1 b2.2
    have on := on2 (x := Chain.b13x) (y := Chain.b13y) (by decide +kernel)
    rw [Int.toNat_natCast, Int.toNat_natCast] at k2
    obtain ⟨p, hp⟩ := Option.ne_none_iff_exists'.mp (k2 ⟨Chain.b13y.toF, by rw [← sq, on]; rfl⟩)
    rw [randG2, e, hp]
    exact ⟨_, rfl⟩
  obtain ⟨p, hp⟩ := ho
  refine ⟨p, hp, ?_⟩
  obtain ⟨P, b', z, w, y, hm, hat, hD, _⟩ := key.2 p hp
  rw [List.mem_singleton] at hm
  obtain rfl : z = Chain.b13x.re := Option.some.inj (congrArg (fun x => x.2.1) hm)
  obtain rfl : w = Chain.b13x.im := Option.some.inj (congrArg (fun x => x.2.2) hm)
  rw [Int.toNat_natCast, Int.toNat_natCast] at hat
  have e : h2 = 13 * (h2 / 13) := by rw [h2]
  rw [e, mul_nsmul, E2.thirteen hat, nsmul_zero] at hD
  exact hD

/-- Reader errors are returned. -/
theorem C47_errors (b : UInt8) (d : Option ℤ) (d' : Option ℤ × Option ℤ) (l : List (Option UInt8 × Option ℤ))
    (l' : List (Option UInt8 × Option ℤ × Option ℤ)) :
    randG1 ((none, d) :: l) = .err ∧ randG1 ((some b, none) :: l) = .err ∧
    randG2 ((none, d') :: l') = .err ∧ randG2 ((some b, none, d) :: l') = .err := by
  refine ⟨?_, ?_, ?_, ?_⟩
  · rw [randG1]; rfl
  · rw [randG1]; rfl
  · rw [randG2]; rfl
  · rw [randG2]; rfl

/-- A draw that gives a point other than the identity, the x-coordinate of the generator. -/
example : ∃ z : ℤ, (0 ≤ z ∧ z < q) ∧ ∃ y : Fq, IsAt g1Gen ((z.toNat : ℕ) : Fq) y := by
  obtain ⟨x, y, h⟩ := (zero_or_isAt g1Gen).resolve_left g1Gen_ne_zero
  refine ⟨x.val, ⟨by omega, by exact_mod_cast ZMod.val_lt x⟩, y, ?_⟩
  rw [Int.toNat_natCast, ZMod.natCast_zmod_val]
  exact h

end Bls.Props
