import Verif.Proof.Clear
import Verif.Proof.Encode
/-
`HashG1` and `HashG2` as a whole.
-/
set_option exponentiation.threshold 1000
namespace Bls

theorem bytesNat_eq (b : List UInt8) : bytesNat b = os2ip b := by
  have key : ∀ (b : List UInt8) (a : ℕ), b.foldl (fun acc x => acc * 256 + x.toNat) a =
      Nat.ofDigits 256 (b.reverse.map UInt8.toNat) + 256 ^ b.length * a := by
    intro b
    induction b with
    | nil => intro a; simp
    | cons x b ih =>
      intro a
      rw [List.foldl_cons, ih, List.reverse_cons, List.map_append, Nat.ofDigits_append]
      simp only [List.length_map, List.length_reverse, List.map_cons, List.map_nil, Nat.ofDigits_singleton,
        List.length_cons]
      ring
  rw [bytesNat, key, os2ip]; simp

theorem qBig : qFieldModulus.toBig = (q : ℤ) := by rw [q_eq]; decide +kernel

theorem reprOfBig_of_lt {n : ℕ} (h : n < 2 ^ 384) : reprOfBig (n : ℤ) = some (.ofNat n) := by
  rw [reprOfBig, FQRepr.fromBigInt_spec, if_pos ⟨Int.natCast_nonneg n, by exact_mod_cast h⟩]
  rfl

theorem reprOfBig_mod (n : ℕ) : ∃ o, reprOfBig ((n : ℤ) % qFieldModulus.toBig) = some o ∧
    (FQ.ofRepr o).Rep (n : Fq) := by
  have e : (n : ℤ) % (q : ℤ) = ((n % q : ℕ) : ℤ) := by rw [Int.natCast_emod]
  have hl : n % q < q := Nat.mod_lt _ q_pos
  have h := q_lt
  rw [qBig, e, reprOfBig_of_lt (by omega)]
  refine ⟨_, rfl, ?_⟩
  have h2 := fqHex_rep hl
  rw [ZMod.natCast_mod] at h2
  exact h2

theorem hp_spec (sha : List UInt8 → List UInt8) (msg : List UInt8) (ctr : UInt8) :
    ∃ f, hp sha msg ctr = some f ∧ f.Rep (hashToField sha msg ctr 1 : Fq) := by
  obtain ⟨o, h1, h2⟩ := reprOfBig_mod (hashToField sha msg ctr 1)
  refine ⟨_, ?_, h2⟩
  unfold hp
  simp only [hashBlocks, bytesNat_eq, List.append_assoc, List.cons_append, List.nil_append]
  change Option.map _ (reprOfBig ((hashToField sha msg ctr 1 : ℤ) % _)) = _
  rw [h1]; rfl

theorem hp2_spec (sha : List UInt8 → List UInt8) (msg : List UInt8) (ctr : UInt8) :
    ∃ f, hp2 sha msg ctr = some f ∧
      f.Rep ⟨(hashToField sha msg ctr 1 : Fq), (hashToField sha msg ctr 2 : Fq)⟩ := by
  obtain ⟨o, h1, h2⟩ := reprOfBig_mod (hashToField sha msg ctr 1)
  obtain ⟨o', h1', h2'⟩ := reprOfBig_mod (hashToField sha msg ctr 2)
  refine ⟨⟨_, _⟩, ?_, h2, h2'⟩
  unfold hp2
  simp only [hashBlocks, bytesNat_eq, List.append_assoc, List.cons_append, List.nil_append]
  change Option.bind (Option.map _ (reprOfBig ((hashToField sha msg ctr 1 : ℤ) % _))) (fun f0 =>
    Option.map _ (Option.map _ (reprOfBig ((hashToField sha msg ctr 2 : ℤ) % _)))) = _
  rw [h1, h1']; rfl

/-! ### The mapped points -/

theorem SwuAt.unique {F : Type*} [Field F] {A B ξ : F} {neg : F → Prop} (hn : ∀ y, y ≠ 0 → (neg (-y) ↔ ¬ neg y))
    {t x y x' y' : F} (h : SwuAt A B ξ neg t x y) (h' : SwuAt A B ξ neg t x' y') : x = x' ∧ y = y' := by
  have ex : x = x' := h.x_eq.trans h'.x_eq.symm
  refine ⟨ex, ?_⟩
  subst ex
  have e : (y - y') * (y + y') = 0 := by linear_combination h.on - h'.on
  rcases mul_eq_zero.mp e with e | e
  · exact sub_eq_zero.mp e
  · have e := eq_neg_of_add_eq_zero_left e
    by_cases h0 : y' = 0
    · rw [e, h0, neg_zero]
    · exfalso
      have h1 := h.sign (by rw [e]; exact neg_ne_zero.mpr h0)
      have h2 := h'.sign h0
      rw [e, hn _ h0, h2] at h1
      by_cases ht : neg t <;> simp [ht] at h1

theorem swu1_disc : (4 : Fq) * (swuA1 : Fq) ^ 3 + 27 * (swuB1 : Fq) ^ 2 ≠ 0 := by
  intro h
  have : ((4 * swuA1 ^ 3 + 27 * swuB1 ^ 2 : ℕ) : Fq) = 0 := by push_cast; exact h
  rw [ZMod.natCast_eq_zero_iff, q_eq] at this
  have := Nat.mod_eq_zero_of_dvd this
  revert this
  unfold swuA1 swuB1
  decide +kernel

theorem swu2_disc : (4 : Fq2) * swuA2 ^ 3 + 27 * swuB2 ^ 2 ≠ 0 := by
  have h := N2.ops_sound.nz (N2.add (N2.mul ⟨4, 0⟩ (N2.mul ⟨0, 240⟩ (N2.mul ⟨0, 240⟩ ⟨0, 240⟩)))
    (N2.mul ⟨27, 0⟩ (N2.mul ⟨1012, 1012⟩ ⟨1012, 1012⟩))) (by decide +kernel)
  rw [N2.toF_add, N2.toF_mul, N2.toF_mul, N2.toF_mul, N2.toF_mul, N2.toF_mul, ← swuA2_toF, ← swuB2_toF] at h
  have e4 : (⟨4, 0⟩ : N2).toF = 4 := by
    rw [show (4 : Fq2) = 1 + 1 + 1 + 1 by norm_num]; ext1 <;> simp [N2.toF]; norm_num
  have e27 : (⟨27, 0⟩ : N2).toF = 27 := by
    rw [show (27 : Fq2) = (1 + 1 + 1) * (1 + 1 + 1) * (1 + 1 + 1) by norm_num]; ext1 <;> simp [N2.toF]; norm_num
  rw [e4, e27] at h
  intro e
  exact h (by linear_combination e)

theorem swu1_exists {t : Fq} {x y : Fq} (h : SwuAt (swuA1 : Fq) swuB1 (-1) Fq.IsNeg t x y) :
    ∃ P : E1'.Point, SwAt P x y :=
  ⟨_, swCurve_nonsingular Fq.two_ne swu1_disc h.on, rfl⟩

theorem swu2_exists {t : Fq2} {x y : Fq2} (h : SwuAt swuA2 swuB2 xi Fq2.IsNeg t x y) :
    ∃ P : E2'.Point, SwAt P x y :=
  ⟨_, swCurve_nonsingular (GoodCurve.two_ne b2) swu2_disc h.on, rfl⟩

/-- Every `t` has an image, and only one. -/
theorem Swu1.exists_unique (t : Fq) : ∃! P : E1'.Point, Swu1 t P := by
  obtain ⟨a, ha⟩ := FQ.exists_rep t
  obtain ⟨p, x, y, _, _, hs⟩ := optimizedSWUMapHelper_spec ha
  obtain ⟨P, hP⟩ := swu1_exists hs
  refine ⟨P, ⟨x, y, hP, hs⟩, ?_⟩
  rintro Q ⟨x', y', hQ, hs'⟩
  obtain ⟨rfl, rfl⟩ := hs.unique (fun y hy => Fq.isNeg_neg hy) hs'
  exact hQ.inj hP

theorem Swu2.exists_unique (t : Fq2) : ∃! P : E2'.Point, Swu2 t P := by
  obtain ⟨a, ha⟩ := FQ2.exists_rep t
  obtain ⟨p, x, y, _, _, hs⟩ := optimizedSWU2MapHelper_spec ha
  obtain ⟨P, hP⟩ := swu2_exists hs
  refine ⟨P, ⟨x, y, hP, hs⟩, ?_⟩
  rintro Q ⟨x', y', hQ, hs'⟩
  obtain ⟨rfl, rfl⟩ := hs.unique (fun y hy => Fq2.isNeg_neg hy) hs'
  exact hQ.inj hP

theorem optimizedSWUMap_some {a b : FQ} {t s : Fq} (ha : a.Rep t) (hb : b.Rep s) : ∃ g, optimizedSWUMap a b = some g := by
  obtain ⟨p, _, _, h1, _⟩ := optimizedSWUMapHelper_spec ha
  obtain ⟨p', _, _, h2, _⟩ := optimizedSWUMapHelper_spec hb
  rw [optimizedSWUMap, h1, h2]
  exact ⟨_, rfl⟩

theorem optimizedSWUMap2_some {a b : FQ2} {t s : Fq2} (ha : a.Rep t) (hb : b.Rep s) : ∃ g, optimizedSWUMap2 a b = some g := by
  obtain ⟨p, _, _, h1, _⟩ := optimizedSWU2MapHelper_spec ha
  obtain ⟨p', _, _, h2, _⟩ := optimizedSWU2MapHelper_spec hb
  rw [optimizedSWUMap2, h1, h2]
  exact ⟨_, rfl⟩

theorem optimizedSWUMap_spec {a b : FQ} {t s : Fq} (ha : a.Rep t) (hb : b.Rep s) {P Q : E1'.Point} {R : E1}
    (hP : Swu1 t P) (hQ : Swu1 s Q) (hne : P ≠ Q) (hne' : P ≠ -Q) (hR : iso11Map.Maps (P + Q) R) :
    ∃ g, optimizedSWUMap a b = some g ∧ g.Rep ((blsU + 1) • R) := by
  obtain ⟨p, x₁, y₁, h1, h1a, hs1⟩ := optimizedSWUMapHelper_spec ha
  obtain ⟨p', x₂, y₂, h2, h2a, hs2⟩ := optimizedSWUMapHelper_spec hb
  obtain ⟨x₁', y₁', hP, hs1'⟩ := hP
  obtain ⟨x₂', y₂', hQ, hs2'⟩ := hQ
  obtain ⟨rfl, rfl⟩ := hs1.unique (fun y hy => Fq.isNeg_neg hy) hs1'
  obtain ⟨rfl, rfl⟩ := hs2.unique (fun y hy => Fq.isNeg_neg hy) hs2'
  obtain ⟨x, y, hS, hA⟩ := add_chord h1a h2a hP hQ (hP.ne hQ hne hne')
  obtain ⟨x', y', hS', hd, _, hR⟩ := hR
  obtain ⟨rfl, rfl⟩ := hS.coord hS'
  obtain ⟨R', hR', hi⟩ := iso11_spec hA hS.on hd
  obtain rfl := hR'.inj hR
  rw [optimizedSWUMap, h1, h2]
  exact ⟨_, rfl, clearH_spec hi⟩

theorem optimizedSWUMap2_spec {a b : FQ2} {t s : Fq2} (ha : a.Rep t) (hb : b.Rep s) {P Q : E2'.Point}
    (hP : Swu2 t P) (hQ : Swu2 s Q) (hne : P ≠ Q) (hne' : P ≠ -Q) :
    ∃ g R, iso3Map.Maps (P + Q) R ∧ optimizedSWUMap2 a b = some g ∧ g.Rep (Grp.clr blsU psi.hom R) := by
  obtain ⟨p, x₁, y₁, h1, h1a, hs1⟩ := optimizedSWU2MapHelper_spec ha
  obtain ⟨p', x₂, y₂, h2, h2a, hs2⟩ := optimizedSWU2MapHelper_spec hb
  obtain ⟨x₁', y₁', hP, hs1'⟩ := hP
  obtain ⟨x₂', y₂', hQ, hs2'⟩ := hQ
  obtain ⟨rfl, rfl⟩ := hs1.unique (fun y hy => Fq2.isNeg_neg hy) hs1'
  obtain ⟨rfl, rfl⟩ := hs2.unique (fun y hy => Fq2.isNeg_neg hy) hs2'
  obtain ⟨x, y, hS, hA⟩ := add_chord2 h1a h2a hP hQ (hP.ne hQ hne hne')
  obtain ⟨R, hR, hi⟩ := iso3_spec hA hS.on
  have hd := iso3_xDen_ne hS.on
  have hd2 : polyAt iso3Map.yDen x ≠ 0 := by
    intro e; have := iso3_den x; rw [e] at this; exact hd (pow_eq_zero_iff (n := 3) (by norm_num) |>.mp (by rw [← this]; ring))
  rw [optimizedSWUMap2, h1, h2]
  exact ⟨_, R, ⟨x, y, hS, hd, hd2, hR⟩, rfl, clearH2_spec hi hR.ne_zero⟩

theorem hashG1_eq {sha : List UInt8 → List UInt8} {msg : List UInt8} {t s : FQ}
    (h1 : hp sha (cipherSuite :: msg) 0 = some t) (h2 : hp sha (cipherSuite :: msg) 1 = some s) :
    hashG1 sha msg = optimizedSWUMap t s := by
  unfold hashG1
  rw [h1, Option.bind_some, h2, Option.bind_some]

theorem hashG2_eq {sha : List UInt8 → List UInt8} {msg : List UInt8} {t s : FQ2}
    (h1 : hp2 sha (cipherSuite :: msg) 0 = some t) (h2 : hp2 sha (cipherSuite :: msg) 1 = some s) :
    hashG2 sha msg = optimizedSWUMap2 t s := by
  unfold hashG2
  rw [h1, Option.bind_some, h2, Option.bind_some]

theorem hashG1_some (sha : List UInt8 → List UInt8) (msg : List UInt8) : ∃ g, hashG1 sha msg = some g := by
  obtain ⟨t, h1, h1'⟩ := hp_spec sha (cipherSuite :: msg) 0
  obtain ⟨s, h2, h2'⟩ := hp_spec sha (cipherSuite :: msg) 1
  rw [hashG1_eq h1 h2]
  exact optimizedSWUMap_some h1' h2'

theorem hashG2_some (sha : List UInt8 → List UInt8) (msg : List UInt8) : ∃ g, hashG2 sha msg = some g := by
  obtain ⟨t, h1, h1'⟩ := hp2_spec sha (cipherSuite :: msg) 0
  obtain ⟨s, h2, h2'⟩ := hp2_spec sha (cipherSuite :: msg) 1
  rw [hashG2_eq h1 h2]
  exact optimizedSWUMap2_some h1' h2'

theorem cipherSuite_eq : cipherSuite = 1 := rfl

theorem hashG1_spec (sha : List UInt8 → List UInt8) (msg : List UInt8) {P Q : E1'.Point} {R : E1}
    (hP : Swu1 (hashToField sha (1 :: msg) 0 1 : Fq) P) (hQ : Swu1 (hashToField sha (1 :: msg) 1 1 : Fq) Q)
    (hne : P ≠ Q) (hne' : P ≠ -Q) (hR : iso11Map.Maps (P + Q) R) :
    ∃ g, hashG1 sha msg = some g ∧ g.Rep ((blsU + 1) • R) := by
  obtain ⟨t, h1, h1'⟩ := hp_spec sha (cipherSuite :: msg) 0
  obtain ⟨s, h2, h2'⟩ := hp_spec sha (cipherSuite :: msg) 1
  rw [hashG1_eq h1 h2]
  rw [cipherSuite_eq] at h1' h2'
  exact optimizedSWUMap_spec h1' h2' hP hQ hne hne' hR

theorem hashG2_spec (sha : List UInt8 → List UInt8) (msg : List UInt8) {P Q : E2'.Point}
    (hP : Swu2 ⟨(hashToField sha (1 :: msg) 0 1 : Fq), (hashToField sha (1 :: msg) 0 2 : Fq)⟩ P)
    (hQ : Swu2 ⟨(hashToField sha (1 :: msg) 1 1 : Fq), (hashToField sha (1 :: msg) 1 2 : Fq)⟩ Q)
    (hne : P ≠ Q) (hne' : P ≠ -Q) :
    ∃ g R, iso3Map.Maps (P + Q) R ∧ hashG2 sha msg = some g ∧ g.Rep (Grp.clr blsU psi.hom R) := by
  obtain ⟨t, h1, h1'⟩ := hp2_spec sha (cipherSuite :: msg) 0
  obtain ⟨s, h2, h2'⟩ := hp2_spec sha (cipherSuite :: msg) 1
  rw [hashG2_eq h1 h2]
  rw [cipherSuite_eq] at h1' h2'
  exact optimizedSWUMap2_spec h1' h2' hP hQ hne hne'

end Bls
