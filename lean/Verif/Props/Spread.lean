import Verif.Proof.CollideEqual
import Verif.Proof.Nondegen
import Verif.Proof.ClearOrder
import Verif.Proof.Spread
import Verif.Props.Hash
import Verif.Props.Panics
/-
C75: no point is the hash of many hash values. `HashG1` depends on the hash function only through two numbers of 512 bits,
`HashG2` through four; the theorems count those that lead to a given point.
-/
namespace Bls.Props
set_option exponentiation.threshold 1000

/-! ## Counting -/

private theorem prod_count {α β : Type*} [Finite α] [Finite β] {S : Set (α × β)} {k : ℕ} (h : ∀ a, {b | (a, b) ∈ S}.ncard ≤ k) :
    S.ncard ≤ k * Nat.card α := by
  have := Spread.ncard_fib (R := fun (v : α × β) a => v.1 = a ∧ v ∈ S) (k := k) (Set.toFinite (Set.univ : Set α)) fun a _ => by
    refine ⟨Set.toFinite _, le_trans (le_of_eq ?_) (h a)⟩
    have : {v : α × β | v.1 = a ∧ v ∈ S} = (fun b => (a, b)) '' {b | (a, b) ∈ S} := by
      ext ⟨x, y⟩
      constructor
      · rintro ⟨rfl, h⟩
        exact ⟨y, h, rfl⟩
      · rintro ⟨b, h, e⟩
        cases e
        exact ⟨rfl, h⟩
    rw [this, Set.ncard_image_of_injective _ fun b c e => (Prod.mk.inj e).2]
  rw [Set.ncard_univ] at this
  refine le_trans (Set.ncard_le_ncard ?_ (Set.toFinite _)) this.2
  exact fun v hv => ⟨v.1, trivial, rfl, hv⟩

private theorem residues2 (N : ℕ) {T : Set Fq2} (hT : T.Finite) {n : ℕ} (hn : T.ncard ≤ n) :
    {v : Fin N × Fin N | (⟨((v.1 : ℕ) : Fq), ((v.2 : ℕ) : Fq)⟩ : Fq2) ∈ T}.ncard ≤ (N / q + 1) ^ 2 * n := by
  have h := Spread.ncard_fib (R := fun (v : Fin N × Fin N) (c : Fq2) => (⟨((v.1 : ℕ) : Fq), ((v.2 : ℕ) : Fq)⟩ : Fq2) = c)
    (k := (N / q + 1) ^ 2) hT fun c _ => by
      refine ⟨Set.toFinite _, ?_⟩
      have e : {v : Fin N × Fin N | (⟨((v.1 : ℕ) : Fq), ((v.2 : ℕ) : Fq)⟩ : Fq2) = c} =
          {v : Fin N | ((v : ℕ) : Fq) ∈ ({c.c0} : Set Fq)} ×ˢ {v : Fin N | ((v : ℕ) : Fq) ∈ ({c.c1} : Set Fq)} := by
        ext ⟨v, w⟩
        constructor
        · rintro rfl
          exact ⟨rfl, rfl⟩
        · rintro ⟨h1, h2⟩
          exact Fq2.ext h1 h2
      rw [e, Set.ncard_prod, pow_two]
      have h1 := Spread.residues (q := q) N (T := {c.c0}) (n := 1) (Set.ncard_singleton _).le
      have h2 := Spread.residues (q := q) N (T := {c.c1}) (n := 1) (Set.ncard_singleton _).le
      rw [mul_one] at h1 h2
      exact Nat.mul_le_mul h1 h2
  refine le_trans (Set.ncard_le_ncard ?_ (Set.toFinite _)) (h.2.trans (Nat.mul_le_mul_left _ hn))
  exact fun v hv => ⟨_, hv, rfl⟩

/-! ## HashG1 -/

/-- The points the isogeny is not defined for. -/
private def ker1 : Set E1'.Point := {S | ∃ x y, SwAt S x y ∧ x ∈ {x | polyAt iso11Map.xDen x = 0}}

private theorem ker1_card : ker1.Finite ∧ ker1.ncard ≤ 20 :=
  Spread.points_x (Spread.poly_roots (n := 10) (by decide +kernel) (by
    have e : iso11Map.xDen.getD 10 0 = 1 := by
      simp only [iso11Map, iso11XDen, List.map_cons, List.getD_cons_succ, List.getD_cons_zero, Nat.cast_one]
    rw [e]
    exact one_ne_zero))

private theorem no_two1 (R : E1) (x : Fq) : ¬ IsAt R x 0 := fun h => Collide.no_two x (by
  have := h.on
  rw [zero_pow two_ne_zero] at this
  exact this.symm)

private theorem iso11_top : iso11Map.xNum.getD 11 0 ≠ 0 := by
  have e : iso11Map.xNum.getD 11 0 = ((iso11XNum.getD 11 0 : ℕ) : Fq) := by
    simp only [iso11Map, iso11XNum, List.map_cons, List.getD_cons_succ, List.getD_cons_zero]
  rw [e]
  intro h
  rw [ZMod.natCast_eq_zero_iff, q_eq] at h
  have := Nat.mod_eq_zero_of_dvd h
  revert this
  decide +kernel

private theorem swu1_B_ne : (swuB1 : Fq) ≠ 0 := fun e => Flex.b_nonsquare (e ▸ IsSquare.zero)

/-- Field elements for which the hash is undefined or comes from a point of `T`. -/
private def Near1 (T : Set E1) (t s : Fq) : Prop :=
  ∃ U V, Swu1 t U ∧ Swu1 s V ∧ (U = V ∨ U = -V ∨ U + V ∈ ker1 ∨ ∃ R ∈ T, iso11Map.Maps (U + V) R)

private theorem near1 {T : Set E1} {h : ℕ} (hT : T.Finite ∧ T.ncard ≤ h) (t : Fq) :
    {s | Near1 T t s}.Finite ∧ {s | Near1 T t s}.ncard ≤ 12 * (2 + 20 + 11 * h) := by
  obtain ⟨U, hU, hu⟩ := Swu1.exists_unique t
  refine Spread.ncard_sub (Spread.pairs swu1_A_ne swu1_B_ne (neg_ne_zero.mpr one_ne_zero) (neg := Fq.IsNeg) (m := iso11Map)
    (n := 11) (by decide +kernel) iso11_top (by decide +kernel) no_two1 ker1_card hT U) ?_
  rintro s ⟨U', V, hU', hV, h⟩
  rw [hu U' hU'] at h
  exact ⟨V, hV, h⟩

private theorem count1 {T : Set E1} (hT : T.Finite ∧ T.ncard ≤ h1) {p : Fin (2 ^ 512) × Fin (2 ^ 512) → Prop}
    (hp : ∀ v, p v → Near1 T ((v.1 : ℕ) : Fq) ((v.2 : ℕ) : Fq)) : Nat.card {v // p v} * r ≤ 133 * (2 ^ 512) ^ 2 := by
  have h := prod_count (S := {v | p v}) (k := (2 ^ 512 / q + 1) * (12 * (2 + 20 + 11 * h1))) fun a => by
    refine le_trans (Set.ncard_le_ncard ?_ (Set.toFinite _))
      (Spread.residues (q := q) (2 ^ 512) (near1 hT ((a : ℕ) : Fq)).2)
    exact fun b hb => hp _ hb
  rw [Nat.card_fin] at h
  have e : (2 ^ 512 / q + 1) * (12 * (2 + 20 + 11 * h1)) * r ≤ 133 * 2 ^ 512 := by
    rw [q_eq, r_eq]
    decide +kernel
  calc Nat.card {v // p v} * r ≤ (2 ^ 512 / q + 1) * (12 * (2 + 20 + 11 * h1)) * 2 ^ 512 * r := Nat.mul_le_mul_right _ h
    _ = ((2 ^ 512 / q + 1) * (12 * (2 + 20 + 11 * h1)) * r) * 2 ^ 512 := by ring
    _ ≤ 133 * 2 ^ 512 * 2 ^ 512 := Nat.mul_le_mul_right _ e
    _ = 133 * (2 ^ 512) ^ 2 := by ring

private theorem cop1 : Nat.Coprime (blsU + 1) r := by
  rw [r_eq]
  decide +kernel

private theorem fibreS1 {k : ℕ} (hk : Nat.Coprime k r) (P : E1) :
    {R : E1 | k • ((blsU + 1) • R) = P}.Finite ∧ {R : E1 | k • ((blsU + 1) • R) = P}.ncard ≤ h1 :=
  Spread.hom_fibre (f := (k * (blsU + 1)) • AddMonoidHom.id E1) r_prime.pos E1.card addOrderOf_g1Gen (fun X h1 h2 => by
    have h2 : (k * (blsU + 1)) • X = 0 := h2
    rw [← addOrderOf_dvd_iff_nsmul_eq_zero] at h1 h2
    have := Nat.dvd_gcd h2 h1
    rw [Nat.Coprime.mul_left hk cop1, Nat.dvd_one, AddMonoid.addOrderOf_eq_one_iff] at this
    exact this) P |> fun h => by
      have e : {R : E1 | k • ((blsU + 1) • R) = P} = {R | ((k * (blsU + 1)) • AddMonoidHom.id E1) R = P} := by
        ext R
        rw [Set.mem_ofPred_eq, Set.mem_ofPred_eq, ← mul_nsmul', AddMonoidHom.nsmul_apply, AddMonoidHom.id_apply]
      rw [e]
      exact h

private theorem hash1 {sha : List UInt8 → List UInt8} {msg : List UInt8} {T : Set E1}
    (h : ∀ g H, hashG1 sha msg = some g → g.Rep H → r • H = 0 → ∀ R, H = (blsU + 1) • R → R ∈ T) :
    Near1 T (hashToField sha (1 :: msg) 0 1 : Fq) (hashToField sha (1 :: msg) 1 1 : Fq) := by
  obtain ⟨U, hU, _⟩ := Swu1.exists_unique (hashToField sha (1 :: msg) 0 1 : Fq)
  obtain ⟨V, hV, _⟩ := Swu1.exists_unique (hashToField sha (1 :: msg) 1 1 : Fq)
  refine ⟨U, V, hU, hV, ?_⟩
  by_cases e1 : U = V
  · exact .inl e1
  by_cases e2 : U = -V
  · exact .inr (.inl e2)
  refine .inr (.inr ?_)
  by_cases e3 : U + V ∈ ker1
  · exact .inl e3
  obtain ⟨x, y, hS⟩ : ∃ x y, SwAt (U + V) x y := by
    cases hc : U + V with
    | zero => exact absurd (add_eq_zero_iff_eq_neg.mp hc) e2
    | some x y h => exact ⟨x, y, h, rfl⟩
  obtain ⟨R, hR⟩ := C40_isogeny hS fun e => e3 ⟨x, y, hS, e⟩
  obtain ⟨g, hg, hr⟩ := hashG1_spec sha msg hU hV e1 e2 hR
  exact .inr ⟨R, h g _ hg hr (by rw [← mul_nsmul]; exact E1.exponent R) R rfl, hR⟩

/-- `HashG1` depends on the hash function and the message only through two numbers. -/
theorem C75_only_g1 (sha sha' : List UInt8 → List UInt8) (msg msg' : List UInt8)
    (h0 : hashToField sha (1 :: msg) 0 1 = hashToField sha' (1 :: msg') 0 1)
    (h1 : hashToField sha (1 :: msg) 1 1 = hashToField sha' (1 :: msg') 1 1) : hashG1 sha msg = hashG1 sha' msg' := by
  have key : ∀ c, hashToField sha (1 :: msg) c 1 = hashToField sha' (1 :: msg') c 1 →
      hp sha (cipherSuite :: msg) c = hp sha' (cipherSuite :: msg') c := by
    intro c h
    obtain ⟨f, e, k⟩ := hp_spec sha (cipherSuite :: msg) c
    obtain ⟨f', e', k'⟩ := hp_spec sha' (cipherSuite :: msg') c
    rw [e, e', k.inj ((show hashToField sha (cipherSuite :: msg) c 1 = _ from h) ▸ k')]
  rw [hashG1, hashG1, key 0 h0, key 1 h1]

/-- `HashG2` depends on them only through four numbers. -/
theorem C75_only_g2 (sha sha' : List UInt8 → List UInt8) (msg msg' : List UInt8)
    (h0 : hashToField sha (1 :: msg) 0 1 = hashToField sha' (1 :: msg') 0 1)
    (h1 : hashToField sha (1 :: msg) 0 2 = hashToField sha' (1 :: msg') 0 2)
    (h2 : hashToField sha (1 :: msg) 1 1 = hashToField sha' (1 :: msg') 1 1)
    (h3 : hashToField sha (1 :: msg) 1 2 = hashToField sha' (1 :: msg') 1 2) : hashG2 sha msg = hashG2 sha' msg' := by
  have key : ∀ c, hashToField sha (1 :: msg) c 1 = hashToField sha' (1 :: msg') c 1 →
      hashToField sha (1 :: msg) c 2 = hashToField sha' (1 :: msg') c 2 →
      hp2 sha (cipherSuite :: msg) c = hp2 sha' (cipherSuite :: msg') c := by
    intro c h h'
    obtain ⟨f, e, k⟩ := hp2_spec sha (cipherSuite :: msg) c
    obtain ⟨f', e', k'⟩ := hp2_spec sha' (cipherSuite :: msg') c
    rw [show hashToField sha (cipherSuite :: msg) c 1 = _ from h, show hashToField sha (cipherSuite :: msg) c 2 = _ from h'] at k
    rw [e, e', k.inj k']
  rw [hashG2, hashG2, key 0 h0 h1, key 1 h2 h3]

/-- Two functions and messages that differ and give the same numbers: the second function is other than the first on strings
that are not asked for. -/
example : hashToField (fun b => b.take 2) (1 :: [2]) 0 1 = hashToField (fun b => if b = [] then [1] else b.take 2) (1 :: [2, 3]) 0 1 ∧
    hashToField (fun b => b.take 2) (1 :: [2]) 0 1 ≠ hashToField (fun b => b.take 2) (1 :: [3]) 0 1 := by decide +kernel

/-- Whatever the point, at most 133 of r pairs of 512-bit numbers from the hash function make `HashG1` return it. -/
theorem C75_hashG1 (P : E1) :
    Nat.card {v : Fin (2 ^ 512) × Fin (2 ^ 512) // ∃ sha msg g, hashToField sha (1 :: msg) 0 1 = v.1 ∧
      hashToField sha (1 :: msg) 1 1 = v.2 ∧ hashG1 sha msg = some g ∧ g.Denotes P} * r ≤ 133 * (2 ^ 512) ^ 2 := by
  refine count1 (fibreS1 (Nat.coprime_one_left r) P) ?_
  rintro v ⟨sha, msg, g, e1, e2, hg, hd⟩
  rw [← e1, ← e2]
  refine hash1 fun g' H h1 h2 _ R h3 => ?_
  rw [hg] at h1
  cases h1
  rw [Set.mem_ofPred_eq, one_nsmul, ← h3]
  exact h2.fn (G1Affine.denotes_iff.mp hd)

/-! ## HashG2 -/

private theorem no_two2 (R : E2) (x : Fq2) : ¬ IsAt R x 0 := fun h => E2.double_ne h.ne_zero (by
  have e : -R = R := h.neg.inj (by rw [neg_zero]; exact h)
  nth_rewrite 1 [← e]
  exact neg_add_cancel R)

private theorem iso3_top : iso3Map.xNum.getD 3 0 ≠ 0 := by
  have e : iso3Map.xNum.getD 3 0 = mkFq2 (iso3XNum.getD 3 (0, 0)) := by
    simp only [iso3Map, iso3XNum, List.map_cons, List.getD_cons_succ, List.getD_cons_zero]
  rw [e]
  intro h
  have h := congrArg Fq2.c0 h
  have h : (((iso3XNum.getD 3 (0, 0)).1 : ℕ) : Fq) = 0 := h
  rw [ZMod.natCast_eq_zero_iff, q_eq] at h
  have := Nat.mod_eq_zero_of_dvd h
  revert this
  decide +kernel

private theorem swu2_B_ne : swuB2 ≠ 0 := by
  intro h
  have h := congrArg Fq2.c0 h
  have h : ((1012 : ℕ) : Fq) = 0 := h
  rw [ZMod.natCast_eq_zero_iff, q_eq] at h
  have := Nat.mod_eq_zero_of_dvd h
  revert this
  decide +kernel

private def Near2 (T : Set E2) (t s : Fq2) : Prop :=
  ∃ U V, Swu2 t U ∧ Swu2 s V ∧ (U = V ∨ U = -V ∨ U + V ∈ (∅ : Set E2'.Point) ∨ ∃ R ∈ T, iso3Map.Maps (U + V) R)

private theorem near2 {T : Set E2} {h : ℕ} (hT : T.Finite ∧ T.ncard ≤ h) (t : Fq2) :
    {s | Near2 T t s}.Finite ∧ {s | Near2 T t s}.ncard ≤ 12 * (2 + 0 + 3 * h) := by
  obtain ⟨U, hU, hu⟩ := Swu2.exists_unique t
  refine Spread.ncard_sub (Spread.pairs swu2_A_ne swu2_B_ne Cases.xi_ne (neg := Fq2.IsNeg) (m := iso3Map)
    (n := 3) (by decide +kernel) iso3_top (by decide +kernel) no_two2 ⟨Set.finite_empty, (Set.ncard_empty _).le⟩ hT U) ?_
  rintro s ⟨U', V, hU', hV, h⟩
  rw [hu U' hU'] at h
  exact ⟨V, hV, h⟩

private theorem count2 {T : Set E2} (hT : T.Finite ∧ T.ncard ≤ h2)
    {p : (Fin (2 ^ 512) × Fin (2 ^ 512)) × Fin (2 ^ 512) × Fin (2 ^ 512) → Prop}
    (hp : ∀ v, p v → Near2 T ⟨((v.1.1 : ℕ) : Fq), ((v.1.2 : ℕ) : Fq)⟩ ⟨((v.2.1 : ℕ) : Fq), ((v.2.2 : ℕ) : Fq)⟩) :
    Nat.card {v // p v} * r ≤ 37 * (2 ^ 512) ^ 4 := by
  have h := prod_count (S := {v | p v}) (k := (2 ^ 512 / q + 1) ^ 2 * (12 * (2 + 0 + 3 * h2))) fun a => by
    obtain ⟨n1, n2⟩ := near2 hT ⟨((a.1 : ℕ) : Fq), ((a.2 : ℕ) : Fq)⟩
    refine le_trans (Set.ncard_le_ncard ?_ (Set.toFinite _)) (residues2 (2 ^ 512) n1 n2)
    exact fun b hb => hp _ hb
  rw [Nat.card_prod, Nat.card_fin] at h
  have e : (2 ^ 512 / q + 1) ^ 2 * (12 * (2 + 0 + 3 * h2)) * r ≤ 37 * (2 ^ 512) ^ 2 := by
    rw [q_eq, r_eq]
    decide +kernel
  calc Nat.card {v // p v} * r ≤ (2 ^ 512 / q + 1) ^ 2 * (12 * (2 + 0 + 3 * h2)) * (2 ^ 512 * 2 ^ 512) * r :=
        Nat.mul_le_mul_right _ h
    _ = ((2 ^ 512 / q + 1) ^ 2 * (12 * (2 + 0 + 3 * h2)) * r) * (2 ^ 512 * 2 ^ 512) := by ring
    _ ≤ 37 * (2 ^ 512) ^ 2 * (2 ^ 512 * 2 ^ 512) := Nat.mul_le_mul_right _ e
    _ = 37 * (2 ^ 512) ^ 4 := by ring

private theorem cop2 : Nat.Coprime (4 * (blsU * blsU) + 2 * blsU - 1) r := by
  rw [r_eq]
  decide +kernel

private theorem clr_inj {X : E2} (h1 : r • X = 0) (h2 : Grp.clr blsU psi.hom X = 0) : X = 0 := by
  have e : psi.hom X = -(blsU • X) := by rw [show blsU • X = -psi.hom X from eig_of_torsion h1, neg_neg]
  rw [Grp.clr_apply, e, map_neg, map_nsmul, e] at h2
  have h3 : (4 * (blsU * blsU) + 2 * blsU - 1) • X = 0 := by
    rw [← h2]
    have hu : 1 ≤ 4 * (blsU * blsU) + 2 * blsU := by decide +kernel
    generalize blsU = u at hu
    rw [← natCast_zsmul, Nat.cast_sub hu]
    push_cast
    module
  rw [← addOrderOf_dvd_iff_nsmul_eq_zero] at h1 h3
  have := Nat.dvd_gcd h3 h1
  rw [cop2, Nat.dvd_one, AddMonoid.addOrderOf_eq_one_iff] at this
  exact this

private theorem fibreS2 {k : ℕ} (hk : Nat.Coprime k r) (P : E2) :
    {R : E2 | k • Grp.clr blsU psi.hom R = P}.Finite ∧ {R : E2 | k • Grp.clr blsU psi.hom R = P}.ncard ≤ h2 :=
  Spread.hom_fibre (f := k • Grp.clr blsU psi.hom) r_prime.pos E2.card addOrderOf_g2Gen (fun X h1 h2 => by
    have h2 : k • Grp.clr blsU psi.hom X = 0 := h2
    refine clr_inj h1 ?_
    have h1 := clr_torsion X
    rw [← addOrderOf_dvd_iff_nsmul_eq_zero] at h1 h2
    have := Nat.dvd_gcd h2 h1
    rw [hk, Nat.dvd_one, AddMonoid.addOrderOf_eq_one_iff] at this
    exact this) P

private theorem hash2 {sha : List UInt8 → List UInt8} {msg : List UInt8} {T : Set E2}
    (h : ∀ g H, hashG2 sha msg = some g → g.Rep H → r • H = 0 → ∀ R, H = Grp.clr blsU psi.hom R → R ∈ T) :
    Near2 T ⟨(hashToField sha (1 :: msg) 0 1 : Fq), (hashToField sha (1 :: msg) 0 2 : Fq)⟩
      ⟨(hashToField sha (1 :: msg) 1 1 : Fq), (hashToField sha (1 :: msg) 1 2 : Fq)⟩ := by
  obtain ⟨U, hU, _⟩ := Swu2.exists_unique ⟨(hashToField sha (1 :: msg) 0 1 : Fq), (hashToField sha (1 :: msg) 0 2 : Fq)⟩
  obtain ⟨V, hV, _⟩ := Swu2.exists_unique ⟨(hashToField sha (1 :: msg) 1 1 : Fq), (hashToField sha (1 :: msg) 1 2 : Fq)⟩
  refine ⟨U, V, hU, hV, ?_⟩
  by_cases e1 : U = V
  · exact .inl e1
  by_cases e2 : U = -V
  · exact .inr (.inl e2)
  obtain ⟨g, R, hR, hg, hr⟩ := hashG2_spec sha msg hU hV e1 e2
  exact .inr (.inr (.inr ⟨R, h g _ hg hr (clr_torsion R) R rfl, hR⟩))

/-- Whatever the point, at most 37 of r quadruples of 512-bit numbers from the hash function make `HashG2` return it. -/
theorem C75_hashG2 (P : E2) :
    Nat.card {v : (Fin (2 ^ 512) × Fin (2 ^ 512)) × Fin (2 ^ 512) × Fin (2 ^ 512) // ∃ sha msg g,
      hashToField sha (1 :: msg) 0 1 = v.1.1 ∧ hashToField sha (1 :: msg) 0 2 = v.1.2 ∧
      hashToField sha (1 :: msg) 1 1 = v.2.1 ∧ hashToField sha (1 :: msg) 1 2 = v.2.2 ∧
      hashG2 sha msg = some g ∧ g.Denotes P} * r ≤ 37 * (2 ^ 512) ^ 4 := by
  refine count2 (fibreS2 (Nat.coprime_one_left r) P) ?_
  rintro v ⟨sha, msg, g, e1, e2, e3, e4, hg, hd⟩
  rw [← e1, ← e2, ← e3, ← e4]
  refine hash2 fun g' H h1 h2 _ R h3 => ?_
  rw [hg] at h1
  cases h1
  rw [Set.mem_ofPred_eq, one_nsmul, ← h3]
  exact h2.fn (G2Affine.denotes_iff.mp hd)

/-! ## Signatures -/

/-- A public key and a signature chosen before the hash values are known: at most 37 of r quadruples of numbers from the
hash function make `Verify` accept, whatever the message. -/
theorem C75_accept_g1pubs (pub : G1Pubs.PublicKey) (P : E1) (hp : pub.p.Denotes P) (h0 : P ≠ 0) (hP : r • P = 0)
    (sig : G1Pubs.Signature) (S : E2) (hs : sig.s.Denotes S) (hS : r • S = 0) :
    Nat.card {v : (Fin (2 ^ 512) × Fin (2 ^ 512)) × Fin (2 ^ 512) × Fin (2 ^ 512) // ∃ sha msg,
      hashToField sha (1 :: msg) 0 1 = v.1.1 ∧ hashToField sha (1 :: msg) 0 2 = v.1.2 ∧
      hashToField sha (1 :: msg) 1 1 = v.2.1 ∧ hashToField sha (1 :: msg) 1 2 = v.2.2 ∧
      G1Pubs.verify sha msg pub sig = some true} * r ≤ 37 * (2 ^ 512) ^ 4 := by
  obtain ⟨k, rfl⟩ := E1.torsion hP
  have hk : Nat.Coprime k r := ((Nat.Prime.coprime_iff_not_dvd r_prime).mpr fun ⟨c, hc⟩ => h0 (by
    rw [hc, mul_comm, mul_nsmul', r_smul_g1Gen, nsmul_zero])).symm
  refine count2 (fibreS2 hk S) ?_
  rintro v ⟨sha, msg, e1, e2, e3, e4, hv⟩
  rw [← e1, ← e2, ← e3, ← e4]
  refine hash2 fun g H h1 h2 h3 R h4 => ?_
  have hd := G2Affine.denotes_iff.mpr h2
  have H0 : H ≠ 0 := fun e => by
    rw [(C64_verify_g1pubs sha msg g H h1 hd h3 pub _ hp sig S hs).mpr (.inr (.inr e))] at hv
    cases hv
  rw [Set.mem_ofPred_eq, ← h4]
  exact ((G1Pubs.verify_spec ⟨g, h1, hd, H0, h3⟩ (G1Projective.denotes_iff.mp hp) h0 (G2Projective.denotes_iff.mp hs)
    hS).1.mp hv).symm

/-- The same for g2pubs: at most 133 of r pairs. -/
theorem C75_accept_g2pubs (pub : G2Pubs.PublicKey) (P : E2) (hp : pub.p.Denotes P) (h0 : P ≠ 0) (hP : r • P = 0)
    (sig : G2Pubs.Signature) (S : E1) (hs : sig.s.Denotes S) (hS : r • S = 0) :
    Nat.card {v : Fin (2 ^ 512) × Fin (2 ^ 512) // ∃ sha msg, hashToField sha (1 :: msg) 0 1 = v.1 ∧
      hashToField sha (1 :: msg) 1 1 = v.2 ∧ G2Pubs.verify sha msg pub sig = some true} * r ≤ 133 * (2 ^ 512) ^ 2 := by
  obtain ⟨k, rfl⟩ := E2.torsion hP
  have hk : Nat.Coprime k r := ((Nat.Prime.coprime_iff_not_dvd r_prime).mpr fun ⟨c, hc⟩ => h0 (by
    rw [hc, mul_comm, mul_nsmul', r_smul_g2Gen, nsmul_zero])).symm
  refine count1 (fibreS1 hk S) ?_
  rintro v ⟨sha, msg, e1, e2, hv⟩
  rw [← e1, ← e2]
  refine hash1 fun g H h1 h2 h3 R h4 => ?_
  have hd := G1Affine.denotes_iff.mpr h2
  have H0 : H ≠ 0 := fun e => by
    rw [(C64_verify_g2pubs sha msg g H h1 hd pub _ hp sig S hs).mpr (.inr (.inl e))] at hv
    cases hv
  rw [Set.mem_ofPred_eq, ← h4]
  exact ((G2Pubs.verify_spec ⟨g, h1, hd, H0, h3⟩ (G2Projective.denotes_iff.mp hp) h0 (G1Projective.denotes_iff.mp hs)
    hS).1.mp hv).symm

/-! ## The points that are reached -/

private theorem bytes_exist (k : ℕ) : ∀ n < 256 ^ k, ∃ l : List UInt8, l.length = k ∧ os2ip l = n := by
  induction k with
  | zero =>
    intro n hn
    exact ⟨[], rfl, by rw [pow_zero, Nat.lt_one_iff] at hn; rw [hn]; rfl⟩
  | succ k ih =>
    intro n hn
    obtain ⟨l, h1, h2⟩ := ih (n / 256) (Nat.div_lt_of_lt_mul (by rw [pow_succ, mul_comm] at hn; exact hn))
    refine ⟨l ++ [UInt8.ofNat (n % 256)], by rw [List.length_append, h1]; rfl, ?_⟩
    have e : (UInt8.ofNat (n % 256)).toNat = n % 256 := by
      rw [UInt8.toNat_ofNat']
      omega
    unfold os2ip at h2 ⊢
    rw [List.reverse_append, List.reverse_singleton, List.singleton_append, List.map_cons, Nat.ofDigits_cons, h2, e]
    exact Nat.mod_add_div n 256

/-- A hash function with values of 32 bytes from which `hashToField` gets the given numbers. -/
theorem sha_exists (f : UInt8 → UInt8 → Fin (2 ^ 512)) (m : List UInt8) (hm : m.length ≠ 35) : ∃ sha : List UInt8 → List UInt8,
    (∀ b, (sha b).length = 32) ∧ ∀ c i, hashToField sha m c i = f c i := by
  have hb : ∀ c i, ∃ l : List UInt8, l.length = 64 ∧ os2ip l = f c i := fun c i =>
    bytes_exist 64 _ (lt_of_lt_of_eq (f c i).2 (by decide +kernel))
  choose w h1 h2 using hb
  refine ⟨fun b => if b.length = 35 then (if b.getD 34 0 = 1 then (w (b.getD 32 0) (b.getD 33 0)).take 32
    else (w (b.getD 32 0) (b.getD 33 0)).drop 32) else List.replicate 32 0, fun b => ?_, fun c i => ?_⟩
  · dsimp only
    split
    · split
      · rw [List.length_take, h1]; rfl
      · rw [List.length_drop, h1]
    · rw [List.length_replicate]
  · have e2 : ∀ j : UInt8, (List.replicate 32 (0 : UInt8) ++ [c, i, j]).length = 35 := fun j => rfl
    have e3 : ∀ j : UInt8, (List.replicate 32 (0 : UInt8) ++ [c, i, j]).getD 32 0 = c := fun j => rfl
    have e4 : ∀ j : UInt8, (List.replicate 32 (0 : UInt8) ++ [c, i, j]).getD 33 0 = i := fun j => rfl
    have e5 : ∀ j : UInt8, (List.replicate 32 (0 : UInt8) ++ [c, i, j]).getD 34 0 = j := fun j => rfl
    unfold hashToField
    simp only [if_neg hm, if_pos (e2 _), e3, e4, e5]
    rw [if_pos trivial, if_neg (by decide), List.take_append_drop, h2]

/-- `HashG1` reaches at least one in 133 points of the subgroup: it is not constant on a large part of the hash values, and
the bound of C75_hashG1 is not far from the truth. -/
theorem C75_image_g1 : r ≤ 133 * Nat.card {P : E1 // r • P = 0 ∧ ∃ sha msg g, (∀ b, (sha b).length = 32) ∧
    hashG1 sha msg = some g ∧ g.Denotes P} + 1 := by
  set I : Set E1 := {P : E1 | r • P = 0 ∧ ∃ sha msg g, (∀ b, (sha b).length = 32) ∧ hashG1 sha msg = some g ∧ g.Denotes P}
    with hI
  change r ≤ 133 * Nat.card I + 1
  have hbad := prod_count (S := {v : Fin (2 ^ 512) × Fin (2 ^ 512) | Near1 ∅ ((v.1 : ℕ) : Fq) ((v.2 : ℕ) : Fq)})
    (k := (2 ^ 512 / q + 1) * (12 * (2 + 20 + 11 * 0))) fun a =>
      Spread.residues (q := q) (2 ^ 512) (near1 ⟨Set.finite_empty, (Set.ncard_empty _).le⟩ ((a : ℕ) : Fq)).2
  have hgood := Spread.ncard_fib (R := fun (v : Fin (2 ^ 512) × Fin (2 ^ 512)) P => ∃ sha msg g,
      hashToField sha (1 :: msg) 0 1 = v.1 ∧ hashToField sha (1 :: msg) 1 1 = v.2 ∧ hashG1 sha msg = some g ∧
      g.Denotes P) (k := 133 * (2 ^ 512) ^ 2 / r) (Set.toFinite I) fun P _ =>
    ⟨Set.toFinite _, (Nat.le_div_iff_mul_le r_prime.pos).mpr (C75_hashG1 P)⟩
  have hall : (Set.univ : Set (Fin (2 ^ 512) × Fin (2 ^ 512))) ⊆
      {v | Near1 ∅ ((v.1 : ℕ) : Fq) ((v.2 : ℕ) : Fq)} ∪ {v | ∃ P ∈ I, ∃ sha msg g,
        hashToField sha (1 :: msg) 0 1 = v.1 ∧ hashToField sha (1 :: msg) 1 1 = v.2 ∧ hashG1 sha msg = some g ∧
        g.Denotes P} := by
    intro v _
    obtain ⟨sha, l, hs⟩ := sha_exists (fun c _ => if c = 0 then v.1 else v.2) [1] (by decide)
    have s1 : hashToField sha [1] 0 1 = v.1 := hs 0 1
    have s2 : hashToField sha [1] 1 1 = v.2 := hs 1 1
    by_cases hn : ∃ g H, hashG1 sha [] = some g ∧ g.Rep H ∧ r • H = 0
    · obtain ⟨g, H, h1, h2, h3⟩ := hn
      have hd := G1Affine.denotes_iff.mpr h2
      exact .inr ⟨H, ⟨h3, sha, [], g, l, h1, hd⟩, sha, [], g, s1, s2, h1, hd⟩
    · left
      rw [Set.mem_ofPred_eq, ← s1, ← s2]
      exact hash1 (msg := []) fun g H h1 h2 h3 => absurd ⟨g, H, h1, h2, h3⟩ hn
  have hc := (Set.ncard_le_ncard hall (Set.toFinite _)).trans ((Set.ncard_union_le _ _).trans (Nat.add_le_add hbad hgood.2))
  rw [Set.ncard_univ, Nat.card_prod, Nat.card_fin, ← Nat.card_coe_set_eq] at hc
  generalize Nat.card I = n at hc
  have e1 : (2 ^ 512 / q + 1) * (12 * (2 + 20 + 11 * 0)) * r ≤ 2 ^ 512 := by
    rw [q_eq, r_eq]
    decide +kernel
  have e2 : 133 * (2 ^ 512) ^ 2 / r * r ≤ 133 * (2 ^ 512) ^ 2 := Nat.div_mul_le_self _ _
  have e3 : (2 ^ 512 : ℕ) * 2 ^ 512 * r ≤ 2 ^ 512 * 2 ^ 512 * (133 * n + 1) := by
    calc (2 ^ 512 : ℕ) * 2 ^ 512 * r ≤ _ * r := Nat.mul_le_mul_right r hc
      _ = (2 ^ 512 / q + 1) * (12 * (2 + 20 + 11 * 0)) * r * 2 ^ 512 + 133 * (2 ^ 512) ^ 2 / r * r * n := by ring
      _ ≤ 2 ^ 512 * 2 ^ 512 + 133 * (2 ^ 512) ^ 2 * n := Nat.add_le_add (Nat.mul_le_mul_right _ e1) (Nat.mul_le_mul_right _ e2)
      _ = 2 ^ 512 * 2 ^ 512 * (133 * n + 1) := by ring
  exact Nat.le_of_mul_le_mul_left e3 (by positivity)

/-- `HashG2` reaches at least one in 37 points of the subgroup. -/
theorem C75_image_g2 : r ≤ 37 * Nat.card {P : E2 // r • P = 0 ∧ ∃ sha msg g, (∀ b, (sha b).length = 32) ∧
    hashG2 sha msg = some g ∧ g.Denotes P} + 1 := by
  set I : Set E2 := {P : E2 | r • P = 0 ∧ ∃ sha msg g, (∀ b, (sha b).length = 32) ∧ hashG2 sha msg = some g ∧ g.Denotes P}
    with hI
  change r ≤ 37 * Nat.card I + 1
  have hbad := prod_count (S := {v : (Fin (2 ^ 512) × Fin (2 ^ 512)) × Fin (2 ^ 512) × Fin (2 ^ 512) |
      Near2 ∅ ⟨((v.1.1 : ℕ) : Fq), ((v.1.2 : ℕ) : Fq)⟩ ⟨((v.2.1 : ℕ) : Fq), ((v.2.2 : ℕ) : Fq)⟩})
    (k := (2 ^ 512 / q + 1) ^ 2 * (12 * (2 + 0 + 3 * 0))) fun a => by
      obtain ⟨n1, n2⟩ := near2 (T := ∅) ⟨Set.finite_empty, (Set.ncard_empty _).le⟩ ⟨((a.1 : ℕ) : Fq), ((a.2 : ℕ) : Fq)⟩
      exact residues2 (2 ^ 512) n1 n2
  have hgood := Spread.ncard_fib (R := fun (v : (Fin (2 ^ 512) × Fin (2 ^ 512)) × Fin (2 ^ 512) × Fin (2 ^ 512)) P =>
      ∃ sha msg g, hashToField sha (1 :: msg) 0 1 = v.1.1 ∧ hashToField sha (1 :: msg) 0 2 = v.1.2 ∧
      hashToField sha (1 :: msg) 1 1 = v.2.1 ∧ hashToField sha (1 :: msg) 1 2 = v.2.2 ∧ hashG2 sha msg = some g ∧
      g.Denotes P) (k := 37 * (2 ^ 512) ^ 4 / r) (Set.toFinite I) fun P _ =>
    ⟨Set.toFinite _, (Nat.le_div_iff_mul_le r_prime.pos).mpr (C75_hashG2 P)⟩
  have hall : (Set.univ : Set ((Fin (2 ^ 512) × Fin (2 ^ 512)) × Fin (2 ^ 512) × Fin (2 ^ 512))) ⊆
      {v | Near2 ∅ ⟨((v.1.1 : ℕ) : Fq), ((v.1.2 : ℕ) : Fq)⟩ ⟨((v.2.1 : ℕ) : Fq), ((v.2.2 : ℕ) : Fq)⟩} ∪
      {v | ∃ P ∈ I, ∃ sha msg g, hashToField sha (1 :: msg) 0 1 = v.1.1 ∧ hashToField sha (1 :: msg) 0 2 = v.1.2 ∧
        hashToField sha (1 :: msg) 1 1 = v.2.1 ∧ hashToField sha (1 :: msg) 1 2 = v.2.2 ∧ hashG2 sha msg = some g ∧
        g.Denotes P} := by
    intro v _
    obtain ⟨sha, l, hs⟩ := sha_exists (fun c i => if c = 0 then (if i = 1 then v.1.1 else v.1.2)
      else (if i = 1 then v.2.1 else v.2.2)) [1] (by decide)
    have s1 : hashToField sha [1] 0 1 = v.1.1 := hs 0 1
    have s2 : hashToField sha [1] 0 2 = v.1.2 := hs 0 2
    have s3 : hashToField sha [1] 1 1 = v.2.1 := hs 1 1
    have s4 : hashToField sha [1] 1 2 = v.2.2 := hs 1 2
    by_cases hn : ∃ g H, hashG2 sha [] = some g ∧ g.Rep H ∧ r • H = 0
    · obtain ⟨g, H, h1, h2, h3⟩ := hn
      have hd := G2Affine.denotes_iff.mpr h2
      exact .inr ⟨H, ⟨h3, sha, [], g, l, h1, hd⟩, sha, [], g, s1, s2, s3, s4, h1, hd⟩
    · left
      rw [Set.mem_ofPred_eq, ← s1, ← s2, ← s3, ← s4]
      exact hash2 (msg := []) fun g H h1 h2 h3 => absurd ⟨g, H, h1, h2, h3⟩ hn
  have hc := (Set.ncard_le_ncard hall (Set.toFinite _)).trans ((Set.ncard_union_le _ _).trans (Nat.add_le_add hbad hgood.2))
  rw [Set.ncard_univ, Nat.card_prod, Nat.card_prod, Nat.card_fin, ← Nat.card_coe_set_eq] at hc
  generalize Nat.card I = n at hc
  have e1 : (2 ^ 512 / q + 1) ^ 2 * (12 * (2 + 0 + 3 * 0)) * r ≤ (2 ^ 512) ^ 2 := by
    rw [q_eq, r_eq]
    decide +kernel
  have e2 : 37 * (2 ^ 512) ^ 4 / r * r ≤ 37 * (2 ^ 512) ^ 4 := Nat.div_mul_le_self _ _
  have e3 : ((2 ^ 512) ^ 4 : ℕ) * r ≤ (2 ^ 512) ^ 4 * (37 * n + 1) := by
    calc ((2 ^ 512) ^ 4 : ℕ) * r = 2 ^ 512 * 2 ^ 512 * (2 ^ 512 * 2 ^ 512) * r := by ring
      _ ≤ _ * r := Nat.mul_le_mul_right r hc
      _ = (2 ^ 512 / q + 1) ^ 2 * (12 * (2 + 0 + 3 * 0)) * r * (2 ^ 512) ^ 2 + 37 * (2 ^ 512) ^ 4 / r * r * n := by ring
      _ ≤ (2 ^ 512) ^ 2 * (2 ^ 512) ^ 2 + 37 * (2 ^ 512) ^ 4 * n :=
        Nat.add_le_add (Nat.mul_le_mul_right _ e1) (Nat.mul_le_mul_right _ e2)
      _ = (2 ^ 512) ^ 4 * (37 * n + 1) := by ring
  exact Nat.le_of_mul_le_mul_left e3 (by positivity)

/-- The hypotheses of C75_accept are met, and there are hash functions for which the hashes are points of the subgroup. -/
example : (∃ (pub : G1Pubs.PublicKey) (sig : G1Pubs.Signature), pub.p.Denotes g1Gen ∧ g1Gen ≠ 0 ∧ r • g1Gen = 0 ∧
      sig.s.Denotes g2Gen ∧ r • g2Gen = 0) ∧
    (∃ (pub : G2Pubs.PublicKey) (sig : G2Pubs.Signature), pub.p.Denotes g2Gen ∧ g2Gen ≠ 0 ∧ r • g2Gen = 0 ∧
      sig.s.Denotes g1Gen ∧ r • g1Gen = 0) :=
  ⟨⟨⟨.one⟩, ⟨.one⟩, one_g1, g1Gen_ne_zero, r_smul_g1Gen, one_g2, r_smul_g2Gen⟩,
    ⟨.one⟩, ⟨.one⟩, one_g2, g2Gen_ne_zero, r_smul_g2Gen, one_g1, r_smul_g1Gen⟩

end Bls.Props
