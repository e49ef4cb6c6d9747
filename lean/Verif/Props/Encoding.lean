import Verif.Proof.Denote
/-
C25–C28: byte encodings of points. `beNat` is the big-endian number of a byte string; in a compressed
encoding the three top bits of the first byte are flags (compressed, infinity, sign of y).
-/
set_option exponentiation.threshold 1000
namespace Bls.Props

/-! ## C25: compression round trip -/

theorem C25_g1 (a : G1Affine) (P : E1) (h : a.Denotes P) (hr : r • P = 0) :
    a.compress.length = 48 ∧ G1Affine.decompress a.compress = some a ∧
      G1Affine.decompressUnchecked a.compress = some a := by
  have h := G1Affine.denotes_iff.mp h
  exact ⟨h.compress_length, h.decompress_compress hr, h.decompressUnchecked_compress⟩

theorem C25_g2 (a : G2Affine) (P : E2) (h : a.Denotes P) (hr : r • P = 0) :
    a.compress.length = 96 ∧ G2Affine.decompress a.compress = some a ∧
      G2Affine.decompressUnchecked a.compress = some a := by
  have h := G2Affine.denotes_iff.mp h
  exact ⟨h.compress_length, h.decompress_compress hr, h.decompressUnchecked_compress⟩

/-- The same without the subgroup check, for every point of the curves. -/
theorem C25_unchecked : (∀ (a : G1Affine) (P : E1), a.Denotes P → G1Affine.decompressUnchecked a.compress = some a) ∧
    ∀ (a : G2Affine) (P : E2), a.Denotes P → G2Affine.decompressUnchecked a.compress = some a :=
  ⟨fun _ _ h => (G1Affine.denotes_iff.mp h).decompressUnchecked_compress,
    fun _ _ h => (G2Affine.denotes_iff.mp h).decompressUnchecked_compress⟩

example : ∃ (P : E1) (Q : E2), P ≠ 0 ∧ Q ≠ 0 ∧ G1Affine.one.Denotes P ∧ G2Affine.one.Denotes Q ∧
    r • P = 0 ∧ r • Q = 0 :=
  ⟨g1Gen, g2Gen, g1Gen_ne_zero, g2Gen_ne_zero, G1Affine.denotes_iff.mpr G1Affine.one_rep,
    G2Affine.denotes_iff.mpr G2Affine.one_rep, r_smul_g1Gen, r_smul_g2Gen⟩

/-! ## C26: decompression is sound -/

theorem C26_g1 (b : List UInt8) (hl : b.length = 48) (a : G1Affine) :
    (G1Affine.decompressUnchecked b = some a → ∃ P : E1, a.Denotes P) ∧
    (G1Affine.decompress b = some a → ∃ P : E1, a.Denotes P ∧ r • P = 0) := by
  refine ⟨fun h => ?_, fun h => ?_⟩
  · obtain ⟨P, hP⟩ := G1Affine.decompressUnchecked_rep hl h
    exact ⟨P, G1Affine.denotes_iff.mpr hP⟩
  · obtain ⟨h, hs⟩ := G1Affine.decompress_iff.mp h
    obtain ⟨P, hP⟩ := G1Affine.decompressUnchecked_rep hl h
    exact ⟨P, G1Affine.denotes_iff.mpr hP, hP.isInCorrectSubgroup.mp hs⟩

theorem C26_g2 (b : List UInt8) (hl : b.length = 96) (a : G2Affine) :
    (G2Affine.decompressUnchecked b = some a → ∃ P : E2, a.Denotes P) ∧
    (G2Affine.decompress b = some a → ∃ P : E2, a.Denotes P ∧ r • P = 0) := by
  refine ⟨fun h => ?_, fun h => ?_⟩
  · obtain ⟨P, hP⟩ := G2Affine.decompressUnchecked_rep hl h
    exact ⟨P, G2Affine.denotes_iff.mpr hP⟩
  · obtain ⟨h, hs⟩ := G2Affine.decompress_iff.mp h
    obtain ⟨P, hP⟩ := G2Affine.decompressUnchecked_rep hl h
    exact ⟨P, G2Affine.denotes_iff.mpr hP, hP.isInCorrectSubgroup.mp hs⟩

/-- The subgroup check decides membership in the r-torsion. -/
theorem C26_subgroup : (∀ (a : G1Affine) (P : E1), a.Denotes P → (a.isInCorrectSubgroup = true ↔ r • P = 0)) ∧
    ∀ (a : G2Affine) (P : E2), a.Denotes P → (a.isInCorrectSubgroup = true ↔ r • P = 0) :=
  ⟨fun _ _ h => (G1Affine.denotes_iff.mp h).isInCorrectSubgroup,
    fun _ _ h => (G2Affine.denotes_iff.mp h).isInCorrectSubgroup⟩

/-- Exactly what is accepted, and with which result: the infinity encoding, or a finite point whose x
coordinate is the number in the low 381 bits (read as 0 if it is not below q) and whose y is the larger
of the two exactly if the sign flag is set. -/
theorem C26_g1_exact (b : List UInt8) (hl : b.length = 48) (a : G1Affine) :
    G1Affine.decompressUnchecked b = some a ↔
      (b = 0xc0 :: List.replicate 47 0 ∧ a = G1Affine.zero) ∨
      (b.headD 0 &&& 0x80 ≠ 0 ∧ b.headD 0 &&& 0x40 = 0 ∧ a.infinity = false ∧ (∃ P : E1, a.Denotes P) ∧
        a.x.int = (if beNat b % 2 ^ 381 < q then beNat b % 2 ^ 381 else 0) ∧
        (b.headD 0 &&& 0x20 ≠ 0 ↔ Fq.Greater (a.y.int : Fq) (-(a.y.int : Fq)))) := by
  have hl' := hl; clear hl
  obtain ⟨b0, t, rfl, hl⟩ := exists_cons hl'
  have hlm : ((b0 &&& 0x1f) :: t).length = 48 := by rw [List.length_cons, hl]
  rw [← beNat_mask b0 hl, G1Affine.decompressUnchecked_spec, List.headD_cons]
  rw [← FQRepr.fromBytes_toNat hlm]
  generalize FQRepr.fromBytes ((b0 &&& 0x1f) :: t) = o
  have hint : (FQ.ofRepr o).Rep ((if o.toNat < q then o.toNat else 0 : ℕ) : Fq) := by
    split_ifs with ho
    · exact FQ.ofRepr_rep ho
    · rw [Nat.cast_zero]; exact FQ.ofRepr_of_le (not_lt.mp ho)
  have hlt : (if o.toNat < q then o.toNat else 0) < q := by split_ifs with ho; exacts [ho, q_pos]
  have hval : (FQ.ofRepr o).int = if o.toNat < q then o.toNat else 0 := by
    rw [hint.int_eq, Nat.mod_eq_of_lt hlt]
  constructor
  · rintro ⟨h1, ⟨rfl, h2, rfl⟩ | ⟨h2, h⟩⟩
    · left; rw [List.eq_replicate_of_mem h2, hl]; exact ⟨rfl, rfl⟩
    · right
      obtain ⟨P, _, hP⟩ := G1Affine.getPointFromX_rep hint h
      obtain ⟨e1, e2, y, hy, e3, e4⟩ := G1Affine.getPointFromX_some hint h
      have hy0 : y ≠ 0 := by rintro rfl; exact E1.y_ne_zero e3
      refine ⟨h1, h2, e2, ⟨P, G1Affine.denotes_iff.mpr hP⟩, by rw [e1, hval], ?_⟩
      rw [(FQ.rep_iff_int.mp hy).2, ← e4 (ne_neg_self (b := (4 : Fq)) hy0)]
      simp
  · rintro (⟨e, rfl⟩ | ⟨h1, h2, h3, ⟨P, hP⟩, h5, h6⟩)
    · obtain ⟨rfl, rfl⟩ := List.cons.inj e
      exact ⟨by decide, Or.inl ⟨rfl, fun x hx => List.eq_of_mem_replicate hx, rfl⟩⟩
    · refine ⟨h1, Or.inr ⟨h2, ?_⟩⟩
      have hP := G1Affine.denotes_iff.mp hP
      have hg := hP.getPointFromX (fun e => absurd (hP.infinity_iff.mpr e) (by rw [h3]; exact Bool.false_ne_true))
      rcases hP with ⟨rfl, _⟩ | ⟨_, x, y, hx, hy, hP⟩
      · cases h3
      · have ex : a.x = FQ.ofRepr o := by
          refine hx.inj ?_
          rw [← (FQ.rep_iff_int.mp hx).2, h5]; exact hint
        have ey : (b0 &&& 0x20 != 0) = decide (a.y.cmp a.y.neg > 0) := by
          rw [Bool.eq_iff_iff, decide_eq_true_iff, hy.cmp_gt hy.neg, bne_iff_ne, h6, (FQ.rep_iff_int.mp hy).2]
        rw [ey, ← ex]; exact hg

/-- The same on G2: the first 48 bytes hold the coefficient of u, the last 48 the constant one. -/
theorem C26_g2_exact (b : List UInt8) (hl : b.length = 96) (a : G2Affine) :
    G2Affine.decompressUnchecked b = some a ↔
      (b = 0xc0 :: List.replicate 95 0 ∧ a = G2Affine.zero) ∨
      (b.headD 0 &&& 0x80 ≠ 0 ∧ b.headD 0 &&& 0x40 = 0 ∧ a.infinity = false ∧ (∃ P : E2, a.Denotes P) ∧
        a.x.c1.int = (if beNat (b.take 48) % 2 ^ 381 < q then beNat (b.take 48) % 2 ^ 381 else 0) ∧
        a.x.c0.int = (if beNat (b.drop 48) < q then beNat (b.drop 48) else 0) ∧
        (b.headD 0 &&& 0x20 ≠ 0 ↔ Fq2.Greater a.y.fld (-a.y.fld))) := by
  have hl' := hl; clear hl
  obtain ⟨b0, s, t, rfl, hs, ht⟩ := G2Affine.split96 hl'
  have hlm : ((b0 &&& 0x1f) :: s).length = 48 := by rw [List.length_cons, hs]
  have es : (b0 :: (s ++ t)).take 48 = b0 :: s := by simp [← hs]
  have et : (b0 :: (s ++ t)).drop 48 = t := by simp [← hs]
  rw [es, et, ← beNat_mask b0 hs, G2Affine.decompressUnchecked_spec hs ht, List.headD_cons]
  rw [← FQRepr.fromBytes_toNat hlm, ← FQRepr.fromBytes_toNat ht]
  generalize FQRepr.fromBytes ((b0 &&& 0x1f) :: s) = o
  generalize FQRepr.fromBytes t = o'
  have key : ∀ o : FQRepr, (FQ.ofRepr o).Rep ((if o.toNat < q then o.toNat else 0 : ℕ) : Fq) ∧
      (FQ.ofRepr o).int = if o.toNat < q then o.toNat else 0 := by
    intro o
    have hint : (FQ.ofRepr o).Rep ((if o.toNat < q then o.toNat else 0 : ℕ) : Fq) := by
      split_ifs with ho
      · exact FQ.ofRepr_rep ho
      · rw [Nat.cast_zero]; exact FQ.ofRepr_of_le (not_lt.mp ho)
    have hlt : (if o.toNat < q then o.toNat else 0) < q := by split_ifs with ho; exacts [ho, q_pos]
    exact ⟨hint, by rw [hint.int_eq, Nat.mod_eq_of_lt hlt]⟩
  have hint : (⟨FQ.ofRepr o', FQ.ofRepr o⟩ : FQ2).Rep ⟨_, _⟩ := ⟨(key o').1, (key o).1⟩
  constructor
  · rintro ⟨h1, ⟨rfl, h2, rfl⟩ | ⟨h2, h⟩⟩
    · left; rw [List.eq_replicate_of_mem h2, List.length_append, hs, ht]; exact ⟨rfl, rfl⟩
    · right
      obtain ⟨P, _, hP⟩ := G2Affine.getPointFromX_rep hint h
      obtain ⟨e1, e2, y, hy, e3, e4⟩ := G2Affine.getPointFromX_some hint h
      have hy0 : y ≠ 0 := by rintro rfl; exact E2.y_ne_zero e3
      refine ⟨h1, h2, e2, ⟨P, G2Affine.denotes_iff.mpr hP⟩, by rw [e1, (key o).2], by rw [e1, (key o').2], ?_⟩
      rw [(FQ2.rep_iff.mp hy).2, ← e4 (ne_neg_self (b := b2) hy0)]
      simp
  · rintro (⟨e, rfl⟩ | ⟨h1, h2, h3, ⟨P, hP⟩, h5, h5', h6⟩)
    · obtain ⟨rfl, e'⟩ := List.cons.inj e
      refine ⟨by decide, Or.inl ⟨rfl, fun x hx => ?_, rfl⟩⟩
      rw [e'] at hx; exact List.eq_of_mem_replicate hx
    · refine ⟨h1, Or.inr ⟨h2, ?_⟩⟩
      have hP := G2Affine.denotes_iff.mp hP
      have hg := hP.getPointFromX (fun e => absurd (hP.infinity_iff.mpr e) (by rw [h3]; exact Bool.false_ne_true))
      rcases hP with ⟨rfl, _⟩ | ⟨_, x, y, hx, hy, hP⟩
      · cases h3
      · have ex : a.x = ⟨FQ.ofRepr o', FQ.ofRepr o⟩ := by
          have e1 : a.x.c1 = FQ.ofRepr o := by
            refine hx.c1.inj ?_
            rw [← (FQ.rep_iff_int.mp hx.c1).2, h5]; exact (key o).1
          have e0 : a.x.c0 = FQ.ofRepr o' := by
            refine hx.c0.inj ?_
            rw [← (FQ.rep_iff_int.mp hx.c0).2, h5']; exact (key o').1
          rw [← e0, ← e1]
        have ey : (b0 &&& 0x20 != 0) = decide (a.y.cmp a.y.neg > 0) := by
          rw [Bool.eq_iff_iff, decide_eq_true_iff, hy.cmp_gt hy.neg, bne_iff_ne, h6, (FQ2.rep_iff.mp hy).2]
        rw [ey, ← ex]; exact hg

/-- Strings that are accepted, and not as infinity. -/
example : (∃ b a, b.length = 48 ∧ G1Affine.decompress b = some a ∧ G1Affine.decompressUnchecked b = some a ∧
      a.infinity = false) ∧
    ∃ b a, b.length = 96 ∧ G2Affine.decompress b = some a ∧ G2Affine.decompressUnchecked b = some a ∧
      a.infinity = false := by
  have h1 := C25_g1 _ _ (G1Affine.denotes_iff.mpr G1Affine.one_rep) r_smul_g1Gen
  have h2 := C25_g2 _ _ (G2Affine.denotes_iff.mpr G2Affine.one_rep) r_smul_g2Gen
  exact ⟨⟨_, _, h1.1, h1.2.1, h1.2.2, rfl⟩, _, _, h2.1, h2.2.1, h2.2.2, rfl⟩

/-! ## C27: canonical encodings -/

/-- Every string `DecompressG1` accepts is the encoding of the point it returns. -/
theorem C27_g1 (b : List UInt8) (hl : b.length = 48) (a : G1Affine) (h : G1Affine.decompress b = some a) :
    a.compress = b :=
  G1Affine.compress_decompressUnchecked hl (G1Affine.decompress_iff.mp h).1 (G1Affine.decompress_lt hl h)

/-- Without the subgroup check this needs the coordinate to be below q. -/
theorem C27_g1_unchecked_partial (b : List UInt8) (hl : b.length = 48) (a : G1Affine)
    (h : G1Affine.decompressUnchecked b = some a) (hx : beNat b % 2 ^ 381 < q) : a.compress = b :=
  G1Affine.compress_decompressUnchecked hl h hx

/-- On G2, both coordinates must be below q. Missing: a proof that no point with a zero coefficient in x has
order r (not known; C27_g2_exact shows that it is equivalent), which would make the hypotheses superfluous for
`DecompressG2`. -/
theorem C27_g2_partial (b : List UInt8) (hl : b.length = 96) (a : G2Affine)
    (h : G2Affine.decompress b = some a) (hx : beNat (b.take 48) % 2 ^ 381 < q) (hx' : beNat (b.drop 48) < q) :
    a.compress = b :=
  G2Affine.compress_decompressUnchecked hl (G2Affine.decompress_iff.mp h).1 hx hx'

theorem C27_g2_unchecked_partial (b : List UInt8) (hl : b.length = 96) (a : G2Affine)
    (h : G2Affine.decompressUnchecked b = some a) (hx : beNat (b.take 48) % 2 ^ 381 < q) (hx' : beNat (b.drop 48) < q) :
    a.compress = b :=
  G2Affine.compress_decompressUnchecked hl h hx hx'

/-- The strings of the generators meet the hypotheses of C26 and C27. -/
example : (G1Affine.one.compress.length = 48 ∧ G1Affine.decompress G1Affine.one.compress = some .one ∧
      G1Affine.decompressUnchecked G1Affine.one.compress = some .one ∧ beNat G1Affine.one.compress % 2 ^ 381 < q) ∧
    G2Affine.one.compress.length = 96 ∧ G2Affine.decompress G2Affine.one.compress = some .one ∧
      G2Affine.decompressUnchecked G2Affine.one.compress = some .one ∧
      beNat (G2Affine.one.compress.take 48) % 2 ^ 381 < q ∧ beNat (G2Affine.one.compress.drop 48) < q := by
  obtain ⟨h1, h2, h3⟩ := C25_g1 _ _ (G1Affine.denotes_iff.mpr G1Affine.one_rep) r_smul_g1Gen
  obtain ⟨h4, h5, h6⟩ := C25_g2 _ _ (G2Affine.denotes_iff.mpr G2Affine.one_rep) r_smul_g2Gen
  exact ⟨⟨h1, h2, h3, by rw [q_eq]; decide +kernel⟩, h4, h5, h6, by rw [q_eq]; decide +kernel, by rw [q_eq]; decide +kernel⟩

/-- The encoding of the number q itself, with the compressed flag: read as x = 0. -/
def qBytes : List UInt8 := (0x9a :: (FQRepr.bytes (.ofNat 4002409555221667393417789825735904156556882819939007885332058136124031650490837864442687629129015664037894272559787)).drop 1)

theorem C27_g1_unchecked_false : ¬ ∀ (b b' : List UInt8) (a : G1Affine), b.length = 48 → b'.length = 48 →
    G1Affine.decompressUnchecked b = some a → G1Affine.decompressUnchecked b' = some a → b = b' := by
  intro hall
  have hsq : IsSquare ((0 : Fq) ^ 3 + 4) := ⟨2, by norm_num⟩
  have hne := fun e => (G1Affine.getPointFromX_none (FQ.zero_rep) false).mp e hsq
  obtain ⟨a, ha⟩ := Option.ne_none_iff_exists'.mp hne
  have h0 : FQ.ofRepr (.fromBytes ((0x80 &&& 0x1f) :: List.replicate 47 0)) = FQ.zero := by decide +kernel
  have h1 : FQ.ofRepr (.fromBytes ((0x9a &&& 0x1f) :: qBytes.tail)) = FQ.zero := by decide +kernel
  have e := hall (0x80 :: List.replicate 47 0) qBytes a rfl (by decide +kernel) ?_ ?_
  · exact absurd e (by decide +kernel)
  · rw [G1Affine.decompressUnchecked_spec, h0]
    exact ⟨by decide, Or.inr ⟨by decide, ha⟩⟩
  · change G1Affine.decompressUnchecked (0x9a :: qBytes.tail) = some a
    rw [G1Affine.decompressUnchecked_spec, h1]
    exact ⟨by decide, Or.inr ⟨by decide, ha⟩⟩

/-- The same on G2, in the unmasked second half: 0 and q are both read as the constant coefficient 0 of
x = u. -/
theorem C27_g2_unchecked_false : ¬ ∀ (b b' : List UInt8) (a : G2Affine), b.length = 96 → b'.length = 96 →
    G2Affine.decompressUnchecked b = some a → G2Affine.decompressUnchecked b' = some a → b = b' := by
  intro hall
  have hx : (⟨FQ.zero, FQ.one⟩ : FQ2).Rep Fq2.u := ⟨FQ.zero_rep, FQ.one_rep⟩
  have hn : N2.mul ⟨0x135203e60180a68ee2e9c448d77a2cd91c3dedd930b1cf60ef396489f61eb45e304466cf3e67fa0af1ee7b04121bdea2, 0x140d2a0ca7fdc0223895aa4843747ffad8ac19034879ca1b67e64a4501b6c551cb36cb8e58c411de58318ef3c9ab641b⟩ ⟨0x135203e60180a68ee2e9c448d77a2cd91c3dedd930b1cf60ef396489f61eb45e304466cf3e67fa0af1ee7b04121bdea2, 0x140d2a0ca7fdc0223895aa4843747ffad8ac19034879ca1b67e64a4501b6c551cb36cb8e58c411de58318ef3c9ab641b⟩ = ⟨4, 3⟩ := by decide +kernel
  have hsq : IsSquare (Fq2.u ^ 3 + b2) := by
    refine ⟨N2.toF ⟨0x135203e60180a68ee2e9c448d77a2cd91c3dedd930b1cf60ef396489f61eb45e304466cf3e67fa0af1ee7b04121bdea2, 0x140d2a0ca7fdc0223895aa4843747ffad8ac19034879ca1b67e64a4501b6c551cb36cb8e58c411de58318ef3c9ab641b⟩, ?_⟩
    rw [← N2.toF_mul, hn]
    have : Fq2.u ^ 3 = -Fq2.u := by rw [pow_succ, Fq2.u_sq]; ring
    rw [this]
    ext1
    · simp [N2.toF, b2]
    · simp [N2.toF, b2]; norm_num
  have hne := fun e => (G2Affine.getPointFromX_none hx false).mp e hsq
  obtain ⟨a, ha⟩ := Option.ne_none_iff_exists'.mp hne
  have e0 : FQ.ofRepr (.fromBytes (List.replicate 48 0)) = FQ.zero := by decide +kernel
  have e1 : FQ.ofRepr (.fromBytes ((0x80 &&& 0x1f) :: (List.replicate 46 0 ++ [1]))) = FQ.one := by decide +kernel
  have e2 : FQ.ofRepr (.fromBytes (0x1a :: qBytes.tail)) = FQ.zero := by decide +kernel
  have e := hall (0x80 :: ((List.replicate 46 0 ++ [1]) ++ List.replicate 48 0))
    (0x80 :: ((List.replicate 46 0 ++ [1]) ++ (0x1a :: qBytes.tail))) a rfl (by decide +kernel) ?_ ?_
  · exact absurd e (by decide +kernel)
  · rw [G2Affine.decompressUnchecked_spec (by decide) (by decide), e0, e1]
    exact ⟨by decide, Or.inr ⟨by decide, ha⟩⟩
  · rw [G2Affine.decompressUnchecked_spec (by decide) (by decide +kernel), e2, e1]
    exact ⟨by decide, Or.inr ⟨by decide, ha⟩⟩

/-! ## C28: uncompressed serialization -/

/-- `new(G1Affine)` and `new(G2Affine)`. -/
def freshG1 : G1Affine := ⟨⟨⟨0, 0, 0, 0, 0, 0⟩⟩, ⟨⟨0, 0, 0, 0, 0, 0⟩⟩, false⟩
def freshG2 : G2Affine := ⟨⟨freshG1.x, freshG1.x⟩, ⟨freshG1.x, freshG1.x⟩, false⟩

/-- G2: a finite point is restored, whatever was in the receiver, provided that was not infinity. Missing:
the infinity flag is neither written nor read. -/
theorem C28_g2_partial (a c : G2Affine) (P : E2) (h : a.Denotes P) (hP : P ≠ 0) (hc : c.infinity = false) :
    a.serializeBytes.length = 192 ∧ c.setRawBytes a.serializeBytes = a := by
  rcases G2Affine.denotes_iff.mp h with ⟨_, rfl⟩ | ⟨h1, x, y, hx, hy, h⟩
  · exact absurd rfl hP
  refine ⟨by simp only [G2Affine.serializeBytes, List.length_append, FQRepr.bytes_length], ?_⟩
  unfold G2Affine.setRawBytes G2Affine.serializeBytes
  have key : ∀ A B C D : List UInt8, A.length = 48 → B.length = 48 → C.length = 48 → D.length = 48 →
      slice (A ++ B ++ C ++ D) 0 48 = A ∧ slice (A ++ B ++ C ++ D) 48 96 = B ∧
      slice (A ++ B ++ C ++ D) 96 144 = C ∧ slice (A ++ B ++ C ++ D) 144 192 = D := by
    intro A B C D hA hB hC hD
    have cut : ∀ X Y Z : List UInt8, Y.length = 48 → slice (X ++ (Y ++ Z)) X.length (X.length + 48) = Y := by
      intro X Y Z hY
      rw [slice, List.drop_left, Nat.add_sub_cancel_left, ← hY, List.take_left]
    have c0 := cut [] A (B ++ (C ++ D)) hA
    have c1 := cut A B (C ++ D) hB
    have c2 := cut (A ++ B) C D hC
    have c3 := cut (A ++ B ++ C) D [] hD
    simp only [List.length_append, List.length_nil, hA, hB, hC, List.append_assoc, List.nil_append, List.append_nil] at c0 c1 c2 c3
    simp only [List.append_assoc]
    exact ⟨c0, c1, c2, c3⟩
  obtain ⟨e1, e2, e3, e4⟩ := key _ _ _ _ a.x.c0.toRepr.bytes_length a.x.c1.toRepr.bytes_length
    a.y.c0.toRepr.bytes_length a.y.c1.toRepr.bytes_length
  rw [e1, e2, e3, e4]
  simp only [FQRepr.fromBytes_bytes]
  rw [hx.c0.ofRepr_toRepr, hx.c1.ofRepr_toRepr, hy.c0.ofRepr_toRepr, hy.c1.ofRepr_toRepr, hc, ← h1]

/-- The generator of G2 and a fresh receiver meet the hypotheses. -/
example : G2Affine.one.Denotes g2Gen ∧ g2Gen ≠ 0 ∧ freshG2.infinity = false :=
  ⟨G2Affine.denotes_iff.mpr G2Affine.one_rep, g2Gen_ne_zero, rfl⟩

/-- G1: the limbs read are not converted to Montgomery form. What a fresh receiver then holds. -/
theorem C28_g1_actual (a c : G1Affine) : a.serializeBytes.length = 96 ∧
    (c.setRawBytes a.serializeBytes).x.n = a.x.toRepr ∧ (c.setRawBytes a.serializeBytes).y.n = a.y.toRepr ∧
    (c.setRawBytes a.serializeBytes).infinity = c.infinity := by
  have hx : ∀ u, (c.setRawBytes u).x.n = FQRepr.fromBytes (slice u 0 48) := fun _ => rfl
  have hy : ∀ u, (c.setRawBytes u).y.n = FQRepr.fromBytes (slice u 48 96) := fun _ => rfl
  have hi : ∀ u, (c.setRawBytes u).infinity = c.infinity := fun _ => rfl
  have hs := G2Affine.slice_split _ _ a.x.toRepr.bytes_length a.y.toRepr.bytes_length
  refine ⟨by simp only [G1Affine.serializeBytes, List.length_append, FQRepr.bytes_length], ?_, ?_, hi _⟩
  · rw [hx, G1Affine.serializeBytes, hs.1, FQRepr.fromBytes_bytes]
  · rw [hy, G1Affine.serializeBytes, hs.2, FQRepr.fromBytes_bytes]

/-- The generator of G1 is not restored: the result is not even on the curve. -/
theorem C28_g1_false : ∃ (a : G1Affine) (P : E1), a.Denotes P ∧ P ≠ 0 ∧ r • P = 0 ∧
    freshG1.setRawBytes a.serializeBytes ≠ a ∧ (freshG1.setRawBytes a.serializeBytes).isOnCurve = false := by
  refine ⟨G1Affine.one, g1Gen, G1Affine.denotes_iff.mpr G1Affine.one_rep, g1Gen_ne_zero, r_smul_g1Gen, ?_, ?_⟩
  · decide +kernel
  · decide +kernel

/-- Infinity is not restored on either curve: a fresh receiver becomes the finite pair (0, 1) resp. its
G1 analogue, off the curve. -/
theorem C28_infinity_false : (freshG1.setRawBytes G1Affine.zero.serializeBytes).infinity = false ∧
    (freshG2.setRawBytes G2Affine.zero.serializeBytes).infinity = false ∧
    (freshG1.setRawBytes G1Affine.zero.serializeBytes).isOnCurve = false ∧
    (freshG2.setRawBytes G2Affine.zero.serializeBytes).isOnCurve = false := by
  decide +kernel

end Bls.Props
