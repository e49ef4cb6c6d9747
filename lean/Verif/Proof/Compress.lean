import Verif.Proof.Gens
/-
Point compression and decompression.
-/
set_option exponentiation.threshold 1000
namespace Bls

/-! ## The flag byte -/

theorem UInt8.forall_of {p : UInt8 → Prop} (h : ∀ n : Fin 256, p (UInt8.ofNat n)) (b : UInt8) : p b := by
  have := h ⟨b.toNat, b.toNat_lt⟩
  rwa [show UInt8.ofNat b.toNat = b from UInt8.ofNat_toNat] at this

theorem byte_enc (s : Bool) : ∀ b : UInt8, b < 0x20 →
    ((if s then b ||| 0x20 else b) ||| 0x80) &&& 0x80 ≠ 0 ∧ ((if s then b ||| 0x20 else b) ||| 0x80) &&& 0x40 = 0 ∧
    ((((if s then b ||| 0x20 else b) ||| 0x80) &&& 0x20) != 0) = s ∧
    ((if s then b ||| 0x20 else b) ||| 0x80) &&& 0x1f = b := by
  apply UInt8.forall_of
  cases s <;> decide +kernel

theorem byte_dec : ∀ b : UInt8, b &&& 0x80 ≠ 0 → b &&& 0x40 = 0 →
    ((if (b &&& 0x20) != 0 then (b &&& 0x1f) ||| 0x20 else (b &&& 0x1f)) ||| 0x80) = b := by
  apply UInt8.forall_of
  decide +kernel

theorem byte_inf : ∀ b : UInt8, b &&& 0x80 ≠ 0 → b &&& 0x40 ≠ 0 → b &&& 0x3f = 0 → b = 0xc0 := by
  apply UInt8.forall_of
  decide +kernel

theorem byte_lt : ∀ b : UInt8, b &&& 0x1f < 0x20 := by
  apply UInt8.forall_of
  decide +kernel

/-- The encoding of a number below `q` leaves the three flag bits clear. -/
theorem top_byte_lt {b0 : UInt8} {t : List UInt8} (hl : t.length = 47) (h : beNat (b0 :: t) < q) : b0 < 0x20 := by
  rw [beNat_cons, hl] at h
  have hq : q < 0x20 * 256 ^ 47 := by rw [q]; decide +kernel
  by_contra hn
  have : 0x20 ≤ b0.toNat := by
    have := UInt8.not_lt.mp hn
    exact UInt8.le_iff_toNat_le.mp this
  have := Nat.mul_le_mul_right (256 ^ 47) this
  omega

theorem FQ.Rep.toRepr_lt {a : FQ} {x : Fq} (h : a.Rep x) : a.toRepr.toNat < q := h.int_lt

theorem FQ.ofRepr_toRepr {o : FQRepr} (h : o.toNat < q) : (FQ.ofRepr o).toRepr = o := by
  apply FQRepr.toNat_inj
  have := (FQ.ofRepr_rep h).int
  rw [FQ.int] at this
  rw [this, ZMod.val_natCast, Nat.mod_eq_of_lt h]

theorem FQ.Rep.ofRepr_toRepr {a : FQ} {x : Fq} (h : a.Rep x) : FQ.ofRepr a.toRepr = a := by
  have h1 := FQ.ofRepr_rep h.toRepr_lt
  have h2 : (a.toRepr.toNat : Fq) = x := (FQ.rep_iff_int.mp h).2
  rw [h2] at h1
  exact h1.inj h

/-- Every encoding denotes some element: those `≥ q` are read as 0. -/
theorem FQ.ofRepr_exists (o : FQRepr) : ∃ x : Fq, (FQ.ofRepr o).Rep x := by
  rcases Nat.lt_or_ge o.toNat q with h | h
  · exact ⟨_, FQ.ofRepr_rep h⟩
  · exact ⟨_, FQ.ofRepr_of_le h⟩

theorem exists_cons {l : List UInt8} {n : ℕ} (h : l.length = n + 1) : ∃ b0 t, l = b0 :: t ∧ t.length = n := by
  match l, h with
  | b0 :: t, h => exact ⟨b0, t, rfl, by simpa using h⟩

/-- Clearing the flags is reduction of the big-endian number. -/
theorem beNat_mask (b0 : UInt8) {t : List UInt8} (hl : t.length = 47) :
    beNat ((b0 &&& 0x1f) :: t) = beNat (b0 :: t) % 2 ^ 381 := by
  have h : ∀ b : UInt8, (b &&& 0x1f).toNat = b.toNat % 32 := by
    apply UInt8.forall_of
    decide +kernel
  have ht := beNat_lt t
  rw [beNat_cons, beNat_cons, h, hl]
  rw [hl] at ht
  have e : (2 : ℕ) ^ 381 = 32 * 256 ^ 47 := by decide +kernel
  rw [e]
  generalize (256 : ℕ) ^ 47 = K at *
  have h1 := Nat.div_add_mod b0.toNat 32
  have h2 : b0.toNat % 32 < 32 := Nat.mod_lt _ (by norm_num)
  have h3 : b0.toNat * K + beNat t = 32 * K * (b0.toNat / 32) + (b0.toNat % 32 * K + beNat t) := by
    conv_lhs => rw [← h1]
    ring
  rw [h3, Nat.mul_add_mod]
  refine (Nat.mod_eq_of_lt ?_).symm
  calc b0.toNat % 32 * K + beNat t < b0.toNat % 32 * K + K := by omega
    _ = (b0.toNat % 32 + 1) * K := by ring
    _ ≤ 32 * K := Nat.mul_le_mul_right K h2

/-- 4 is not a cube modulo q. -/
theorem Fq.four_noncube (t : Fq) : t ^ 3 ≠ 4 := by
  intro h
  have h2 : (2 : Fq) ≠ 0 := GoodCurve.two_ne (b := (4 : Fq))
  have h0 : t ≠ 0 := by
    rintro rfl
    apply mul_ne_zero h2 h2
    linear_combination -h
  have e : (t ^ 2 / 2) ^ 3 = 2 := by
    rw [div_pow, div_eq_iff (pow_ne_zero 3 h2)]
    linear_combination (t ^ 3 + 4) * h
  apply Fq.two_pow
  rw [← e, ← pow_mul, Nat.mul_div_cancel' (by have := q_mod3; have := q_gt3; omega)]
  exact ZMod.pow_card_sub_one_eq_one (div_ne_zero (pow_ne_zero 2 h0) h2)

/-- No point of the first curve has `y = 0`. -/
theorem E1.y_ne_zero {x : Fq} : (0 : Fq) ^ 2 ≠ x ^ 3 + 4 := by
  intro h
  apply Fq.four_noncube (-x)
  linear_combination h

/-- No point of the second curve has `y = 0`. -/
theorem E2.y_ne_zero {x : Fq2} : (0 : Fq2) ^ 2 ≠ x ^ 3 + b2 := by
  intro h
  have h2 : (2 : Fq) ≠ 0 := GoodCurve.two_ne (b := (4 : Fq))
  have e : (-x) ^ 3 = b2 := by linear_combination h
  have e2 := congrArg Fq2.nrm e
  rw [Fq2.nrm_pow] at e2
  have e3 : Fq2.nrm b2 = 32 := by rw [Fq2.nrm]; simp only [b2]; ring
  apply Fq.four_noncube (Fq2.nrm (-x) / 2)
  rw [div_pow, e2, e3, div_eq_iff (pow_ne_zero 3 h2)]
  norm_num

theorem ne_neg_self {F : Type*} [Field F] {b : F} [hb : GoodCurve b] {y : F} (h : y ≠ 0) : y ≠ -y := by
  intro e
  have : 2 * y = 0 := by linear_combination e
  exact (mul_ne_zero hb.two_ne h) this

/-! ## G1 -/

namespace G1Affine

theorem decompressUnchecked_cons (b0 : UInt8) (t : List UInt8) : decompressUnchecked (b0 :: t) =
    if b0 &&& 0x80 == 0 then none
    else if b0 &&& 0x40 != 0 then
      if ((b0 &&& 0x3f) :: t).any (· != 0) then none else some zero
    else getPointFromX (FQ.ofRepr (.fromBytes ((b0 &&& 0x1f) :: t))) (b0 &&& 0x20 != 0) := rfl

/-- The four outcomes of unchecked decompression. -/
theorem decompressUnchecked_spec {b0 : UInt8} {t : List UInt8} {a : G1Affine} :
    decompressUnchecked (b0 :: t) = some a ↔
      b0 &&& 0x80 ≠ 0 ∧
      ((b0 = 0xc0 ∧ (∀ x ∈ t, x = 0) ∧ a = zero) ∨
       (b0 &&& 0x40 = 0 ∧ getPointFromX (FQ.ofRepr (.fromBytes ((b0 &&& 0x1f) :: t))) (b0 &&& 0x20 != 0) = some a)) := by
  rw [decompressUnchecked_cons]
  by_cases h1 : b0 &&& 0x80 = 0
  · rw [if_pos (by simp [h1])]; simp [h1]
  rw [if_neg (by simp [h1])]
  by_cases h2 : b0 &&& 0x40 = 0
  · rw [if_neg (by simp [h2])]
    have : b0 ≠ 0xc0 := by rintro rfl; exact absurd h2 (by decide)
    simp [h1, h2, this]
  rw [if_pos (by simp [h2])]
  by_cases h3 : b0 = 0xc0
  · have h5 : b0 &&& 0x3f = 0 := by rw [h3]; decide
    by_cases h4 : ∀ x ∈ t, x = 0
    · rw [if_neg]
      · rw [Option.some.injEq]
        refine ⟨fun e => ⟨h1, Or.inl ⟨h3, h4, e.symm⟩⟩, ?_⟩
        rintro ⟨_, ⟨_, _, e⟩ | ⟨e, _⟩⟩
        · exact e.symm
        · exact absurd e h2
      · rw [h5]; simp; exact h4
    · rw [if_pos]
      · simp [h4, h2]
      · simp only [List.any_cons, Bool.or_eq_true, List.any_eq_true]
        right
        push Not at h4
        obtain ⟨x, hx, h⟩ := h4
        exact ⟨x, hx, by simp [h]⟩
  · have h4 : b0 &&& 0x3f ≠ 0 := fun h => h3 (byte_inf b0 h1 h2 h)
    rw [if_pos (by simp [h4])]
    simp [h1, h2, h3]

theorem decompressUnchecked_rep {b : List UInt8} (hl : b.length = 48) {a : G1Affine}
    (h : decompressUnchecked b = some a) : ∃ P : E1, a.Rep P := by
  match b, hl with
  | b0 :: t, _ =>
    obtain ⟨_, ⟨_, _, rfl⟩ | ⟨_, h⟩⟩ := decompressUnchecked_spec.mp h
    · exact ⟨0, .zero⟩
    · obtain ⟨x, hx⟩ := FQ.ofRepr_exists (.fromBytes ((b0 &&& 0x1f) :: t))
      obtain ⟨P, _, h⟩ := getPointFromX_rep hx h
      exact ⟨P, h⟩

theorem decompress_iff {b : List UInt8} {a : G1Affine} :
    decompress b = some a ↔ decompressUnchecked b = some a ∧ a.isInCorrectSubgroup = true := by
  unfold decompress
  cases decompressUnchecked b with
  | none => simp
  | some c =>
    dsimp only
    by_cases h : c.isInCorrectSubgroup = true
    · rw [h, Bool.not_true, if_neg Bool.false_ne_true, Option.some.injEq]
      constructor
      · rintro rfl; exact ⟨rfl, h⟩
      · rintro ⟨h, _⟩; exact h
    · rw [Bool.not_eq_true] at h
      rw [h, Bool.not_false, if_pos rfl, Option.some.injEq]
      constructor
      · intro e; cases e
      · rintro ⟨rfl, h'⟩
        rw [h'] at h; cases h

theorem compress_zero : compress zero = 0xc0 :: List.replicate 47 0 := rfl

theorem compress_finite {a : G1Affine} (h : a.infinity = false) {b0 : UInt8} {t : List UInt8}
    (e : a.x.toRepr.bytes = b0 :: t) :
    compress a = ((if decide (a.y.cmp a.y.neg > 0) = true then b0 ||| 0x20 else b0) ||| 0x80) :: t := by
  unfold compress isZero
  rw [h, e]
  simp only [Bool.false_eq_true, if_false, decide_eq_true_eq]
  split_ifs <;> rfl

theorem Rep.compress_length {a : G1Affine} {P : E1} (h : a.Rep P) : a.compress.length = 48 := by
  rcases h with ⟨rfl, rfl⟩ | ⟨h1, x, y, hx, hy, h⟩
  · rfl
  · obtain ⟨b0, t, e, hl⟩ := exists_cons a.x.toRepr.bytes_length
    rw [compress_finite h1 e, List.length_cons, hl]

/-- Round trip. -/
theorem Rep.decompressUnchecked_compress {a : G1Affine} {P : E1} (h : a.Rep P) :
    decompressUnchecked a.compress = some a := by
  rcases h.infinity_iff.not with hP
  have h0 := h
  rcases h with ⟨rfl, rfl⟩ | ⟨h1, x, y, hx, hy, h⟩
  · rw [compress_zero, decompressUnchecked_spec]
    exact ⟨by decide, Or.inl ⟨rfl, fun x hx => List.eq_of_mem_replicate hx, rfl⟩⟩
  · obtain ⟨b0, t, e, hl⟩ := exists_cons a.x.toRepr.bytes_length
    have hb : b0 < 0x20 := top_byte_lt hl (by rw [← e, FQRepr.beNat_bytes]; exact hx.toRepr_lt)
    obtain ⟨e1, e2, e3, e4⟩ := byte_enc (decide (a.y.cmp a.y.neg > 0)) b0 hb
    rw [compress_finite h1 e, decompressUnchecked_spec]
    refine ⟨e1, Or.inr ⟨e2, ?_⟩⟩
    rw [e3, e4, ← e, FQRepr.fromBytes_bytes, hx.ofRepr_toRepr]
    exact h0.getPointFromX (hP.mp (by rw [h1]; exact Bool.false_ne_true))

theorem Rep.decompress_compress {a : G1Affine} {P : E1} (h : a.Rep P) (hr : r • P = 0) :
    decompress a.compress = some a :=
  decompress_iff.mpr ⟨h.decompressUnchecked_compress, h.isInCorrectSubgroup.mpr hr⟩

/-- Canonicity, for encodings whose number is below `q`. -/
theorem compress_decompressUnchecked {b : List UInt8} (hl : b.length = 48) {a : G1Affine}
    (h : decompressUnchecked b = some a) (hx : beNat b % 2 ^ 381 < q) : compress a = b := by
  have hl' := hl; clear hl
  obtain ⟨b0, t, rfl, hl⟩ := exists_cons hl'
  rw [← beNat_mask b0 hl] at hx
  obtain ⟨h1, ⟨rfl, h2, rfl⟩ | ⟨h2, h⟩⟩ := decompressUnchecked_spec.mp h
  · rw [compress_zero, List.eq_replicate_of_mem h2, hl]
  · have hl' : ((b0 &&& 0x1f) :: t).length = 48 := by rw [List.length_cons, hl]
    have ho : (FQRepr.fromBytes ((b0 &&& 0x1f) :: t)).toNat < q := by rwa [FQRepr.fromBytes_toNat hl']
    obtain ⟨e1, e2, y, hy, e3, e4⟩ := getPointFromX_some (FQ.ofRepr_rep ho) h
    have hb : a.x.toRepr.bytes = (b0 &&& 0x1f) :: t := by
      rw [e1, FQ.ofRepr_toRepr ho, FQRepr.bytes_fromBytes hl']
    have hy0 : y ≠ 0 := by rintro rfl; exact E1.y_ne_zero e3
    have e5 := e4 (ne_neg_self (b := (4 : Fq)) hy0)
    have e6 : decide (a.y.cmp a.y.neg > 0) = (b0 &&& 0x20 != 0) := by
      rw [Bool.eq_iff_iff, decide_eq_true_iff, hy.cmp_gt hy.neg, e5]
    rw [compress_finite e2 hb, e6, byte_dec b0 h1 h2]

/-- A number that is not below `q` is read as 0, which never gives a point of order `r`. -/
theorem decompress_lt {b : List UInt8} (hl : b.length = 48) {a : G1Affine}
    (h : decompress b = some a) : beNat b % 2 ^ 381 < q := by
  obtain ⟨h, hs⟩ := decompress_iff.mp h
  obtain ⟨P, hP⟩ := decompressUnchecked_rep hl h
  rw [hP.isInCorrectSubgroup] at hs
  have hl' := hl; clear hl
  obtain ⟨b0, t, rfl, hl⟩ := exists_cons hl'
  rw [← beNat_mask b0 hl]
  obtain ⟨h1, ⟨rfl, h2, rfl⟩ | ⟨h2, h⟩⟩ := decompressUnchecked_spec.mp h
  · rw [List.eq_replicate_of_mem h2, hl, q_eq]
    decide +kernel
  · have hl' : ((b0 &&& 0x1f) :: t).length = 48 := by rw [List.length_cons, hl]
    rw [← FQRepr.fromBytes_toNat hl']
    by_contra hn
    have h0 := FQ.ofRepr_of_le (not_lt.mp hn)
    obtain ⟨e1, e2, y, hy, e3, _⟩ := getPointFromX_some h0 h
    have hat : IsAt P 0 y := by
      rcases hP with ⟨rfl, _⟩ | ⟨_, x', y', hx', hy', hP⟩
      · cases e2
      · rw [e1] at hx'
        rwa [h0.fn hx', hy.fn hy']
    have y0 : 2 * y ≠ 0 := by
      refine mul_ne_zero (GoodCurve.two_ne (b := (4 : Fq))) ?_
      rintro rfl; exact E1.y_ne_zero e3
    have hd : IsAt (P + P) 0 (-y) := hat.add_self (l := 0) hat y0 (by ring) (by ring) (by ring)
    have h3 : 3 • P = 0 := by
      rw [show 3 • P = P + (P + P) by abel]
      exact hat.add_neg hd
    have : P = 0 := by
      have hc : Nat.Coprime r 3 := by rw [r]; decide +kernel
      have h4 := (addOrderOf_dvd_iff_nsmul_eq_zero).mpr hs
      have h5 := (addOrderOf_dvd_iff_nsmul_eq_zero).mpr h3
      have := Nat.eq_one_of_dvd_coprimes hc h4 h5
      exact AddMonoid.addOrderOf_eq_one_iff.mp this
    exact hat.ne_zero this

end G1Affine

/-! ## G2 -/

namespace G2Affine

theorem decompressUnchecked_cons (b0 : UInt8) (t : List UInt8) : decompressUnchecked (b0 :: t) =
    if b0 &&& 0x80 == 0 then none
    else if b0 &&& 0x40 != 0 then
      if ((b0 &&& 0x3f) :: t).any (· != 0) then none else some zero
    else getPointFromX ⟨FQ.ofRepr (.fromBytes (slice ((b0 &&& 0x1f) :: t) 48 96)),
      FQ.ofRepr (.fromBytes (slice ((b0 &&& 0x1f) :: t) 0 48))⟩ (b0 &&& 0x20 != 0) := rfl

theorem slice_split (s t : List UInt8) (hs : s.length = 48) (ht : t.length = 48) :
    slice (s ++ t) 0 48 = s ∧ slice (s ++ t) 48 96 = t := by
  constructor
  · simp [slice, ← hs]
  · simp [slice, ← hs]; omega

/-- The four outcomes of unchecked decompression. -/
theorem decompressUnchecked_spec {b0 : UInt8} {s t : List UInt8} (hs : s.length = 47) (ht : t.length = 48) {a : G2Affine} :
    decompressUnchecked (b0 :: (s ++ t)) = some a ↔
      b0 &&& 0x80 ≠ 0 ∧
      ((b0 = 0xc0 ∧ (∀ x ∈ s ++ t, x = 0) ∧ a = zero) ∨
       (b0 &&& 0x40 = 0 ∧ getPointFromX ⟨FQ.ofRepr (.fromBytes t), FQ.ofRepr (.fromBytes ((b0 &&& 0x1f) :: s))⟩ (b0 &&& 0x20 != 0) = some a)) := by
  rw [decompressUnchecked_cons]
  have hc := slice_split ((b0 &&& 0x1f) :: s) t (by rw [List.length_cons, hs]) ht
  rw [List.cons_append] at hc
  rw [hc.1, hc.2]
  generalize s ++ t = l at *
  by_cases h1 : b0 &&& 0x80 = 0
  · rw [if_pos (by simp [h1])]; simp [h1]
  rw [if_neg (by simp [h1])]
  by_cases h2 : b0 &&& 0x40 = 0
  · rw [if_neg (by simp [h2])]
    have : b0 ≠ 0xc0 := by rintro rfl; exact absurd h2 (by decide)
    simp [h1, h2, this]
  rw [if_pos (by simp [h2])]
  by_cases h3 : b0 = 0xc0
  · have h5 : b0 &&& 0x3f = 0 := by rw [h3]; decide
    by_cases h4 : ∀ x ∈ l, x = 0
    · rw [if_neg]
      · rw [Option.some.injEq]
        refine ⟨fun e => ⟨h1, Or.inl ⟨h3, h4, e.symm⟩⟩, ?_⟩
        rintro ⟨_, ⟨_, _, e⟩ | ⟨e, _⟩⟩
        · exact e.symm
        · exact absurd e h2
      · rw [h5]; simp; exact h4
    · rw [if_pos]
      · simp [h4, h2]
      · simp only [List.any_cons, Bool.or_eq_true, List.any_eq_true]
        right
        push Not at h4
        obtain ⟨x, hx, h⟩ := h4
        exact ⟨x, hx, by simp [h]⟩
  · have h4 : b0 &&& 0x3f ≠ 0 := fun h => h3 (byte_inf b0 h1 h2 h)
    rw [if_pos (by simp [h4])]
    simp [h1, h2, h3]

/-- A 96-byte string is a flag byte, 47 bytes and 48 bytes. -/
theorem split96 {b : List UInt8} (h : b.length = 96) :
    ∃ b0 s t, b = b0 :: (s ++ t) ∧ s.length = 47 ∧ t.length = 48 := by
  obtain ⟨b0, l, rfl, hl⟩ := exists_cons h
  exact ⟨b0, l.take 47, l.drop 47, by rw [List.take_append_drop], by simp [hl], by simp [hl]⟩

theorem ofRepr_exists2 (o1 o2 : FQRepr) : ∃ x : Fq2, (⟨FQ.ofRepr o1, FQ.ofRepr o2⟩ : FQ2).Rep x := by
  obtain ⟨x, hx⟩ := FQ.ofRepr_exists o1
  obtain ⟨y, hy⟩ := FQ.ofRepr_exists o2
  exact ⟨⟨x, y⟩, hx, hy⟩

theorem decompressUnchecked_rep {b : List UInt8} (hl : b.length = 96) {a : G2Affine}
    (h : decompressUnchecked b = some a) : ∃ P : E2, a.Rep P := by
  obtain ⟨b0, s, t, rfl, hs, ht⟩ := split96 hl
  obtain ⟨_, ⟨_, _, rfl⟩ | ⟨_, h⟩⟩ := (decompressUnchecked_spec hs ht).mp h
  · exact ⟨0, .zero⟩
  · obtain ⟨x, hx⟩ := ofRepr_exists2 (.fromBytes t) (.fromBytes ((b0 &&& 0x1f) :: s))
    obtain ⟨P, _, h⟩ := getPointFromX_rep hx h
    exact ⟨P, h⟩

theorem decompress_iff {b : List UInt8} {a : G2Affine} :
    decompress b = some a ↔ decompressUnchecked b = some a ∧ a.isInCorrectSubgroup = true := by
  unfold decompress
  cases decompressUnchecked b with
  | none => simp
  | some c =>
    dsimp only
    by_cases h : c.isInCorrectSubgroup = true
    · rw [h, Bool.not_true, if_neg Bool.false_ne_true, Option.some.injEq]
      constructor
      · rintro rfl; exact ⟨rfl, h⟩
      · rintro ⟨h, _⟩; exact h
    · rw [Bool.not_eq_true] at h
      rw [h, Bool.not_false, if_pos rfl, Option.some.injEq]
      constructor
      · intro e; cases e
      · rintro ⟨rfl, h'⟩
        rw [h'] at h; cases h

theorem compress_zero : compress zero = 0xc0 :: (List.replicate 47 0 ++ List.replicate 48 0) := rfl

theorem compress_finite {a : G2Affine} (h : a.infinity = false) {b0 : UInt8} {s : List UInt8}
    (e : a.x.c1.toRepr.bytes = b0 :: s) :
    compress a = ((if decide (a.y.cmp a.y.neg > 0) = true then b0 ||| 0x20 else b0) ||| 0x80) ::
      (s ++ a.x.c0.toRepr.bytes) := by
  unfold compress isZero
  rw [h, e]
  simp only [Bool.false_eq_true, if_false, decide_eq_true_eq]
  split_ifs <;> rfl

theorem Rep.compress_length {a : G2Affine} {P : E2} (h : a.Rep P) : a.compress.length = 96 := by
  rcases h with ⟨rfl, rfl⟩ | ⟨h1, x, y, hx, hy, h⟩
  · rfl
  · obtain ⟨b0, t, e, hl⟩ := exists_cons a.x.c1.toRepr.bytes_length
    rw [compress_finite h1 e, List.length_cons, List.length_append, hl, FQRepr.bytes_length]

/-- Round trip. -/
theorem Rep.decompressUnchecked_compress {a : G2Affine} {P : E2} (h : a.Rep P) :
    decompressUnchecked a.compress = some a := by
  rcases h.infinity_iff.not with hP
  have h0 := h
  rcases h with ⟨rfl, rfl⟩ | ⟨h1, x, y, hx, hy, h⟩
  · rw [compress_zero, decompressUnchecked_spec (by simp) (by simp)]
    refine ⟨by decide, Or.inl ⟨rfl, fun x hx => ?_, rfl⟩⟩
    rcases List.mem_append.mp hx with hx | hx <;> exact List.eq_of_mem_replicate hx
  · obtain ⟨b0, t, e, hl⟩ := exists_cons a.x.c1.toRepr.bytes_length
    have hb : b0 < 0x20 := top_byte_lt hl (by rw [← e, FQRepr.beNat_bytes]; exact hx.c1.toRepr_lt)
    obtain ⟨e1, e2, e3, e4⟩ := byte_enc (decide (a.y.cmp a.y.neg > 0)) b0 hb
    rw [compress_finite h1 e, decompressUnchecked_spec hl (FQRepr.bytes_length _)]
    refine ⟨e1, Or.inr ⟨e2, ?_⟩⟩
    rw [e3, e4, ← e, FQRepr.fromBytes_bytes, FQRepr.fromBytes_bytes, hx.c0.ofRepr_toRepr, hx.c1.ofRepr_toRepr]
    exact h0.getPointFromX (hP.mp (by rw [h1]; exact Bool.false_ne_true))

theorem Rep.decompress_compress {a : G2Affine} {P : E2} (h : a.Rep P) (hr : r • P = 0) :
    decompress a.compress = some a :=
  decompress_iff.mpr ⟨h.decompressUnchecked_compress, h.isInCorrectSubgroup.mpr hr⟩

/-- Canonicity, for encodings whose two numbers are below `q`. -/
theorem compress_decompressUnchecked {b : List UInt8} (hl : b.length = 96) {a : G2Affine}
    (h : decompressUnchecked b = some a) (hx : beNat (b.take 48) % 2 ^ 381 < q) (hx' : beNat (b.drop 48) < q) :
    compress a = b := by
  obtain ⟨b0, s, t, rfl, hs, ht⟩ := split96 hl
  have es : (b0 :: (s ++ t)).take 48 = b0 :: s := by simp [← hs]
  have et : (b0 :: (s ++ t)).drop 48 = t := by simp [← hs]
  rw [es, ← beNat_mask b0 hs] at hx
  rw [et] at hx'
  obtain ⟨h1, ⟨rfl, h2, rfl⟩ | ⟨h2, h⟩⟩ := (decompressUnchecked_spec hs ht).mp h
  · rw [compress_zero]
    have hs' := List.eq_replicate_of_mem (a := (0 : UInt8)) (l := s) (fun x hx => h2 x (List.mem_append_left _ hx))
    have ht' := List.eq_replicate_of_mem (a := (0 : UInt8)) (l := t) (fun x hx => h2 x (List.mem_append_right _ hx))
    rw [hs', ht', hs, ht]
  · have hl' : ((b0 &&& 0x1f) :: s).length = 48 := by rw [List.length_cons, hs]
    have ho : (FQRepr.fromBytes ((b0 &&& 0x1f) :: s)).toNat < q := by rwa [FQRepr.fromBytes_toNat hl']
    have ho' : (FQRepr.fromBytes t).toNat < q := by rwa [FQRepr.fromBytes_toNat ht]
    obtain ⟨e1, e2, y, hy, e3, e4⟩ := getPointFromX_some (x := ⟨_, _⟩) ⟨FQ.ofRepr_rep ho', FQ.ofRepr_rep ho⟩ h
    have hb : a.x.c1.toRepr.bytes = (b0 &&& 0x1f) :: s := by
      rw [e1, FQ.ofRepr_toRepr ho, FQRepr.bytes_fromBytes hl']
    have hb' : a.x.c0.toRepr.bytes = t := by
      rw [e1, FQ.ofRepr_toRepr ho', FQRepr.bytes_fromBytes ht]
    have hy0 : y ≠ 0 := by rintro rfl; exact E2.y_ne_zero e3
    have e5 := e4 (ne_neg_self (b := b2) hy0)
    have e6 : decide (a.y.cmp a.y.neg > 0) = (b0 &&& 0x20 != 0) := by
      rw [Bool.eq_iff_iff, decide_eq_true_iff, hy.cmp_gt hy.neg, e5]
    rw [compress_finite e2 hb, e6, byte_dec b0 h1 h2, hb']

end G2Affine

end Bls
