import Verif.Model.Strings
import Verif.Spec.Strings
import Verif.Proof.Denote
import Verif.Proof.G2
import Verif.Spec.Keys
/-
The printed forms.
-/
set_option exponentiation.threshold 1000
namespace Bls

theorem IsHex.append {s t : List Char} {m n : ℕ} (hs : IsHex s m) (ht : IsHex t n) :
    IsHex (s ++ t) (m * 16 ^ t.length + n) := by
  obtain ⟨a, ha, rfl⟩ := hs
  obtain ⟨b, hb, rfl⟩ := ht
  refine ⟨a ++ b, by rw [List.map_append, List.map_append, ha, hb], ?_⟩
  have e : t.length = b.length := by simpa using congrArg List.length hb
  rw [List.reverse_append, Nat.ofDigits_append, List.length_reverse, e]
  ring

theorem hexChar_get : ∀ d < 16, hexAlphabet[d]? = some (hexChar d) := by decide

theorem hexDigits_length (k n : Nat) : (hexDigits k n).length = k := by
  induction k generalizing n with
  | zero => rfl
  | succ k ih => rw [hexDigits, List.length_append, ih]; rfl

theorem hexDigits_isHex (k n : Nat) : IsHex (hexDigits k n) (n % 16 ^ k) := by
  induction k generalizing n with
  | zero => exact ⟨[], rfl, by rw [pow_zero, Nat.mod_one]; rfl⟩
  | succ k ih =>
    rw [hexDigits]
    have h1 : IsHex [hexChar (n % 16)] (n % 16) :=
      ⟨[n % 16], by rw [List.map_singleton, List.map_singleton, hexChar_get _ (Nat.mod_lt _ (by norm_num))],
        by simp⟩
    have := (ih (n / 16)).append h1
    rw [List.length_singleton, pow_one] at this
    convert this using 1
    rw [pow_succ, mul_comm (16 ^ k) 16, Nat.mod_mul]
    ring

theorem hex16_length (w : W) : (hex16 w).length = 16 := hexDigits_length _ _

theorem hex16_isHex (w : W) : IsHex (hex16 w) w.toNat := by
  have := hexDigits_isHex 16 w.toNat
  rwa [Nat.mod_eq_of_lt (lt_of_lt_of_eq w.toNat_lt (by norm_num))] at this

theorem FQRepr.string_length (f : FQRepr) : f.string.length = 96 := by
  simp only [FQRepr.string, List.length_append, hex16_length]

theorem FRRepr.string_length (f : FRRepr) : f.string.length = 64 := by
  simp only [FRRepr.string, List.length_append, hex16_length]

theorem FQRepr.string_isHex (f : FQRepr) : IsHex f.string f.toNat := by
  unfold FQRepr.string
  have h := (((((hex16_isHex f.l5).append (hex16_isHex f.l4)).append (hex16_isHex f.l3)).append
    (hex16_isHex f.l2)).append (hex16_isHex f.l1)).append (hex16_isHex f.l0)
  simp only [hex16_length] at h
  convert h using 1
  unfold FQRepr.toNat
  ring

theorem FRRepr.string_isHex (f : FRRepr) : IsHex f.string f.toNat := by
  unfold FRRepr.string
  have h := (((hex16_isHex f.l3).append (hex16_isHex f.l2)).append (hex16_isHex f.l1)).append (hex16_isHex f.l0)
  simp only [hex16_length] at h
  convert h using 1
  unfold FRRepr.toNat
  ring

theorem hexAlphabet_inj : ∀ {a b : ℕ} {c : Char}, hexAlphabet[a]? = some c → hexAlphabet[b]? = some c → a = b := by
  intro a b c ha hb
  have h : hexAlphabet.Nodup := by decide
  exact (List.getElem?_inj (List.getElem?_eq_some_iff.mp ha).1 h).mp (ha.trans hb.symm)

theorem IsHex.fn {s : List Char} {m n : ℕ} (hs : IsHex s m) (ht : IsHex s n) : m = n := by
  obtain ⟨a, ha, rfl⟩ := hs
  obtain ⟨b, hb, rfl⟩ := ht
  suffices a = b by rw [this]
  induction s generalizing a b with
  | nil => 
    rw [List.map_nil] at ha hb
    rw [List.map_eq_nil_iff.mp ha.symm, List.map_eq_nil_iff.mp hb.symm]
  | cons c s ih =>
    cases a with
    | nil => cases ha
    | cons x a =>
      cases b with
      | nil => cases hb
      | cons y b =>
        rw [List.map_cons, List.map_cons, List.cons.injEq] at ha hb
        rw [hexAlphabet_inj ha.1.symm hb.1.symm, ih a ha.2 b hb.2]

/-! ### Field elements -/

theorem FQ.string_text (a : FQ) : FqText a.int a.string :=
  ⟨_, rfl, a.toRepr.string_length, a.toRepr.string_isHex⟩

theorem FR.string_text (a : FR) : FrText a.int a.string :=
  ⟨_, rfl, a.toRepr.string_length, a.toRepr.string_isHex⟩

theorem wrap_inj {p d e d' e' : List Char} (h : p ++ d ++ e = p ++ d' ++ e') (hl : d.length = d'.length) :
    d = d' ∧ e = e' := by
  rw [List.append_assoc, List.append_assoc] at h
  exact List.append_inj (List.append_cancel_left h) hl

theorem FqText.fn {m n : ℕ} {s : List Char} (h : FqText m s) (h' : FqText n s) : m = n := by
  obtain ⟨d, rfl, l, x⟩ := h
  obtain ⟨d', e, l', x'⟩ := h'
  rw [← (wrap_inj e (l.trans l'.symm)).1] at x'
  exact x.fn x'

theorem FrText.fn {m n : ℕ} {s : List Char} (h : FrText m s) (h' : FrText n s) : m = n := by
  obtain ⟨d, rfl, l, x⟩ := h
  obtain ⟨d', e, l', x'⟩ := h'
  rw [← (wrap_inj e (l.trans l'.symm)).1] at x'
  exact x.fn x'

theorem FQ.string_length (a : FQ) : a.string.length = 102 := by
  simp only [FQ.string, List.length_append, FQRepr.string_length]; rfl

theorem FQ.int_inj {a b : FQ} (ha : a.isValid = true) (hb : b.isValid = true) (h : a.int = b.int) : a = b :=
  (FQ.rep_int ha).inj (h ▸ FQ.rep_int hb)

theorem FR.int_inj {a b : FR} (ha : a.isValid = true) (hb : b.isValid = true) (h : a.int = b.int) : a = b :=
  (FR.rep_int ha).inj (h ▸ FR.rep_int hb)

attribute [local irreducible] FQ.string FR.string FQ2.string FQ6.string FQ12.string

theorem FQ.string_inj {a b : FQ} (ha : a.isValid = true) (hb : b.isValid = true) (h : a.string = b.string) : a = b := by
  have h1 := FQ.string_text a
  rw [h] at h1
  exact FQ.int_inj ha hb (h1.fn (FQ.string_text b))

theorem FR.string_inj {a b : FR} (ha : a.isValid = true) (hb : b.isValid = true) (h : a.string = b.string) : a = b := by
  have h1 := FR.string_text a
  rw [h] at h1
  exact FR.int_inj ha hb (h1.fn (FR.string_text b))

theorem part_inj {p d e d' e' : List Char} (h : p ++ (d ++ e) = p ++ (d' ++ e')) (hl : d.length = d'.length) :
    d = d' ∧ e = e' := List.append_inj (List.append_cancel_left h) hl

/-- Strings with the same frame around parts of the same length are equal only if the parts are. -/
theorem frame3 {p m n e d0 d1 d2 d0' d1' d2' : List Char}
    (h : p ++ d0 ++ m ++ d1 ++ n ++ d2 ++ e = p ++ d0' ++ m ++ d1' ++ n ++ d2' ++ e) (h0 : d0.length = d0'.length)
    (h1 : d1.length = d1'.length) (h2 : d2.length = d2'.length) : d0 = d0' ∧ d1 = d1' ∧ d2 = d2' := by
  simp only [List.append_assoc] at h
  obtain ⟨a, h⟩ := part_inj h h0
  obtain ⟨b, h⟩ := part_inj h h1
  obtain ⟨c, h⟩ := part_inj h h2
  exact ⟨a, b, c⟩

theorem frame2 {p m e d0 d1 d0' d1' : List Char}
    (h : p ++ d0 ++ m ++ d1 ++ e = p ++ d0' ++ m ++ d1' ++ e) (h0 : d0.length = d0'.length)
    (h1 : d1.length = d1'.length) : d0 = d0' ∧ d1 = d1' := by
  simp only [List.append_assoc] at h
  obtain ⟨a, h⟩ := part_inj h h0
  obtain ⟨b, h⟩ := part_inj h h1
  exact ⟨a, b⟩

theorem lit5 : "Fq2(".toList.length = 4 := rfl
theorem lit6 : " + ".toList.length = 3 := rfl
theorem lit7 : " * u)".toList.length = 5 := rfl

theorem FQ2.string_length (a : FQ2) : a.string.length = 216 := by
  unfold FQ2.string
  rw [List.length_append, List.length_append, List.length_append, List.length_append, FQ.string_length,
    FQ.string_length, lit5, lit6, lit7]

theorem FQ2.string_inj {a b : FQ2} (ha : a.isValid = true) (hb : b.isValid = true) (h : a.string = b.string) :
    a = b := by
  rw [FQ2.isValid, Bool.and_eq_true] at ha hb
  unfold FQ2.string at h
  obtain ⟨h0, h1⟩ := frame2 h (by rw [FQ.string_length, FQ.string_length]) (by rw [FQ.string_length, FQ.string_length])
  exact FQ2.ext (FQ.string_inj ha.1 hb.1 h0) (FQ.string_inj ha.2 hb.2 h1)

theorem lit1 : "Fq6(".toList.length = 4 := rfl
theorem lit3 : "*v + ".toList.length = 5 := rfl
theorem lit4 : "*v^2)".toList.length = 5 := rfl

theorem FQ6.string_length (a : FQ6) : a.string.length = 665 := by
  unfold FQ6.string
  rw [List.length_append, List.length_append, List.length_append, List.length_append, List.length_append,
    List.length_append, FQ2.string_length, FQ2.string_length, FQ2.string_length, lit1, lit6, lit3, lit4]

theorem FQ6.string_inj {a b : FQ6} (ha : a.isValid = true) (hb : b.isValid = true) (h : a.string = b.string) :
    a = b := by
  rw [FQ6.isValid, Bool.and_eq_true, Bool.and_eq_true] at ha hb
  unfold FQ6.string at h
  obtain ⟨h0, h1, h2⟩ := frame3 h (by rw [FQ2.string_length, FQ2.string_length])
    (by rw [FQ2.string_length, FQ2.string_length]) (by rw [FQ2.string_length, FQ2.string_length])
  exact FQ6.ext (FQ2.string_inj ha.1.1 hb.1.1 h0) (FQ2.string_inj ha.1.2 hb.1.2 h1) (FQ2.string_inj ha.2 hb.2 h2)

theorem FQ12.string_inj {a b : FQ12} (ha : a.isValid = true) (hb : b.isValid = true) (h : a.string = b.string) :
    a = b := by
  rw [FQ12.isValid, Bool.and_eq_true] at ha hb
  unfold FQ12.string at h
  obtain ⟨h0, h1⟩ := frame2 h (by rw [FQ6.string_length, FQ6.string_length])
    (by rw [FQ6.string_length, FQ6.string_length])
  exact FQ12.ext (FQ6.string_inj ha.1 hb.1 h0) (FQ6.string_inj ha.2 hb.2 h1)

/-! ### Points -/

theorem G1Projective.Rep.string_zero {g : G1Projective} (h : g.Rep 0) : g.string = "G1: Infinity".toList := by
  rw [G1Projective.string, if_pos (h.isZero.mpr rfl)]

theorem G1Projective.Rep.string_at {g : G1Projective} {P : E1} {x y : Fq} (h : g.Rep P) (hp : IsAt P x y) :
    ∃ sx sy, FqText x.val sx ∧ FqText y.val sy ∧ g.string = "G1(x=".toList ++ sx ++ ", y=".toList ++ sy ++ ")".toList := by
  have h0 : P ≠ 0 := hp.ne_zero
  rw [G1Projective.string, if_neg (fun e => h0 (h.isZero.mp e))]
  rcases h.toAffine with ⟨-, e⟩ | ⟨e, x', y', hx, hy, hp'⟩
  · exact absurd e h0
  · obtain ⟨rfl, rfl⟩ := hp.coord hp'
    refine ⟨_, _, ?_, ?_, by rw [G1Affine.string, e]; exact if_neg Bool.false_ne_true⟩
    · rw [← hx.int]; exact FQ.string_text _
    · rw [← hy.int]; exact FQ.string_text _

theorem G2Projective.Rep.string_zero {g : G2Projective} (h : g.Rep 0) : g.string = "G2: Infinity".toList := by
  rw [G2Projective.string, if_pos (h.isZero.mpr rfl)]

theorem FQ2.Rep.string_text {a : FQ2} {x : Fq2} (h : a.Rep x) : Fq2Text x.c0.val x.c1.val a.string := by
  refine ⟨_, _, ?_, ?_, by unfold FQ2.string; rfl⟩
  · rw [← h.c0.int]; exact FQ.string_text _
  · rw [← h.c1.int]; exact FQ.string_text _

theorem G2Projective.Rep.string_at {g : G2Projective} {P : E2} {x y : Fq2} (h : g.Rep P) (hp : IsAt P x y) :
    ∃ sx sy, Fq2Text x.c0.val x.c1.val sx ∧ Fq2Text y.c0.val y.c1.val sy ∧
      g.string = "G2(x=".toList ++ sx ++ ", y=".toList ++ sy ++ ")".toList := by
  have h0 : P ≠ 0 := hp.ne_zero
  rw [G2Projective.string, if_neg (fun e => h0 (h.isZero.mp e))]
  rcases h.toAffine with ⟨-, e⟩ | ⟨e, x', y', hx, hy, hp'⟩
  · exact absurd e h0
  · obtain ⟨rfl, rfl⟩ := hp.coord hp'
    exact ⟨_, _, hx.string_text, hy.string_text, by rw [G2Affine.string, e]; exact if_neg Bool.false_ne_true⟩

theorem lit8 : "Fq(0x".toList.length = 5 := rfl
theorem lit9 : ")".toList.length = 1 := rfl
theorem lit10 : "G1(x=".toList.length = 5 := rfl
theorem lit11 : "G1: Infinity".toList.length = 12 := rfl
theorem lit12 : "G2(x=".toList.length = 5 := rfl
theorem lit13 : "G2: Infinity".toList.length = 12 := rfl

theorem FqText.length {n : ℕ} {s : List Char} (h : FqText n s) : s.length = 102 := by
  obtain ⟨d, rfl, l, -⟩ := h
  rw [List.length_append, List.length_append, l, lit8, lit9]

theorem Fq2Text.length {n m : ℕ} {s : List Char} (h : Fq2Text n m s) : s.length = 216 := by
  obtain ⟨s0, s1, h0, h1, rfl⟩ := h
  rw [List.length_append, List.length_append, List.length_append, List.length_append, h0.length, h1.length, lit5, lit6,
    lit7]

theorem Fq2Text.fn {n m n' m' : ℕ} {s : List Char} (h : Fq2Text n m s) (h' : Fq2Text n' m' s) : n = n' ∧ m = m' := by
  obtain ⟨s0, s1, h0, h1, rfl⟩ := h
  obtain ⟨s0', s1', h0', h1', e⟩ := h'
  obtain ⟨rfl, rfl⟩ := frame2 e (h0.length.trans h0'.length.symm) (h1.length.trans h1'.length.symm)
  exact ⟨h0.fn h0', h1.fn h1'⟩

theorem Fq2.ext_val {x y : Fq2} (h : x.c0.val = y.c0.val ∧ x.c1.val = y.c1.val) : x = y :=
  Fq2.ext (ZMod.val_injective q h.1) (ZMod.val_injective q h.2)

theorem G1Projective.Rep.string_iff {g k : G1Projective} {P Q : E1} (h : g.Rep P) (h' : k.Rep Q) :
    g.string = k.string ↔ P = Q := by
  constructor
  · intro e
    rcases zero_or_isAt P with rfl | ⟨x, y, hp⟩ <;> rcases zero_or_isAt Q with rfl | ⟨x', y', hq⟩
    · rfl
    · obtain ⟨sx, sy, tx, ty, e'⟩ := h'.string_at hq
      rw [h.string_zero, e'] at e
      have := congrArg List.length e
      rw [List.length_append, List.length_append, List.length_append, List.length_append, tx.length, ty.length, lit10,
        lit11] at this
      omega
    · obtain ⟨sx, sy, tx, ty, e'⟩ := h.string_at hp
      rw [h'.string_zero, e'] at e
      have := congrArg List.length e
      rw [List.length_append, List.length_append, List.length_append, List.length_append, tx.length, ty.length, lit10,
        lit11] at this
      omega
    · obtain ⟨sx, sy, tx, ty, e1⟩ := h.string_at hp
      obtain ⟨sx', sy', tx', ty', e2⟩ := h'.string_at hq
      rw [e1, e2] at e
      obtain ⟨rfl, rfl⟩ := frame2 e (tx.length.trans tx'.length.symm) (ty.length.trans ty'.length.symm)
      have ex : x = x' := ZMod.val_injective q (tx.fn tx')
      have ey : y = y' := ZMod.val_injective q (ty.fn ty')
      subst ex ey
      exact hp.inj hq
  · rintro rfl
    have hz : g.isZero = k.isZero := Bool.eq_iff_iff.mpr (h.isZero.trans h'.isZero.symm)
    rw [G1Projective.string, G1Projective.string, h.toAffine.inj h'.toAffine, hz]

theorem G2Projective.Rep.string_iff {g k : G2Projective} {P Q : E2} (h : g.Rep P) (h' : k.Rep Q) :
    g.string = k.string ↔ P = Q := by
  constructor
  · intro e
    rcases zero_or_isAt P with rfl | ⟨x, y, hp⟩ <;> rcases zero_or_isAt Q with rfl | ⟨x', y', hq⟩
    · rfl
    · obtain ⟨sx, sy, tx, ty, e'⟩ := h'.string_at hq
      rw [h.string_zero, e'] at e
      have := congrArg List.length e
      rw [List.length_append, List.length_append, List.length_append, List.length_append, tx.length, ty.length, lit12,
        lit13] at this
      omega
    · obtain ⟨sx, sy, tx, ty, e'⟩ := h.string_at hp
      rw [h'.string_zero, e'] at e
      have := congrArg List.length e
      rw [List.length_append, List.length_append, List.length_append, List.length_append, tx.length, ty.length, lit12,
        lit13] at this
      omega
    · obtain ⟨sx, sy, tx, ty, e1⟩ := h.string_at hp
      obtain ⟨sx', sy', tx', ty', e2⟩ := h'.string_at hq
      rw [e1, e2] at e
      obtain ⟨rfl, rfl⟩ := frame2 e (tx.length.trans tx'.length.symm) (ty.length.trans ty'.length.symm)
      have ex : x = x' := Fq2.ext_val (tx.fn tx')
      have ey : y = y' := Fq2.ext_val (ty.fn ty')
      subst ex ey
      exact hp.inj hq
  · rintro rfl
    have hz : g.isZero = k.isZero := Bool.eq_iff_iff.mpr (h.isZero.trans h'.isZero.symm)
    rw [G2Projective.string, G2Projective.string, h.toAffine.inj h'.toAffine, hz]

end Bls
