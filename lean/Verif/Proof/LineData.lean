import Verif.Proof.Cocycle
import Mathlib.Tactic.FieldSimp
/-
Explicit data of the line through two points of `y² = x³ + b`, and the maps
`(x, y) ↦ (α f(x), β f(y))` between such curves.
-/
namespace Bls
open WeierstrassCurve WeierstrassCurve.Affine

variable {F : Type*} [Field F] [DecidableEq F] {b : F}

/-- `y = l x + m` is the line through `P` and `Q`, and meets the curve at `x₁`, `x₂`, `x₃`. -/
structure LD (P Q : (curve b).Point) (l m x₁ x₂ x₃ : F) : Prop where
  at1 : IsAt P x₁ (l * x₁ + m)
  at2 : IsAt Q x₂ (l * x₂ + m)
  at3 : IsAt (P + Q) x₃ (-(l * x₃ + m))
  e1 : x₁ + x₂ + x₃ = l ^ 2
  e2 : x₁ * x₂ + x₁ * x₃ + x₂ * x₃ = -2 * l * m
  e3 : x₁ * x₂ * x₃ = m ^ 2 - b

theorem IsAt.eq_or_neg {P Q : (curve b).Point} {x y y' : F} (h : IsAt P x y) (h' : IsAt Q x y') :
    P = Q ∨ P + Q = 0 := by
  have : (y - y') * (y + y') = 0 := by linear_combination h.on - h'.on
  rcases mul_eq_zero.mp this with e | e
  · left; rw [sub_eq_zero.mp e] at h; exact h.inj h'
  · right; rw [eq_neg_of_add_eq_zero_right e] at h'; exact h.add_neg h'

theorem IsAt.two_y_ne [GoodCurve b] {P : (curve b).Point} {x y : F} (h : IsAt P x y) (h2 : P + P ≠ 0) : 2 * y ≠ 0 := by
  intro e
  rcases mul_eq_zero.mp e with e | e
  · exact GoodCurve.two_ne b e
  · apply h2; refine h.add_neg ?_; rw [e, neg_zero]; rwa [e] at h

theorem LD.exists [GoodCurve b] {P Q : (curve b).Point} (hP : P ≠ 0) (hQ : Q ≠ 0) (hPQ : P + Q ≠ 0) :
    ∃ l m x₁ x₂ x₃, LD P Q l m x₁ x₂ x₃ := by
  obtain ⟨x₁, y₁, h₁⟩ := (zero_or_isAt P).resolve_left hP
  obtain ⟨x₂, y₂, h₂⟩ := (zero_or_isAt Q).resolve_left hQ
  by_cases hx : x₁ = x₂
  · subst hx
    have e := (h₁.eq_or_neg h₂).resolve_right hPQ
    subst e
    have hy := h₁.two_y_ne hPQ
    have hl : 3 * x₁ ^ 2 / (2 * y₁) * (2 * y₁) = 3 * x₁ ^ 2 := div_mul_cancel₀ _ hy
    generalize 3 * x₁ ^ 2 / (2 * y₁) = l at hl
    have h₃ := h₁.add_self h₁ hy hl rfl rfl
    have on := h₁.on
    refine ⟨l, y₁ - l * x₁, x₁, x₁, l ^ 2 - x₁ - x₁, ?_, ?_, ?_, ?_, ?_, ?_⟩
    · convert h₁ using 1; ring
    · convert h₁ using 1; ring
    · convert h₃ using 1; ring
    · ring
    · linear_combination hl
    · linear_combination -on + x₁ * hl
  · have hl : (y₁ - y₂) / (x₁ - x₂) * (x₁ - x₂) = y₁ - y₂ := div_mul_cancel₀ _ (sub_ne_zero.mpr hx)
    generalize (y₁ - y₂) / (x₁ - x₂) = l at hl
    have h₃ := h₁.add_of_X_ne h₂ hx hl rfl rfl
    have on₁ := h₁.on
    have on₂ := h₂.on
    have k2 : x₁ ^ 2 + x₁ * x₂ + x₂ ^ 2 = l * (y₁ + y₂) := by
      apply mul_left_cancel₀ (sub_ne_zero.mpr hx)
      linear_combination on₂ - on₁ - (y₁ + y₂) * hl
    have hy2 : y₂ = l * x₂ + (y₁ - l * x₁) := by linear_combination hl
    refine ⟨l, y₁ - l * x₁, x₁, x₂, l ^ 2 - x₁ - x₂, ?_, ?_, ?_, ?_, ?_, ?_⟩
    · convert h₁ using 1; ring
    · convert h₂ using 1; exact hy2.symm
    · convert h₃ using 1; ring
    · ring
    · linear_combination -k2 - l * hl
    · linear_combination -on₁ - x₁ * k2 - l * x₁ * hl

theorem LD.tangent {P : (curve b).Point} {l m x₁ x₂ x₃ : F} (h : LD P P l m x₁ x₂ x₃) :
    2 * (l * x₁ + m) * l = 3 * x₁ ^ 2 := by
  have e := (h.at1.coord h.at2).1
  have h1 := h.e1
  have h2 := h.e2
  rw [← e] at h1 h2
  linear_combination h2 - 2 * x₁ * h1

/-- The coordinates of the sum are determined by the line. -/
theorem LD.mk' {P Q : (curve b).Point} {l m x₁ x₂ x₃ : F} [GoodCurve b] (h1 : IsAt P x₁ (l * x₁ + m)) (h2 : IsAt Q x₂ (l * x₂ + m))
    (hPQ : P + Q ≠ 0)
    (e1 : x₁ + x₂ + x₃ = l ^ 2) (e2 : x₁ * x₂ + x₁ * x₃ + x₂ * x₃ = -2 * l * m) (e3 : x₁ * x₂ * x₃ = m ^ 2 - b) :
    LD P Q l m x₁ x₂ x₃ := by
  refine ⟨h1, h2, ?_, e1, e2, e3⟩
  by_cases hx : x₁ = x₂
  · subst hx
    have e := h1.inj h2
    subst e
    refine h1.add_self h1 (h1.two_y_ne hPQ) (l := l) ?_ ?_ ?_
    · linear_combination e2 - 2 * x₁ * e1
    · linear_combination e1
    · ring
  · exact h1.add_of_X_ne h2 hx (l := l) (by ring) (by linear_combination e1) (by ring)

theorem LD.ne_left {P Q : (curve b).Point} {l m x₁ x₂ x₃ : F} (h : LD P Q l m x₁ x₂ x₃) : P ≠ 0 := h.at1.ne_zero
theorem LD.ne_right {P Q : (curve b).Point} {l m x₁ x₂ x₃ : F} (h : LD P Q l m x₁ x₂ x₃) : Q ≠ 0 := h.at2.ne_zero
theorem LD.ne_sum {P Q : (curve b).Point} {l m x₁ x₂ x₃ : F} (h : LD P Q l m x₁ x₂ x₃) : P + Q ≠ 0 := h.at3.ne_zero

theorem LD.slope [GoodCurve b] {P Q : (curve b).Point} {l m x₁ x₂ x₃ : F} (h : LD P Q l m x₁ x₂ x₃) :
    (curve b).slope x₁ x₂ (l * x₁ + m) (l * x₂ + m) = l := by
  by_cases hx : x₁ = x₂
  · have h2 := h.at2
    rw [← hx] at h2
    have e := h.at1.inj h2
    have hs := h.ne_sum
    rw [← e] at hs
    have hy := h.at1.two_y_ne hs
    subst e
    rw [hx]
    rw [hx] at hy
    have ht := h.tangent
    rw [hx] at ht
    have hy' : l * x₂ + m ≠ (curve b).negY x₂ (l * x₂ + m) := by
      rw [curve_negY]; intro e; apply hy; linear_combination e
    rw [Affine.slope_of_Y_ne rfl hy', curve_negY, sub_neg_eq_add, ← two_mul, div_eq_iff hy]
    simp only [curve_a₁, curve_a₂, curve_a₄]
    linear_combination -ht
  · rw [Affine.slope_of_X_ne hx, div_eq_iff (sub_ne_zero.mpr hx)]; ring

theorem LD.lf [GoodCurve b] {P Q : (curve b).Point} {l m x₁ x₂ x₃ : F} (h : LD P Q l m x₁ x₂ x₃) :
    Line.lf P Q = CoordinateRing.YClass _ (linePolynomial x₁ (l * x₁ + m) l) := by
  have hs := h.ne_sum
  have hsl := h.slope
  obtain ⟨h1, rfl⟩ := h.at1
  obtain ⟨h2, rfl⟩ := h.at2
  have hxy : ¬(x₁ = x₂ ∧ l * x₁ + m = (curve b).negY x₂ (l * x₂ + m)) := by
    rintro ⟨e1, e2⟩
    exact hs (Affine.Point.add_of_Y_eq e1 e2)
  rw [Line.lf_line hxy, hsl]

theorem LD.ev [GoodCurve b] {K : Type*} [Field K] (ι : F →+* K) {x y : K} (hxy : y ^ 2 = x ^ 3 + ι b)
    {P Q : (curve b).Point} {l m x₁ x₂ x₃ : F} (h : LD P Q l m x₁ x₂ x₃) :
    Line.ev ι hxy (Line.lf P Q) = y - (ι l * x + ι m) := by
  rw [h.lf, Line.ev_YClass, map_add, map_mul]; ring

theorem LD.neg [GoodCurve b] {P Q : (curve b).Point} {l m x₁ x₂ x₃ : F} (h : LD P Q l m x₁ x₂ x₃) :
    LD (-P) (-Q) (-l) (-m) x₁ x₂ x₃ := by
  refine ⟨?_, ?_, ?_, ?_, ?_, ?_⟩
  · convert h.at1.neg using 1; ring
  · convert h.at2.neg using 1; ring
  · rw [← neg_add]; convert h.at3.neg using 1; ring
  · rw [neg_sq]; exact h.e1
  · linear_combination h.e2
  · rw [neg_sq]; exact h.e3

/-- Two lines: the product of the values of one at the points of the other is, up to sign, symmetric. -/
theorem line_reciprocity {R : Type*} [CommRing R] {b l m x₁ x₂ x₃ l' m' z₁ z₂ z₃ : R}
    (e1 : x₁ + x₂ + x₃ = l ^ 2) (e2 : x₁ * x₂ + x₁ * x₃ + x₂ * x₃ = -2 * l * m) (e3 : x₁ * x₂ * x₃ = m ^ 2 - b)
    (d1 : z₁ + z₂ + z₃ = l' ^ 2) (d2 : z₁ * z₂ + z₁ * z₃ + z₂ * z₃ = -2 * l' * m') (d3 : z₁ * z₂ * z₃ = m' ^ 2 - b) :
    ((l' * z₁ + m') - (l * z₁ + m)) * ((l' * z₂ + m') - (l * z₂ + m)) * ((l' * z₃ + m') - (l * z₃ + m)) =
    -(((l * x₁ + m) - (l' * x₁ + m')) * ((l * x₂ + m) - (l' * x₂ + m')) * ((l * x₃ + m) - (l' * x₃ + m'))) := by
  have A : ((l' * z₁ + m') - (l * z₁ + m)) * ((l' * z₂ + m') - (l * z₂ + m)) * ((l' * z₃ + m') - (l * z₃ + m)) =
      (l' - l) ^ 3 * (m' ^ 2 - b) + (l' - l) ^ 2 * (m' - m) * (-2 * l' * m') + (l' - l) * (m' - m) ^ 2 * l' ^ 2 + (m' - m) ^ 3 := by
    rw [← d1, ← d2, ← d3]; ring
  have B : ((l * x₁ + m) - (l' * x₁ + m')) * ((l * x₂ + m) - (l' * x₂ + m')) * ((l * x₃ + m) - (l' * x₃ + m')) =
      (l - l') ^ 3 * (m ^ 2 - b) + (l - l') ^ 2 * (m - m') * (-2 * l * m) + (l - l') * (m - m') ^ 2 * l ^ 2 + (m - m') ^ 3 := by
    rw [← e1, ← e2, ← e3]; ring
  rw [A, B]; ring

/-! ### Maps of curves -/

section
variable {K : Type*} [Field K] [DecidableEq K] {b' : K} [GoodCurve b] [GoodCurve b']

/-- The data of a map `(x, y) ↦ (α f(x), β f(y))` from `y² = x³ + b` to `y² = x³ + b'`. -/
structure TwistData (b : F) (b' : K) where
  f : F →+* K
  α : K
  β : K
  α_ne : α ≠ 0
  sq : β ^ 2 = α ^ 3
  hb : b' = β ^ 2 * f b

namespace TwistData

variable (t : TwistData b b')

omit [DecidableEq F] [DecidableEq K] [GoodCurve b] [GoodCurve b'] in
theorem β_ne : t.β ≠ 0 := by
  intro h
  have := t.sq
  rw [h, zero_pow two_ne_zero] at this
  exact t.α_ne (pow_eq_zero_iff (by norm_num) |>.mp this.symm)

omit [DecidableEq F] [DecidableEq K] [GoodCurve b] [GoodCurve b'] in
theorem on {x y : F} (h : y ^ 2 = x ^ 3 + b) : (t.β * t.f y) ^ 2 = (t.α * t.f x) ^ 3 + b' := by
  have h' := congrArg t.f h
  rw [map_pow, map_add, map_pow] at h'
  linear_combination t.β ^ 2 * h' - t.hb + t.f x ^ 3 * t.sq

/-- The map on points. -/
noncomputable def fn (P : (curve b).Point) : (curve b').Point :=
  match P with
  | .zero => 0
  | .some x y h => pt (t.α * t.f x) (t.β * t.f y) (t.on (curve_equation_iff.mp h.1))

omit [DecidableEq F] [DecidableEq K] [GoodCurve b] in
theorem fn_zero : t.fn (0 : (curve b).Point) = 0 := rfl

omit [DecidableEq F] [DecidableEq K] [GoodCurve b] in
theorem fn_at {P : (curve b).Point} {x y : F} (h : IsAt P x y) : IsAt (t.fn P) (t.α * t.f x) (t.β * t.f y) := by
  obtain ⟨h, rfl⟩ := h
  exact pt_isAt (t.on (curve_equation_iff.mp h.1))

omit [DecidableEq F] [DecidableEq K] [GoodCurve b] in
theorem fn_neg (P : (curve b).Point) : t.fn (-P) = -t.fn P := by
  rcases zero_or_isAt P with rfl | ⟨x, y, h⟩
  · rw [fn_zero, Point.neg_zero, Point.neg_zero, fn_zero]
  · have h1 := t.fn_at h.neg
    have h2 := (t.fn_at h).neg
    rw [map_neg, mul_neg] at h1
    exact h1.inj h2

omit [DecidableEq F] [DecidableEq K] [GoodCurve b] in
theorem fn_inj {P Q : (curve b).Point} (h : t.fn P = t.fn Q) : P = Q := by
  rcases zero_or_isAt P with rfl | ⟨x, y, hp⟩ <;> rcases zero_or_isAt Q with rfl | ⟨x', y', hq⟩
  · rfl
  · exact absurd h.symm (t.fn_at hq).ne_zero
  · exact absurd h (t.fn_at hp).ne_zero
  · have h1 := t.fn_at hp
    have h2 := t.fn_at hq
    rw [h] at h1
    obtain ⟨ex, ey⟩ := h1.coord h2
    have ex := t.f.injective (mul_left_cancel₀ t.α_ne ex)
    have ey := t.f.injective (mul_left_cancel₀ t.β_ne ey)
    subst ex ey
    exact hp.inj hq

omit [GoodCurve b] in
theorem fn_LD {P Q : (curve b).Point} {l m x₁ x₂ x₃ : F} (h : LD P Q l m x₁ x₂ x₃) :
    LD (t.fn P) (t.fn Q) (t.β / t.α * t.f l) (t.β * t.f m) (t.α * t.f x₁) (t.α * t.f x₂) (t.α * t.f x₃) := by
  have hα := t.α_ne
  have hs := t.sq
  have hd : (t.β / t.α) * t.α = t.β := div_mul_cancel₀ _ hα
  have hd2 : (t.β / t.α) ^ 2 = t.α := by rw [div_pow, hs]; field_simp
  have h1 := t.fn_at h.at1
  have h2 := t.fn_at h.at2
  have h3 := t.fn_at h.at3
  have e1 := congrArg t.f h.e1
  have e2 := congrArg t.f h.e2
  have e3 := congrArg t.f h.e3
  simp only [map_add, map_mul, map_neg, map_sub, map_pow, map_ofNat] at h1 h2 h3 e1 e2 e3
  generalize t.β / t.α = γ at *
  refine LD.mk' ?_ ?_ ?_ ?_ ?_ ?_
  · convert h1 using 1; linear_combination t.f l * t.f x₁ * hd
  · convert h2 using 1; linear_combination t.f l * t.f x₂ * hd
  · intro hz
    have : t.fn P = t.fn (-Q) := by rw [fn_neg]; exact eq_neg_of_add_eq_zero_left hz
    have := t.fn_inj this
    exact h.ne_sum (by rw [this, neg_add_cancel])
  · rw [mul_pow, hd2]; linear_combination t.α * e1
  · linear_combination t.α ^ 2 * e2 + 2 * t.f l * t.f m * (t.α * hd2 - γ * hd)
  · linear_combination t.α ^ 3 * e3 + t.hb + (t.f b - t.f m ^ 2) * hs

theorem fn_add (P Q : (curve b).Point) : t.fn (P + Q) = t.fn P + t.fn Q := by
  by_cases hP : P = 0
  · rw [hP, fn_zero, zero_add, zero_add]
  by_cases hQ : Q = 0
  · rw [hQ, fn_zero, add_zero, add_zero]
  by_cases hPQ : P + Q = 0
  · rw [eq_neg_of_add_eq_zero_left hPQ, fn_neg, neg_add_cancel, neg_add_cancel, fn_zero]
  · obtain ⟨l, m, x₁, x₂, x₃, h⟩ := LD.exists hP hQ hPQ
    have h1 := (t.fn_LD h).at3
    have h2 := t.fn_at h.at3
    refine h2.inj ?_
    convert h1 using 1
    rw [map_neg, map_add, map_mul]
    have hd : (t.β / t.α) * t.α = t.β := div_mul_cancel₀ _ t.α_ne
    linear_combination t.f l * t.f x₃ * hd

/-- The map as a group homomorphism. -/
noncomputable def hom : (curve b).Point →+ (curve b').Point := ⟨⟨t.fn, t.fn_zero⟩, t.fn_add⟩

theorem hom_at {P : (curve b).Point} {x y : F} (h : IsAt P x y) : IsAt (t.hom P) (t.α * t.f x) (t.β * t.f y) := t.fn_at h
theorem hom_inj {P Q : (curve b).Point} (h : t.hom P = t.hom Q) : P = Q := t.fn_inj h
theorem hom_LD {P Q : (curve b).Point} {l m x₁ x₂ x₃ : F} (h : LD P Q l m x₁ x₂ x₃) :
    LD (t.hom P) (t.hom Q) (t.β / t.α * t.f l) (t.β * t.f m) (t.α * t.f x₁) (t.α * t.f x₂) (t.α * t.f x₃) := t.fn_LD h

end TwistData
end
end Bls
