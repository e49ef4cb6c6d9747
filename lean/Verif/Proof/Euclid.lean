import Verif.Spec.Euclid
import Verif.Proof.FQInverse
import Verif.Proof.FRInverse
set_option exponentiation.threshold 1000
/-
The log of an inversion: the numbers it comes from, and its length.
-/
namespace Bls

namespace Euclid

/-- l is the log of the loop on u and v. -/
inductive Steps : ℕ → ℕ → Euclid → Prop
  | endU (v : ℕ) : Steps 1 v ⟨[], true⟩
  | endV (u : ℕ) : Steps u 1 ⟨[], false⟩
  | subU {i j u v : ℕ} {l : Euclid} (hu : u % 2 = 1) (hv : v % 2 = 1) (h : v ≤ u) (nu : 2 ^ i * u ≠ 1) (nv : 2 ^ j * v ≠ 1)
      (hs : Steps (u - v) v l) : Steps (2 ^ i * u) (2 ^ j * v) (l.cons ⟨i, j, true⟩)
  | subV {i j u v : ℕ} {l : Euclid} (hu : u % 2 = 1) (hv : v % 2 = 1) (h : u ≤ v) (nu : 2 ^ i * u ≠ 1) (nv : 2 ^ j * v ≠ 1)
      (hs : Steps u (v - u) l) : Steps (2 ^ i * u) (2 ^ j * v) (l.cons ⟨i, j, false⟩)

theorem Steps.forms {u v : ℕ} {l : Euclid} (h : Steps u v l) : ∃ w,
    u = (forms l.endU l.rounds).1.1 + (forms l.endU l.rounds).1.2 * w ∧
    v = (forms l.endU l.rounds).2.1 + (forms l.endU l.rounds).2.2 * w ∧
    ((forms l.endU l.rounds).2.2 = 0 → ∃ k, v = 2 ^ k) := by
  induction h with
  | endU v => exact ⟨v, by simp [Euclid.forms], by simp [Euclid.forms], by simp [Euclid.forms]⟩
  | endV u => exact ⟨u, by simp [Euclid.forms], by simp [Euclid.forms], fun _ => ⟨0, rfl⟩⟩
  | @subU i j u v l hu hv h nu nv hs ih =>
    obtain ⟨w, e1, e2, e3⟩ := ih
    refine ⟨w, ?_, ?_, fun h0 => ?_⟩
    · simp only [cons, Euclid.forms, if_true]
      rw [mul_assoc, ← mul_add]
      congr 1
      have : u = (u - v) + v := (Nat.sub_add_cancel h).symm
      rw [this, e1]
      conv_lhs => rw [e2]
      ring
    · simp only [cons, Euclid.forms, if_true]
      rw [mul_assoc, ← mul_add]
      congr 1
    · simp only [cons, Euclid.forms, if_true] at h0
      obtain ⟨k, hk⟩ := e3 ((Nat.mul_eq_zero.mp h0).resolve_left (by positivity))
      exact ⟨j + k, by rw [hk, pow_add]⟩
  | @subV i j u v l hu hv h nu nv hs ih =>
    obtain ⟨w, e1, e2, e3⟩ := ih
    refine ⟨w, ?_, ?_, fun h0 => ?_⟩
    · simp only [cons, Euclid.forms, Bool.false_eq_true, if_false]
      rw [mul_assoc, ← mul_add]
      congr 1
    · simp only [cons, Euclid.forms, Bool.false_eq_true, if_false]
      rw [mul_assoc, ← mul_add]
      congr 1
      have : v = (v - u) + u := (Nat.sub_add_cancel h).symm
      rw [this, e2]
      conv_lhs => rw [e1]
      ring
    · simp only [cons, Euclid.forms, Bool.false_eq_true, if_false] at h0
      have h1 := (Nat.mul_eq_zero.mp h0).resolve_left (by positivity)
      exfalso
      have b0 : (Euclid.forms l.endU l.rounds).1.2 = 0 := by omega
      have d0 : (Euclid.forms l.endU l.rounds).2.2 = 0 := by omega
      exact both l.endU l.rounds ⟨b0, d0⟩
where
  both (e : Bool) : ∀ rs : List Round, ¬((Euclid.forms e rs).1.2 = 0 ∧ (Euclid.forms e rs).2.2 = 0)
    | [] => by cases e <;> simp [Euclid.forms]
    | s :: rs => by
      have := both e rs
      have p1 : 2 ^ s.halvedU ≠ 0 := by positivity
      have p2 : 2 ^ s.halvedV ≠ 0 := by positivity
      simp only [Euclid.forms, Nat.mul_eq_zero, p1, p2, false_or]
      split <;> simp <;> omega

theorem Steps.observed {u v : ℕ} {l : Euclid} (h : Steps u v l) (hv : v % 2 = 1) (h1 : v ≠ 1) : l.observed v = u := by
  obtain ⟨w, e1, e2, e3⟩ := h.forms
  have d : 0 < (Euclid.forms l.endU l.rounds).2.2 := by
    refine Nat.pos_of_ne_zero fun h0 => ?_
    obtain ⟨k, hk⟩ := e3 h0
    rcases k with _ | k
    · exact h1 (by simpa using hk)
    · rw [hk, pow_succ] at hv; omega
  simp only [Euclid.observed]
  have : v - (Euclid.forms l.endU l.rounds).2.1 = (Euclid.forms l.endU l.rounds).2.2 * w := by
    conv_lhs => rw [e2]
    omega
  rw [this, Nat.mul_div_cancel_left _ d]
  exact e1.symm

theorem Steps.le {u v : ℕ} {l : Euclid} (h : Steps u v l) (hc : Nat.Coprime u v) (hu : u ≠ 0) (hv : v ≠ 0) :
    2 ^ l.halvings ≤ u * v ∧ l.rounds.length ≤ l.halvings + 1 ∧
    (u % 2 = 0 ∨ v % 2 = 0 → l.rounds.length ≤ l.halvings) := by
  induction h with
  | endU v => exact ⟨by simp [halvings]; omega, by simp, by simp⟩
  | endV u => exact ⟨by simp [halvings]; omega, by simp, by simp⟩
  | @subU i j u v l ou ov h nu nv hs ih =>
    have hc' : Nat.Coprime u v := Nat.Coprime.of_dvd (Dvd.intro_left _ rfl) (Dvd.intro_left _ rfl) hc
    have ne : u - v ≠ 0 := by
      intro h0
      have e : u = v := by omega
      have e1 : u = 1 := by rw [← e] at hc'; simpa using hc'
      rw [← e, e1] at nv; rw [e1] at nu
      rw [← e, e1, mul_one, mul_one] at hc
      have i0 : i ≠ 0 := by rintro rfl; simp at nu
      have j0 : j ≠ 0 := by rintro rfl; simp at nv
      have := Nat.Coprime.eq_one_of_dvd (Nat.Coprime.of_dvd (dvd_pow_self 2 i0) (dvd_pow_self 2 j0) hc) (dvd_refl 2)
      omega
    obtain ⟨a1, a2, a3⟩ := ih ((Nat.coprime_sub_self_left h).mpr hc') ne (by omega)
    have e : (l.cons ⟨i, j, true⟩).halvings = i + j + l.halvings := by simp [cons, halvings]
    have e' : (l.cons ⟨i, j, true⟩).rounds.length = l.rounds.length + 1 := by simp [cons]
    have b := a3 (Or.inl (by omega))
    rw [e, e']
    refine ⟨?_, by omega, fun hp => ?_⟩
    · calc 2 ^ (i + j + l.halvings) = 2 ^ (i + j) * 2 ^ l.halvings := pow_add ..
        _ ≤ 2 ^ (i + j) * ((u - v) * v) := Nat.mul_le_mul_left _ a1
        _ ≤ 2 ^ (i + j) * (u * v) := Nat.mul_le_mul_left _ (Nat.mul_le_mul_right _ (Nat.sub_le ..))
        _ = 2 ^ i * u * (2 ^ j * v) := by ring
    · have : i + j ≠ 0 := by
        intro h0
        obtain ⟨rfl, rfl⟩ : i = 0 ∧ j = 0 := by omega
        omega
      omega
  | @subV i j u v l ou ov h nu nv hs ih =>
    have hc' : Nat.Coprime u v := Nat.Coprime.of_dvd (Dvd.intro_left _ rfl) (Dvd.intro_left _ rfl) hc
    have ne : v - u ≠ 0 := by
      intro h0
      have e : u = v := by omega
      have e1 : u = 1 := by rw [← e] at hc'; simpa using hc'
      rw [← e, e1] at nv; rw [e1] at nu
      rw [← e, e1, mul_one, mul_one] at hc
      have i0 : i ≠ 0 := by rintro rfl; simp at nu
      have j0 : j ≠ 0 := by rintro rfl; simp at nv
      have := Nat.Coprime.eq_one_of_dvd (Nat.Coprime.of_dvd (dvd_pow_self 2 i0) (dvd_pow_self 2 j0) hc) (dvd_refl 2)
      omega
    obtain ⟨a1, a2, a3⟩ := ih ((Nat.coprime_sub_self_right h).mpr hc') (by omega) ne
    have e : (l.cons ⟨i, j, false⟩).halvings = i + j + l.halvings := by simp [cons, halvings]
    have e' : (l.cons ⟨i, j, false⟩).rounds.length = l.rounds.length + 1 := by simp [cons]
    have b := a3 (Or.inr (by omega))
    rw [e, e']
    refine ⟨?_, by omega, fun hp => ?_⟩
    · calc 2 ^ (i + j + l.halvings) = 2 ^ (i + j) * 2 ^ l.halvings := pow_add ..
        _ ≤ 2 ^ (i + j) * (u * (v - u)) := Nat.mul_le_mul_left _ a1
        _ ≤ 2 ^ (i + j) * (u * v) := Nat.mul_le_mul_left _ (Nat.mul_le_mul_left _ (Nat.sub_le ..))
        _ = 2 ^ i * u * (2 ^ j * v) := by ring
    · have : i + j ≠ 0 := by
        intro h0
        obtain ⟨rfl, rfl⟩ : i = 0 ∧ j = 0 := by omega
        omega
      omega

end Euclid

namespace FQ
open FQRepr

theorem halveLogged_map : ∀ (fuel : ℕ) (u b : FQRepr),
    (halveLogged fuel u b).map (fun o => (o.1, o.2.1)) = halveLoop fuel u b
  | 0, _, _ => by rw [halveLogged, halveLoop]; rfl
  | fuel + 1, u, b => by
    rw [halveLogged, halveLoop]
    split
    · rw [Option.map_map, ← halveLogged_map fuel]; rfl
    · rfl

theorem halveLogged_spec : ∀ (fuel : ℕ) {u b : FQRepr} {o}, halveLogged fuel u b = some o →
    u.toNat = 2 ^ o.2.2 * o.1.toNat ∧ o.1.toNat % 2 = 1
  | 0, _, _, _ => by rw [halveLogged]; nofun
  | fuel + 1, u, b, o => by
    intro h
    rw [halveLogged] at h
    by_cases he : u.isEven = true
    · rw [if_pos he] at h
      obtain ⟨x, hx, rfl⟩ := Option.map_eq_some_iff.mp h
      obtain ⟨h1, h2⟩ := halveLogged_spec fuel hx
      have h3 := isEven_iff.mp he
      rw [div2_spec] at h1
      refine ⟨?_, h2⟩
      show u.toNat = 2 ^ (x.2.2 + 1) * x.1.toNat
      rw [pow_succ, mul_right_comm, ← h1]; omega
    · rw [if_neg he] at h
      cases h
      have h3 := fun h => he (isEven_iff.mpr h)
      exact ⟨by simp, by simpa using h3⟩

theorem inverseLoopLogged_map : ∀ (fuel : ℕ) (u v : FQRepr) (b c : FQ),
    (inverseLoopLogged fuel u v b c).map Prod.fst = inverseLoop fuel u v b c
  | 0, _, _, _, _ => by rw [inverseLoopLogged, inverseLoop]; rfl
  | fuel + 1, u, v, b, c => by
    rw [inverseLoopLogged, inverseLoop]
    split
    · rw [← halveLogged_map 385 u, ← halveLogged_map 385 v]
      cases halveLogged 385 u b.n with
      | none => rfl
      | some x =>
        cases halveLogged 385 v c.n with
        | none => rfl
        | some y =>
          simp only [Option.bind_some, Option.map_some]
          split
          · rw [Option.map_map, ← inverseLoopLogged_map fuel]; rfl
          · rw [Option.map_map, ← inverseLoopLogged_map fuel]; rfl
    · split <;> rfl

theorem inverseLoopLogged_steps : ∀ (fuel : ℕ) {u v : FQRepr} {b c : FQ} {o}, inverseLoopLogged fuel u v b c = some o →
    Euclid.Steps u.toNat v.toNat o.2
  | 0, _, _, _, _, _ => by rw [inverseLoopLogged]; nofun
  | fuel + 1, u, v, b, c, o => by
    intro h
    have one : (bigOne : FQRepr).toNat = 1 := by decide
    have hu := cmp_eq_zero (f := u) (g := bigOne)
    have hv := cmp_eq_zero (f := v) (g := bigOne)
    rw [← toNat_inj_iff, one] at hu hv
    rw [inverseLoopLogged] at h
    by_cases hc : u.cmp bigOne ≠ 0 ∧ v.cmp bigOne ≠ 0
    · rw [if_pos hc] at h
      obtain ⟨x, hx, h⟩ := Option.bind_eq_some_iff.mp h
      obtain ⟨y, hy, h⟩ := Option.bind_eq_some_iff.mp h
      obtain ⟨a1, a2⟩ := halveLogged_spec _ hx
      obtain ⟨b1, b2⟩ := halveLogged_spec _ hy
      have nu := fun e => hc.1 (hu.mpr e)
      have nv := fun e => hc.2 (hv.mpr e)
      rw [a1] at nu ⊢
      rw [b1] at nv ⊢
      by_cases hcmp : x.1.cmp y.1 ≥ 0
      · rw [if_pos hcmp] at h
        obtain ⟨z, hz, rfl⟩ := Option.map_eq_some_iff.mp h
        have hle := cmp_nonneg.mp hcmp
        have := inverseLoopLogged_steps fuel hz
        rw [subNoBorrow_of_le hle] at this
        exact .subU a2 b2 hle nu nv this
      · rw [if_neg hcmp] at h
        obtain ⟨z, hz, rfl⟩ := Option.map_eq_some_iff.mp h
        have hle : x.1.toNat ≤ y.1.toNat := by
          rw [cmp_nonneg] at hcmp; omega
        have := inverseLoopLogged_steps fuel hz
        rw [subNoBorrow_of_le hle] at this
        exact .subV a2 b2 hle nu nv this
    · rw [if_neg hc] at h
      by_cases h1 : u.cmp bigOne = 0
      · rw [if_pos h1] at h
        cases h
        have : u.toNat = 1 := hu.mp h1
        rw [this]
        exact .endU _
      · rw [if_neg h1] at h
        cases h
        have : v.toNat = 1 := by
          by_contra hn
          have hv' : v.cmp bigOne ≠ 0 := fun e => hn (hv.mp e)
          have hu' : ¬u.cmp bigOne ≠ 0 := fun e => hc ⟨e, hv'⟩
          exact h1 (by simpa using hu')
        rw [this]
        exact .endV _

/-- The log of an inversion, and what follows from it. -/
theorem inverseLogged_spec {f : FQ} (hf : f.n.toNat < q) (h0 : f.n.toNat ≠ 0) {o} (h : inverseLogged f = some o) :
    o.2.observed q = f.n.toNat ∧ 2 ^ o.2.halvings ≤ f.n.toNat * q ∧ o.2.rounds.length ≤ o.2.halvings + 1 := by
  have hs := inverseLoopLogged_steps _ h
  rw [qFieldModulus_toNat] at hs
  have odd : q % 2 = 1 := by have := q_mod4; omega
  have hp : Nat.Prime q := Fact.out
  refine ⟨hs.observed odd hp.one_lt.ne', ?_⟩
  have := hs.le ((Nat.Coprime.symm ((Nat.Prime.coprime_iff_not_dvd hp).mpr fun d => absurd (Nat.le_of_dvd (Nat.pos_of_ne_zero h0) d) (by omega)))) h0 hp.pos.ne'
  exact ⟨this.1, this.2.1⟩

end FQ

namespace FR
open FRRepr

theorem halveLogged_map : ∀ (fuel : ℕ) (u b : FRRepr),
    (halveLogged fuel u b).map (fun o => (o.1, o.2.1)) = halveLoop fuel u b
  | 0, _, _ => by rw [halveLogged, halveLoop]; rfl
  | fuel + 1, u, b => by
    rw [halveLogged, halveLoop]
    split
    · rw [Option.map_map, ← halveLogged_map fuel]; rfl
    · rfl

theorem halveLogged_spec : ∀ (fuel : ℕ) {u b : FRRepr} {o}, halveLogged fuel u b = some o →
    u.toNat = 2 ^ o.2.2 * o.1.toNat ∧ o.1.toNat % 2 = 1
  | 0, _, _, _ => by rw [halveLogged]; nofun
  | fuel + 1, u, b, o => by
    intro h
    rw [halveLogged] at h
    by_cases he : u.isEven = true
    · rw [if_pos he] at h
      obtain ⟨x, hx, rfl⟩ := Option.map_eq_some_iff.mp h
      obtain ⟨h1, h2⟩ := halveLogged_spec fuel hx
      have h3 := isEven_iff.mp he
      rw [div2_spec] at h1
      refine ⟨?_, h2⟩
      show u.toNat = 2 ^ (x.2.2 + 1) * x.1.toNat
      rw [pow_succ, mul_right_comm, ← h1]; omega
    · rw [if_neg he] at h
      cases h
      have h3 := fun h => he (isEven_iff.mpr h)
      exact ⟨by simp, by simpa using h3⟩

theorem inverseLoopLogged_map : ∀ (fuel : ℕ) (u v : FRRepr) (b c : FR),
    (inverseLoopLogged fuel u v b c).map Prod.fst = inverseLoop fuel u v b c
  | 0, _, _, _, _ => by rw [inverseLoopLogged, inverseLoop]; rfl
  | fuel + 1, u, v, b, c => by
    rw [inverseLoopLogged, inverseLoop]
    split
    · rw [← halveLogged_map 257 u, ← halveLogged_map 257 v]
      cases halveLogged 257 u b.n with
      | none => rfl
      | some x =>
        cases halveLogged 257 v c.n with
        | none => rfl
        | some y =>
          simp only [Option.bind_some, Option.map_some]
          split
          · rw [Option.map_map, ← inverseLoopLogged_map fuel]; rfl
          · rw [Option.map_map, ← inverseLoopLogged_map fuel]; rfl
    · split <;> rfl

theorem inverseLoopLogged_steps : ∀ (fuel : ℕ) {u v : FRRepr} {b c : FR} {o}, inverseLoopLogged fuel u v b c = some o →
    Euclid.Steps u.toNat v.toNat o.2
  | 0, _, _, _, _, _ => by rw [inverseLoopLogged]; nofun
  | fuel + 1, u, v, b, c, o => by
    intro h
    have one : ((.new 1) : FRRepr).toNat = 1 := by decide
    have hu := cmp_eq_zero (f := u) (g := (.new 1))
    have hv := cmp_eq_zero (f := v) (g := (.new 1))
    rw [← toNat_inj_iff, one] at hu hv
    rw [inverseLoopLogged] at h
    by_cases hc : u.cmp (.new 1) ≠ 0 ∧ v.cmp (.new 1) ≠ 0
    · rw [if_pos hc] at h
      obtain ⟨x, hx, h⟩ := Option.bind_eq_some_iff.mp h
      obtain ⟨y, hy, h⟩ := Option.bind_eq_some_iff.mp h
      obtain ⟨a1, a2⟩ := halveLogged_spec _ hx
      obtain ⟨b1, b2⟩ := halveLogged_spec _ hy
      have nu := fun e => hc.1 (hu.mpr e)
      have nv := fun e => hc.2 (hv.mpr e)
      rw [a1] at nu ⊢
      rw [b1] at nv ⊢
      by_cases hcmp : x.1.cmp y.1 ≥ 0
      · rw [if_pos hcmp] at h
        obtain ⟨z, hz, rfl⟩ := Option.map_eq_some_iff.mp h
        have hle := cmp_nonneg.mp hcmp
        have := inverseLoopLogged_steps fuel hz
        rw [subNoBorrow_of_le hle] at this
        exact .subU a2 b2 hle nu nv this
      · rw [if_neg hcmp] at h
        obtain ⟨z, hz, rfl⟩ := Option.map_eq_some_iff.mp h
        have hle : x.1.toNat ≤ y.1.toNat := by
          rw [cmp_nonneg] at hcmp; omega
        have := inverseLoopLogged_steps fuel hz
        rw [subNoBorrow_of_le hle] at this
        exact .subV a2 b2 hle nu nv this
    · rw [if_neg hc] at h
      by_cases h1 : u.equals (.new 1)
      · rw [if_pos h1] at h
        cases h
        have : u.toNat = 1 := by rw [FRRepr.equals_iff] at h1; rw [h1]; exact one
        rw [this]
        exact .endU _
      · rw [if_neg h1] at h
        cases h
        have : v.toNat = 1 := by
          by_contra hn
          have hv' : v.cmp (.new 1) ≠ 0 := fun e => hn (hv.mp e)
          have hu' : ¬u.cmp (.new 1) ≠ 0 := fun e => hc ⟨e, hv'⟩
          exact h1 (by rw [FRRepr.equals_iff]; exact cmp_eq_zero.mp (by simpa using hu'))
        rw [this]
        exact .endV _

/-- The log of an inversion, and what follows from it. -/
theorem inverseLogged_spec {f : FR} (hf : f.n.toNat < r) (h0 : f.n.toNat ≠ 0) {o} (h : inverseLogged f = some o) :
    o.2.observed r = f.n.toNat ∧ 2 ^ o.2.halvings ≤ f.n.toNat * r ∧ o.2.rounds.length ≤ o.2.halvings + 1 := by
  have hs := inverseLoopLogged_steps _ h
  rw [rFieldModulus_toNat] at hs
  have odd : r % 2 = 1 := by rw [r_eq]; decide +kernel
  have hp : Nat.Prime r := Fact.out
  refine ⟨hs.observed odd hp.one_lt.ne', ?_⟩
  have := hs.le ((Nat.Coprime.symm ((Nat.Prime.coprime_iff_not_dvd hp).mpr fun d => absurd (Nat.le_of_dvd (Nat.pos_of_ne_zero h0) d) (by omega)))) h0 hp.pos.ne'
  exact ⟨this.1, this.2.1⟩

end FR

end Bls
