import Verif.Spec.Params
import Verif.Proof.G1Slopes
import Mathlib.NumberTheory.LucasPrimality
import Mathlib.Tactic.NormNum.Prime
import Mathlib.GroupTheory.OrderOfElement
import Mathlib.SetTheory.Cardinal.Finite
/-
`r` and `q` are prime. `r` by Lucas' test; `q` by an elliptic-curve certificate: a proper prime
factor `p ≤ √q` would give a curve over `ZMod p` with a point of order `r > 2p + 1`.
-/
namespace Bls
open WeierstrassCurve

/-- Modular exponentiation by repeated squaring, most significant bit last. -/
def powMod (m : ℕ) : ℕ → ℕ → ℕ → ℕ → ℕ
  | 0, _, _, acc => acc
  | fuel + 1, a, e, acc =>
    if Nat.beq e 0 then acc
    else powMod m fuel (a * a % m) (e / 2) (if Nat.beq (e % 2) 1 then acc * a % m else acc)

theorem powMod_spec {R : Type*} [CommRing R] {m : ℕ} (hm : (m : R) = 0) :
    ∀ (fuel a e acc : ℕ), e < 2 ^ fuel → ((powMod m fuel a e acc : ℕ) : R) = acc * (a : R) ^ e := by
  have cm : ∀ a : ℕ, ((a % m : ℕ) : R) = a := fun a => by
    conv_rhs => rw [← Nat.div_add_mod a m]
    rw [Nat.cast_add, Nat.cast_mul, hm, zero_mul, zero_add]
  intro fuel
  induction fuel with
  | zero => intro a e acc h; have : e = 0 := by simpa using h
            subst this; simp [powMod]
  | succ n ih =>
    intro a e acc h
    rw [powMod]
    split
    · rename_i he
      have : e = 0 := Nat.eq_of_beq_eq_true he
      subst this; simp
    · rw [ih _ _ _ (by rw [pow_succ] at h; omega), cm, Nat.cast_mul]
      conv_rhs => rw [← Nat.div_add_mod e 2]
      rw [pow_add, pow_mul, pow_two]
      split
      · rename_i h1
        rw [cm, Nat.eq_of_beq_eq_true h1, Nat.cast_mul]; ring
      · rename_i h1
        have : e % 2 = 0 := by
          have : e % 2 ≠ 1 := fun h => h1 (by rw [h]; rfl)
          omega
        rw [this]; ring

/-- A list whose product is `n`, used to enumerate prime divisors. -/
theorem prime_dvd_list {p : ℕ} (hp : p.Prime) :
    ∀ {l : List ℕ}, (∀ x ∈ l, x.Prime) → p ∣ l.prod → p ∈ l := by
  intro l
  induction l with
  | nil => intro _ h; exact absurd (by simpa using h) hp.one_lt.ne'
  | cons a t ih =>
    intro hl h
    rw [List.prod_cons] at h
    rcases hp.dvd_mul.mp h with h | h
    · have := (Nat.prime_dvd_prime_iff_eq hp (hl a (by simp))).mp h
      simp [this]
    · exact List.mem_cons_of_mem _ (ih (fun x hx => hl x (List.mem_cons_of_mem _ hx)) h)

theorem rFactors_prime : ∀ x ∈ [2, 3, 11, 19, 10177, 125527, 859267, 906349, 2508409, 2529403,
    52437899, 254760293], Nat.Prime x := by
  simp only [List.mem_cons, List.not_mem_nil, or_false, forall_eq_or_imp, forall_eq]
  norm_num

def rLit : ℕ := 52435875175126190479447740508185965837690552500527637822603658699938581184513

theorem lucas_list {p a : ℕ} {fs : List ℕ} (hp : 1 < p) (hlt : p < 2 ^ 384)
    (hprod : ∀ s : ℕ, s.Prime → s ∣ p - 1 → s ∈ fs)
    (h1 : powMod p 384 a (p - 1) 1 % p = 1)
    (h2 : fs.all (fun s => !Nat.beq (powMod p 384 a ((p - 1) / s) 1 % p) 1) = true) : p.Prime := by
  have hm : ((p : ℕ) : ZMod p) = 0 := ZMod.natCast_self p
  have key : ∀ e, e < 2 ^ 384 → ((powMod p 384 a e 1 % p : ℕ) : ZMod p) = (a : ZMod p) ^ e := by
    intro e he
    rw [ZMod.natCast_mod, powMod_spec hm _ _ _ _ he]; simp
  refine lucas_primality p (a : ZMod p) ?_ ?_
  · rw [← key _ (by omega), h1]; simp
  · intro s hs hd h
    have hm := List.all_eq_true.mp h2 s (hprod s hs hd)
    have hlt : (p - 1) / s < 2 ^ 384 := lt_of_le_of_lt (Nat.div_le_self _ _) (by omega)
    rw [← key _ hlt] at h
    have : ((powMod p 384 a ((p - 1) / s) 1 % p : ℕ) : ZMod p) = ((1 : ℕ) : ZMod p) := by
      rw [h]; simp
    rw [ZMod.natCast_eq_natCast_iff', Nat.mod_mod, Nat.mod_eq_of_lt hp] at this
    rw [this] at hm
    exact absurd hm (by decide)

theorem rLit_prime : rLit.Prime := by
  refine lucas_list (a := 7) (fs := [2, 3, 11, 19, 10177, 125527, 859267, 906349, 2508409, 2529403,
    52437899, 254760293]) (by decide +kernel) (by decide +kernel) ?_ (by decide +kernel)
    (by decide +kernel)
  intro s hs hd
  have hp : rLit - 1 = [2, 3, 11, 19, 10177, 125527, 859267, 906349, 2508409, 2529403,
    52437899, 254760293].prod * (2 ^ 31 * 906349 * 254760293) := by decide +kernel
  rw [hp] at hd
  rcases hs.dvd_mul.mp hd with h | h
  · exact prime_dvd_list hs rFactors_prime h
  · rcases hs.dvd_mul.mp h with h | h
    · rcases hs.dvd_mul.mp h with h | h
      · have := (Nat.prime_dvd_prime_iff_eq hs Nat.prime_two).mp (hs.dvd_of_dvd_pow h)
        simp [this]
      · have := (Nat.prime_dvd_prime_iff_eq hs (rFactors_prime 906349 (by simp))).mp h
        simp [this]
    · have := (Nat.prime_dvd_prime_iff_eq hs (rFactors_prime 254760293 (by simp))).mp h
      simp [this]

theorem r_eq : r = rLit := by unfold r rLit; rfl

theorem r_prime : r.Prime := r_eq ▸ rLit_prime

instance : Fact r.Prime := ⟨r_prime⟩

def qLit : ℕ := 4002409555221667393417789825735904156556882819939007885332058136124031650490837864442687629129015664037894272559787

theorem q_eq : q = qLit := by unfold q qLit; rfl

def gxLit : ℕ := 3685416753713387016781088315183077757961620795782546409894578378688607592378376318836054947676345821548104185464507
def gyLit : ℕ := 1339506544944476473020471379941921221584933875938349620426543736416511423956333506472724655353366534992391756441569

theorem g1_chain : Chain.run (Chain.natOps qLit) gxLit gyLit Chain.g1Slopes 1 gxLit gyLit =
    some (rLit - 1, gxLit, qLit - gyLit) := by decide +kernel

/-- In any field where `q = 0`, the generator of G1 has order dividing `r`. -/
theorem g1_order_field {F : Type*} [Field F] [DecidableEq F] (hq : ((qLit : ℕ) : F) = 0)
    {B : (curve (4 : F)).Point} (hB : IsAt B (gxLit : F) (gyLit : F)) : rLit • B = 0 := by
  have h := Chain.run_sound (Chain.natOps_sound (F := F) (by decide +kernel) hq) hB
    Chain.g1Slopes 1 gxLit gyLit _ _ _ (by simpa using hB) g1_chain
  have e : rLit = (rLit - 1) + 1 := by decide +kernel
  rw [e, succ_nsmul, add_comm]
  refine hB.add_neg ?_
  have : ((qLit - gyLit : ℕ) : F) = -(gyLit : F) := by
    rw [Nat.cast_sub (by decide +kernel), hq, zero_sub]
  simp only [this] at h
  exact h

/-- Crude bound on the number of points. -/
theorem card_points_le {F : Type*} [Field F] [Finite F] (b : F) :
    Finite (curve b).Point ∧ Nat.card (curve b).Point ≤ 2 * Nat.card F + 1 := by
  classical
  have : ∀ x : F, ∃ s : F, ∀ y, y ^ 2 = x ^ 3 + b → y = s ∨ y = -s := by
    intro x
    by_cases h : ∃ s, s ^ 2 = x ^ 3 + b
    · obtain ⟨s, hs⟩ := h
      exact ⟨s, fun y hy => sq_eq_sq_iff_eq_or_eq_neg.mp (hy.trans hs.symm)⟩
    · exact ⟨0, fun y hy => absurd ⟨y, hy⟩ h⟩
  choose s hs using this
  let f : Option (F × Bool) → (curve b).Point → Prop := fun o P =>
    match o with
    | none => P = 0
    | some (x, c) => IsAt P x (if c then s x else -s x)
  have hf : ∀ P, ∃ o, f o P := by
    intro P
    rcases zero_or_isAt P with h | ⟨x, y, h⟩
    · exact ⟨none, h⟩
    · rcases hs x y h.on with e | e
      · exact ⟨some (x, true), by simpa [f, ← e] using h⟩
      · exact ⟨some (x, false), by simpa [f, ← e] using h⟩
  choose g hg using hf
  have inj : Function.Injective g := by
    intro P Q e
    have h1 := hg P
    have h2 := hg Q
    rw [← e] at h2
    cases h : g P with
    | none => rw [h] at h1 h2; exact h1.trans h2.symm
    | some a => rw [h] at h1 h2; exact IsAt.inj h1 h2
  have : Fintype F := Fintype.ofFinite F
  refine ⟨Finite.of_injective g inj, (Nat.card_le_card_of_injective g inj).trans ?_⟩
  rw [Nat.card_eq_fintype_card, Nat.card_eq_fintype_card, Fintype.card_option, Fintype.card_prod,
    Fintype.card_bool, mul_comm]

attribute [irreducible] qLit rLit gxLit gyLit

theorem size_contra {r p N : ℕ} (h : r ≤ 2 * p + 1) (hsq : p ^ 2 ≤ N) : (r - 1) ^ 2 ≤ 4 * N := by
  calc (r - 1) ^ 2 ≤ (2 * p) ^ 2 := Nat.pow_le_pow_left (by omega) 2
    _ = 4 * p ^ 2 := by ring
    _ ≤ 4 * N := by omega

theorem qLit_prime : qLit.Prime := by
  have h1 : qLit ≠ 1 := by decide +kernel
  have hp : qLit.minFac.Prime := Nat.minFac_prime h1
  by_contra hq
  have hsq : qLit.minFac ^ 2 ≤ qLit := Nat.minFac_sq_le_self (by decide +kernel) hq
  have hdvd : qLit.minFac ∣ qLit := Nat.minFac_dvd qLit
  generalize qLit.minFac = p at hp hsq hdvd
  have : Fact p.Prime := ⟨hp⟩
  have h0 : ((qLit : ℕ) : ZMod p) = 0 := (ZMod.natCast_eq_zero_iff _ _).mpr hdvd
  have hcop : ∀ a : ℕ, Nat.gcd a qLit = 1 → (a : ZMod p) ≠ 0 := fun a h =>
    (Chain.natOps_sound (F := ZMod p) (N := qLit) (by decide +kernel) h0).nz a
      (by simp only [Chain.natOps, h]; rfl)
  have : GoodCurve (4 : ZMod p) :=
    ⟨by simpa using hcop 2 (by decide +kernel), by simpa using hcop 3 (by decide +kernel),
      by simpa using hcop 4 (by decide +kernel)⟩
  have hon : ((gyLit : ℕ) : ZMod p) ^ 2 = ((gxLit : ℕ) : ZMod p) ^ 3 + 4 := by
    have e : (gyLit ^ 2) % qLit = (gxLit ^ 3 + 4) % qLit := by decide +kernel
    exact Chain.cast_curve h0 e
  have hB := pt_isAt hon
  have hr := g1_order_field h0 hB
  have hord : addOrderOf (pt _ _ hon) = rLit := by
    have := (Nat.dvd_prime rLit_prime).mp (addOrderOf_dvd_of_nsmul_eq_zero hr)
    rcases this with h | h
    · exact absurd (AddMonoid.addOrderOf_eq_one_iff.mp h) hB.ne_zero
    · exact h
  obtain ⟨hfin, hcard⟩ := card_points_le (4 : ZMod p)
  have hle : rLit ≤ Nat.card (curve (4 : ZMod p)).Point := by
    rw [← hord]
    exact addOrderOf_le_card
  rw [Nat.card_zmod] at hcard
  have := size_contra (hle.trans hcard) hsq
  revert this
  decide +kernel

theorem q_prime : q.Prime := q_eq ▸ qLit_prime

instance : Fact q.Prime := ⟨q_prime⟩

end Bls
