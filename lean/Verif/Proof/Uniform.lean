import Mathlib.Data.ZMod.QuotientGroup
import Mathlib.GroupTheory.OrderOfElement
import Mathlib.SetTheory.Cardinal.Finite
import Mathlib.Data.Fin.Tuple.Basic
import Mathlib.Logic.Equiv.Fin.Basic
import Mathlib.Tactic.Abel
/-
Counting for C65: fibres of the multiplication by a cofactor, the draws that select a point, and the lists of draws on
which rejection sampling gives a result.
-/
namespace Bls.Uniform

/-! ## Fibres of the multiplication by the cofactor -/

theorem exists_inv {G : Type*} [AddCommGroup G] {h l : ℕ} (hl : 1 < l) (hco : Nat.Coprime h l) :
    ∃ u : ℕ, ∀ P : G, l • P = 0 → h • (u • P) = P := by
  obtain ⟨u, hu⟩ := Nat.exists_mul_mod_eq_one_of_coprime hco hl
  refine ⟨u, fun P hP => ?_⟩
  rw [← mul_nsmul, mul_comm u h]
  conv_lhs => rw [← Nat.div_add_mod (h * u) l, hu.2, add_nsmul, mul_nsmul, hP, nsmul_zero, zero_add, one_nsmul]

theorem card_torsion {G : Type*} [AddCommGroup G] {l : ℕ} {g : G} (hg : addOrderOf g = l)
    (ht : ∀ P : G, l • P = 0 → ∃ k : ℕ, P = k • g) : Nat.card {P : G // l • P = 0} = l := by
  refine (Nat.card_congr (Equiv.subtypeEquivRight fun P => ?_)).trans ((Nat.card_zmultiples g).trans hg)
  rw [AddSubgroup.mem_zmultiples_iff]
  constructor
  · intro h
    obtain ⟨k, rfl⟩ := ht P h
    exact ⟨k, natCast_zsmul _ _⟩
  · rintro ⟨k, rfl⟩
    rw [← natCast_zsmul, ← mul_zsmul, mul_comm, mul_zsmul, natCast_zsmul, ← hg, addOrderOf_nsmul_eq_zero, zsmul_zero]

theorem card_fibre {G : Type*} [AddCommGroup G] [Finite G] {h l : ℕ} {g : G} (hl : 1 < l) (hc : Nat.card G = h * l)
    (hco : Nat.Coprime h l) (hg : addOrderOf g = l) (ht : ∀ P : G, l • P = 0 → ∃ k : ℕ, P = k • g) {P : G}
    (hP : l • P = 0) : Nat.card {T : G // h • T = P} = h := by
  obtain ⟨u, hu⟩ := exists_inv (G := G) hl hco
  have hT (T : G) : l • (h • T) = 0 := by rw [← mul_nsmul, ← hc]; exact card_nsmul_eq_zero'
  have e1 : {T : G // h • T = P} ≃ {T : G // h • T = 0} :=
    { toFun := fun T => ⟨T.1 - u • P, by rw [nsmul_sub, hu P hP, T.2, sub_self]⟩
      invFun := fun T => ⟨T.1 + u • P, by rw [nsmul_add, hu P hP, T.2, zero_add]⟩
      left_inv := fun T => Subtype.ext (sub_add_cancel _ _)
      right_inv := fun T => Subtype.ext (add_sub_cancel_right _ _) }
  have e2 : G ≃ {T : G // h • T = 0} × {P : G // l • P = 0} :=
    { toFun := fun T => (⟨T - u • (h • T), by rw [nsmul_sub, hu _ (hT T), sub_self]⟩, ⟨h • T, hT T⟩)
      invFun := fun x => x.1.1 + u • x.2.1
      left_inv := fun T => sub_add_cancel _ _
      right_inv := fun x => by
        have : h • (x.1.1 + u • x.2.1) = x.2.1 := by rw [nsmul_add, hu _ x.2.2, x.1.2, zero_add]
        refine Prod.ext (Subtype.ext ?_) (Subtype.ext this)
        change x.1.1 + u • x.2.1 - u • (h • (x.1.1 + u • x.2.1)) = x.1.1
        rw [this, add_sub_cancel_right] }
  rw [Nat.card_congr e1]
  have := Nat.card_congr e2
  rw [Nat.card_prod, card_torsion hg ht, hc] at this
  exact (Nat.eq_of_mul_eq_mul_right (by omega) this).symm

/-- The fibre without the identity. -/
theorem card_fibre_ne {G : Type*} [AddCommGroup G] [Finite G] {h l : ℕ} {g : G} (hl : 1 < l) (hc : Nat.card G = h * l)
    (hco : Nat.Coprime h l) (hg : addOrderOf g = l) (ht : ∀ P : G, l • P = 0 → ∃ k : ℕ, P = k • g) {P : G}
    [Decidable (P = 0)] (hP : l • P = 0) : Nat.card {T : G // T ≠ 0 ∧ h • T = P} = if P = 0 then h - 1 else h := by
  split_ifs with h0
  · subst h0
    have hf := card_fibre hl hc hco hg ht hP
    have e : {T : G // h • T = 0} ≃ Option {T : G // T ≠ 0 ∧ h • T = 0} := by
      classical
      exact
      { toFun := fun T => if h' : T.1 = 0 then none else some ⟨T.1, h', T.2⟩
        invFun := fun o => o.elim ⟨0, nsmul_zero h⟩ fun T => ⟨T.1, T.2.2⟩
        left_inv := fun T => by
          by_cases h' : T.1 = 0
          · simp only [h', dite_true, Option.elim_none]
            exact Subtype.ext h'.symm
          · simp only [h', dite_false, Option.elim_some]
        right_inv := fun o => by
          cases o with
          | none => simp
          | some T => simp [T.2.1] }
    rw [Nat.card_congr e, Finite.card_option] at hf
    omega
  · refine (Nat.card_congr (Equiv.subtypeEquivRight fun T => ⟨And.right, fun h' => ⟨?_, h'⟩⟩)).trans
      (card_fibre hl hc hco hg ht hP)
    rintro rfl
    rw [nsmul_zero] at h'
    exact h0 h'.symm

/-! ## The draws that select a point -/

/-- The draw `(b, x)` selects the point `T`: its coordinate is `x`, and `b` is even exactly if its y is the greater. -/
def Sel {G X : Type*} [Zero G] (xOf : G → X) (gr : G → Prop) (d : UInt8 × X) (T : G) : Prop :=
  T ≠ 0 ∧ xOf T = d.2 ∧ (gr T ↔ d.1 % 2 = 0)

theorem Sel.unique {G X : Type*} [Zero G] {xOf : G → X} {gr : G → Prop}
    (inj : ∀ T T', T ≠ 0 → T' ≠ 0 → xOf T = xOf T' → (gr T ↔ gr T') → T = T') {d : UInt8 × X} {T T' : G}
    (h : Sel xOf gr d T) (h' : Sel xOf gr d T') : T = T' :=
  inj T T' h.1 h'.1 (h.2.1.trans h'.2.1.symm) (h.2.2.trans h'.2.2.symm)

theorem card_sel {G X : Type*} [Zero G] {xOf : G → X} {gr : G → Prop}
    (inj : ∀ T T', T ≠ 0 → T' ≠ 0 → xOf T = xOf T' → (gr T ↔ gr T') → T = T') (A : G → Prop) :
    Nat.card {d : UInt8 × X // ∃ T, Sel xOf gr d T ∧ A T} = Nat.card {T : G // T ≠ 0 ∧ A T} * 128 := by
  classical
  have bytes : ∀ b : Fin 256, ∀ c : Fin 256, UInt8.ofFin b / 2 = UInt8.ofFin c / 2 →
      (UInt8.ofFin b % 2 = 0 ↔ UInt8.ofFin c % 2 = 0) → b = c := by decide +kernel
  have bytes' : ∀ c : Fin 128, UInt8.ofNat (2 * c) / 2 = UInt8.ofNat c ∧ UInt8.ofNat (2 * c) % 2 = 0 ∧
      UInt8.ofNat (2 * c + 1) / 2 = UInt8.ofNat c ∧ UInt8.ofNat (2 * c + 1) % 2 ≠ 0 ∧ (UInt8.ofNat c).toNat = c := by
    decide +kernel
  have half : ∀ b : UInt8, (b / 2).toNat < 128 := fun b => by
    rw [UInt8.toNat_div]
    have := b.toNat_lt
    simp only [UInt8.reduceToNat]
    omega
  conv_rhs => rw [← Nat.card_fin 128, ← Nat.card_prod]
  let f : {d : UInt8 × X // ∃ T, Sel xOf gr d T ∧ A T} → {T : G // T ≠ 0 ∧ A T} × Fin 128 :=
    fun d => (⟨d.2.choose, d.2.choose_spec.1.1, d.2.choose_spec.2⟩, ⟨(d.1.1 / 2).toNat, half _⟩)
  refine Nat.card_congr (Equiv.ofBijective f ⟨?_, ?_⟩)
  · intro d d' h
    have hT : d.2.choose = d'.2.choose := congrArg (fun z => z.1.1) h
    have hb : (d.1.1 / 2).toNat = (d'.1.1 / 2).toNat := congrArg (fun z => z.2.1) h
    have s := d.2.choose_spec.1
    have s' := d'.2.choose_spec.1
    rw [← hT] at s'
    refine Subtype.ext (Prod.ext ?_ (s.2.1.symm.trans s'.2.1))
    have := bytes d.1.1.toFin d'.1.1.toFin (UInt8.toNat_inj.mp hb) (s.2.2.symm.trans s'.2.2)
    exact UInt8.toFin_inj.mp this
  · rintro ⟨⟨T, h0, hA⟩, c⟩
    obtain ⟨b1, b2, b3, b4, b5⟩ := bytes' c
    have key : ∃ b : UInt8, b / 2 = UInt8.ofNat c ∧ (gr T ↔ b % 2 = 0) := by
      by_cases hg : gr T
      · exact ⟨_, b1, iff_of_true hg b2⟩
      · exact ⟨_, b3, iff_of_false hg b4⟩
    obtain ⟨b, k1, k2⟩ := key
    have hs : Sel xOf gr (b, xOf T) T := ⟨h0, rfl, k2⟩
    refine ⟨⟨(b, xOf T), T, hs, hA⟩, Prod.ext (Subtype.ext ?_) (Fin.ext ?_)⟩
    · exact Sel.unique inj (Exists.choose_spec (⟨T, hs, hA⟩ : ∃ T', Sel xOf gr (b, xOf T) T' ∧ A T')).1 hs
    · change (b / 2).toNat = c.1
      rw [k1, b5]

/-! ## Rejection sampling -/

/-- The number of lists of `n` draws on which the result is `P`, when each draw gives `P` in one case, is rejected in
another, and a rejected draw leads to the next. -/
theorem card_run {D G : Type*} [Finite D] (A : D → G → Prop) (R : D → Prop) (Run : List D → G → Prop) (P : G)
    (h1 : ∀ d l, Run (d :: l) P ↔ A d P ∨ (R d ∧ Run l P)) (hd : ∀ d, R d → ¬ A d P) (n : ℕ) :
    Nat.card {v : Fin (n + 1) → D // Run (List.ofFn v) P} =
      Nat.card {d // A d P} * Nat.card D ^ n + Nat.card {d // R d} * Nat.card {v : Fin n → D // Run (List.ofFn v) P} := by
  classical
  have e : {v : Fin (n + 1) → D // Run (List.ofFn v) P} ≃
      ({d // A d P} × (Fin n → D)) ⊕ ({d // R d} × {v : Fin n → D // Run (List.ofFn v) P}) :=
    { toFun := fun v => if h : A (v.1 0) P then .inl (⟨v.1 0, h⟩, Fin.tail v.1) else
        .inr (⟨v.1 0, by
          have := v.2
          rw [List.ofFn_succ, h1] at this
          exact (this.resolve_left h).1⟩, ⟨Fin.tail v.1, by
          have := v.2
          rw [List.ofFn_succ, h1] at this
          exact (this.resolve_left h).2⟩)
      invFun := fun s => match s with
        | .inl x => ⟨Fin.cons x.1.1 x.2, by
            rw [List.ofFn_succ, h1]
            exact .inl x.1.2⟩
        | .inr x => ⟨Fin.cons x.1.1 x.2.1, by
            rw [List.ofFn_succ, h1]
            exact .inr ⟨x.1.2, x.2.2⟩⟩
      left_inv := fun v => by
        dsimp only
        split_ifs with h
        · exact Subtype.ext (Fin.cons_self_tail v.1)
        · exact Subtype.ext (Fin.cons_self_tail v.1)
      right_inv := fun s => by
        rcases s with ⟨⟨d, h⟩, v⟩ | ⟨⟨d, h⟩, v⟩
        · dsimp only
          rw [dif_pos (by exact h)]
          rfl
        · dsimp only
          rw [dif_neg (by exact hd d h)]
          rfl }
  rw [Nat.card_congr e, Nat.card_sum, Nat.card_prod, Nat.card_prod, Nat.card_fun, Nat.card_fin]

/-- So it depends only on the number of draws that give `P`. -/
theorem card_run_eq {D G : Type*} [Finite D] (A : D → G → Prop) (R : D → Prop) (Run : List D → G → Prop)
    (h0 : ∀ P, ¬ Run [] P) (h1 : ∀ d l P, Run (d :: l) P ↔ A d P ∨ (R d ∧ Run l P)) (hd : ∀ d P, R d → ¬ A d P)
    {P P' : G} (h : Nat.card {d // A d P} = Nat.card {d // A d P'}) (n : ℕ) :
    Nat.card {v : Fin n → D // Run (List.ofFn v) P} = Nat.card {v : Fin n → D // Run (List.ofFn v) P'} := by
  induction n with
  | zero =>
    refine Nat.card_congr (Equiv.subtypeEquivRight fun v => ?_)
    rw [List.ofFn_zero]
    exact iff_of_false (h0 P) (h0 P')
  | succ n ih =>
    rw [card_run A R Run P (fun d l => h1 d l P) (fun d => hd d P),
      card_run A R Run P' (fun d l => h1 d l P') (fun d => hd d P'), h, ih]

end Bls.Uniform
