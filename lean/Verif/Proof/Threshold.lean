import Verif.Spec.Threshold
import Verif.Proof.Lagrange
import Verif.Proof.FRInverse
import Verif.Proof.Int
import Verif.Proof.Lists
/-
Shares and weights as values in `ZMod r`.
-/
set_option exponentiation.threshold 1000
namespace Bls

theorem FR.exists_rep (x : Fr) : ∃ a : FR, a.Rep x := by
  have hx := ZMod.val_lt x
  have hr := r_lt
  have e : (FRRepr.ofNat x.val).toNat = x.val := FRRepr.ofNat_toNat (by omega)
  obtain ⟨a, _, h⟩ := FR.ofRepr?_lt (o := FRRepr.ofNat x.val) (by rw [e]; exact hx)
  exact ⟨a, by rwa [e, ZMod.natCast_zmod_val] at h⟩

theorem shareAt_rep {x : FR} (hx : x.isValid) {cs : List FR} (hc : ∀ c ∈ cs, c.isValid) :
    (shareAt x cs).Rep (valueAt x.val (cs.map FR.val)) := by
  induction cs with
  | nil => exact FR.zero_rep
  | cons c cs ih =>
    exact ((ih fun d m => hc d (List.mem_cons_of_mem _ m)).mul (FR.rep_val hx)).add
      (FR.rep_val (hc c List.mem_cons_self))

theorem lagrangeWeight_rep {x : FR} (hx : x.isValid) {os : List FR} (ho : ∀ o ∈ os, o.isValid) :
    ∃ w, lagrangeWeight x os = some w ∧ w.Rep (weightAt (os.map FR.val) x.val) := by
  induction os with
  | nil => exact ⟨_, rfl, FR.one_rep⟩
  | cons o os ih =>
    obtain ⟨w, h1, h2⟩ := ih fun d m => ho d (List.mem_cons_of_mem _ m)
    have ho' := FR.rep_val (ho o List.mem_cons_self)
    have hx' := FR.rep_val hx
    rw [lagrangeWeight, List.map_cons, weightAt]
    by_cases e : o.val = x.val
    · rw [if_pos ((ho'.equals hx').mpr e), List.filter_cons_of_neg (by simpa using e)]
      exact ⟨w, h1, h2⟩
    · rw [if_neg (mt (ho'.equals hx').mp e), List.filter_cons_of_pos (by simpa using e)]
      obtain ⟨d, h3, h4⟩ := (ho'.sub hx').inverse?_ne (sub_ne_zero.mpr e)
      refine ⟨_, by rw [h3, h1]; rfl, ?_⟩
      have := (h2.mul ho').mul h4
      rw [mul_assoc, mul_comm] at this
      rwa [List.map_cons, List.prod_cons]

theorem mapM_forall₂ {α β : Type} {R : α → β → Prop} {f : α → Option β} {l : List α}
    (h : ∀ a ∈ l, ∃ b, f a = some b ∧ R a b) : ∃ m, l.mapM f = some m ∧ List.Forall₂ R l m := by
  induction l with
  | nil => exact ⟨[], rfl, .nil⟩
  | cons a l ih =>
    obtain ⟨b, h1, h2⟩ := h a List.mem_cons_self
    obtain ⟨m, h3, h4⟩ := ih fun a m => h a (List.mem_cons_of_mem _ m)
    exact ⟨b :: m, by rw [List.mapM_cons, h1, h3]; rfl, .cons h2 h4⟩

theorem val_nsmul {A : Type*} [AddCommGroup A] {H : A} (h : r • H = 0) {k : ℕ} {x : Fr} (e : (k : Fr) = x) :
    k • H = x.val • H := by
  rw [nsmul_mod_r h, ← e, ZMod.val_natCast]

theorem map_val_nodup {xs : List FR} (hx : ∀ x ∈ xs, x.isValid) (hn : xs.Nodup) : (xs.map FR.val).Nodup :=
  hn.map_on fun a ha b hb e => (FR.isValid_iff.mp (hx a ha)).ext (FR.isValid_iff.mp (hx b hb)) e

theorem interpolate_points {A : Type*} [AddCommGroup A] {H : A} (h : r • H = 0) {xs : List Fr} (hn : xs.Nodup)
    {cs : List Fr} (hl : cs.length ≤ xs.length) :
    (xs.map fun x => (weightAt xs x).val • (valueAt x cs).val • H).sum = (cs.headD 0).val • H := by
  have e : (xs.map fun x => (weightAt xs x).val • (valueAt x cs).val • H) =
      (xs.map fun x => (weightAt xs x).val * (valueAt x cs).val).map fun k => k • H := by
    rw [List.map_map]
    exact List.map_congr_left fun x _ => (mul_nsmul' _ _ _).symm
  rw [e, ← sum_nsmul_eq]
  refine val_nsmul h ?_
  rw [← interpolate_zero hn hl, Nat.cast_list_sum, List.map_map]
  congr 1
  exact List.map_congr_left fun x _ => by simp

theorem foldl_add_rep {l : List FR} {vs : List Fr} (h : List.Forall₂ FR.Rep l vs) {a : FR} {v : Fr} (ha : a.Rep v) :
    (l.foldl FR.add a).Rep (v + vs.sum) := by
  induction h generalizing a v with
  | nil => rwa [List.sum_nil, add_zero]
  | cons h _ ih =>
    rw [List.foldl_cons, List.sum_cons, ← add_assoc]
    exact ih (ha.add h)

/-- The parts, scaled by their weights. -/
theorem combine_parts {β γ A : Type} [AddCommGroup A] {is : β → A → Prop} {is' : γ → A → Prop} {scale : β → FR → γ}
    (hs : ∀ b S w x, FR.Rep w x → is b S → is' (scale b w) (x.val • S)) {H : A} {xs : List FR} (hx : ∀ x ∈ xs, x.isValid)
    {ps : List β} {v : Fr → Fr} (hp : List.Forall₂ (fun x p => is p ((v x.val).val • H)) xs ps) :
    ∃ l, ((xs.zip ps).mapM fun p => (lagrangeWeight p.1 ((xs.zip ps).map Prod.fst)).map fun w =>
        scale p.2 w) = some l ∧
      List.Forall₂ is' l ((xs.map FR.val).map fun x => (weightAt (xs.map FR.val) x).val • (v x).val • H) := by
  have e : (xs.zip ps).map Prod.fst = xs := List.map_fst_zip (le_of_eq hp.length_eq)
  rw [e]
  obtain ⟨l, h1, h2⟩ := mapM_forall₂ (l := xs.zip ps)
    (f := fun p => (lagrangeWeight p.1 xs).map fun w => scale p.2 w)
    (R := fun p c => is' c ((weightAt (xs.map FR.val) p.1.val).val • (v p.1.val).val • H)) fun p hm => by
      obtain ⟨w, h1, h2⟩ := lagrangeWeight_rep (hx p.1 (List.of_mem_zip hm).1) hx
      refine ⟨scale p.2 w, by rw [h1]; rfl, ?_⟩
      exact hs _ _ _ _ h2 ((List.forall₂_iff_zip.mp hp).2 hm)
  refine ⟨l, h1, ?_⟩
  have h3 : (xs.map FR.val) = (xs.zip ps).map fun p => p.1.val := by
    conv_lhs => rw [← e, List.map_map]
    rfl
  rw [List.map_map] at *
  have h4 : (xs.map FR.val).map (fun x => (weightAt (xs.map FR.val) x).val • (v x).val • H) =
      (xs.zip ps).map fun p => (weightAt (xs.map FR.val) p.1.val).val • (v p.1.val).val • H := by
    rw [h3, List.map_map]; rfl
  rw [List.map_map] at h4
  rw [h4, List.forall₂_map_right_iff]
  exact h2.flip

end Bls
