import Mathlib.Data.Vector.Basic
import Mathlib.Data.Fintype.BigOperators
import Mathlib.Logic.Equiv.Fin.Basic
import Mathlib.SetTheory.Cardinal.Finite
import Verif.Proof.Encode
import Verif.Proof.HashTop
import Verif.Proof.SwEncode
import Verif.Proof.Rand
import Verif.Spec.Reader
set_option exponentiation.threshold 1000
namespace Bls.Reader

theorem masked {mask : UInt8} {e k : ℕ} (he : ∀ b : UInt8, (b &&& mask).toNat = b.toNat % 2 ^ e) {b : List UInt8}
    (hb : b.length = k + 1) : bytesNat (maskTop mask b) = beNat b % (2 ^ e * 256 ^ k) := by
  match b, hb with
  | x :: t, hb =>
    have hl : t.length = k := by simpa using hb
    change beNat ((x &&& mask) :: t) = _
    have ht := beNat_lt t
    rw [beNat_cons, beNat_cons, he, hl]
    rw [hl] at ht
    generalize (256 : ℕ) ^ k = K at *
    generalize (2 : ℕ) ^ e = E
    rw [mul_comm E K, Nat.mod_mul]
    have K0 : 0 < K := by omega
    rw [mul_comm x.toNat K, Nat.mul_add_mod, Nat.mod_eq_of_lt ht, Nat.mul_add_div K0, Nat.div_eq_of_lt ht, Nat.add_zero]
    ring

/-- What is used of `rand.Int` for one modulus: blocks of `k` bytes, of which the lower `bits` count. -/
structure Shape (max k M c : ℕ) : Prop where
  pos : 0 < k
  le : max ≤ M
  mul : c * M = 256 ^ k
  run : ∀ b l : List UInt8, b.length = k →
    randInt max (b ++ l) = if beNat b % M < max then (some (beNat b % M), l) else randInt max l
  short : ∀ l : List UInt8, l.length < k → randInt max l = (none, [])

theorem shape {max : ℕ} (bits e k M c : ℕ) (h1 : Nat.log2 (max - 1) + 1 = bits) (h2 : (bits + 7) / 8 = k + 1)
    (h3 : (if bits % 8 = 0 then 8 else bits % 8) = e) (h4 : ∀ b : UInt8, (b &&& UInt8.ofNat (2 ^ e - 1)).toNat = b.toNat % 2 ^ e)
    (h5 : 2 ^ e * 256 ^ k = M) (h6 : max ≤ M) (h7 : c * M = 256 ^ (k + 1)) : Shape max (k + 1) M c := by
  have e : ∀ l, randInt max l = randIntLoop max (k + 1) (UInt8.ofNat (2 ^ e - 1)) l := fun l => by
    simp only [randInt, h1, h2, h3]
  refine ⟨by omega, h6, h7, fun b l hb => ?_, fun l hl => ?_⟩
  · rw [e, e, randIntLoop, dif_pos ⟨by omega, by rw [List.length_append]; omega⟩, List.take_left' hb, List.drop_left' hb,
      masked h4 hb, h5]
  · rw [e, randIntLoop, dif_neg (by omega)]

variable {max k M c : ℕ}

/-- A draw takes the first block that is not rejected. -/
theorem Shape.some_iff (s : Shape max k M c) : ∀ {l : List UInt8} {v rest}, randInt max l = (some v, rest) ↔
    ∃ (bs : List (List UInt8)) (b : List UInt8), (∀ x ∈ bs, x.length = k ∧ max ≤ beNat x % M) ∧ b.length = k ∧
      beNat b % M = v ∧ v < max ∧ l = bs.flatten ++ b ++ rest := by
  intro l v rest
  constructor
  · induction hn : l.length using Nat.strong_induction_on generalizing l with
    | _ n ih =>
      intro h
      rcases Nat.lt_or_ge l.length k with hl | hl
      · rw [s.short l hl] at h; cases h
      · have hk := s.pos
        have ht : (l.take k).length = k := by rw [List.length_take]; omega
        rw [← List.take_append_drop k l, s.run _ _ ht] at h
        split at h
        · cases h
          exact ⟨[], l.take k, by simp, ht, rfl, by assumption, by simp⟩
        · obtain ⟨bs, b, h1, h2, h3, h4, h5⟩ := ih (l.drop k).length (by rw [List.length_drop]; omega) rfl h
          refine ⟨l.take k :: bs, b, fun x hx => ?_, h2, h3, h4, ?_⟩
          · rcases List.mem_cons.mp hx with rfl | hx
            · exact ⟨ht, by omega⟩
            · exact h1 x hx
          · rw [List.flatten_cons, List.append_assoc, List.append_assoc, ← List.append_assoc bs.flatten, ← h5,
              List.take_append_drop]
  · rintro ⟨bs, b, h1, h2, h3, h4, rfl⟩
    induction bs with
    | nil =>
      rw [List.flatten_nil, List.nil_append, s.run _ _ h2, h3, if_pos h4]
    | cons x bs ih =>
      have := h1 x (List.mem_cons_self ..)
      rw [List.flatten_cons, List.append_assoc, List.append_assoc, s.run _ _ this.1, if_neg (by omega), ← List.append_assoc]
      exact ih fun y hy => h1 y (List.mem_cons_of_mem _ hy)

/-- Without such a block the draw fails. -/
theorem Shape.none (s : Shape max k M c) : ∀ (bs : List (List UInt8)) (t : List UInt8),
    (∀ x ∈ bs, x.length = k ∧ max ≤ beNat x % M) → t.length < k → randInt max (bs.flatten ++ t) = (none, [])
  | [], t, _, ht => s.short t ht
  | x :: bs, t, h, ht => by
    have := h x (List.mem_cons_self ..)
    rw [List.flatten_cons, List.append_assoc, s.run _ _ this.1, if_neg (by omega)]
    exact s.none bs t (fun y hy => h y (List.mem_cons_of_mem _ hy)) ht

theorem Shape.split (s : Shape max k M c) (l : List UInt8) : ∃ (bs : List (List UInt8)),
    (∀ x ∈ bs, x.length = k ∧ max ≤ beNat x % M) ∧ ((∃ t, t.length < k ∧ l = bs.flatten ++ t) ∨
      ∃ b rest, b.length = k ∧ beNat b % M < max ∧ l = bs.flatten ++ b ++ rest) := by
  induction hn : l.length using Nat.strong_induction_on generalizing l with
  | _ n ih =>
    rcases Nat.lt_or_ge l.length k with hl | hl
    · exact ⟨[], by simp, Or.inl ⟨l, hl, rfl⟩⟩
    · have hk := s.pos
      have ht : (l.take k).length = k := by rw [List.length_take]; omega
      rcases Nat.lt_or_ge (beNat (l.take k) % M) max with h | h
      · exact ⟨[], by simp, Or.inr ⟨l.take k, l.drop k, ht, h, by simp⟩⟩
      · obtain ⟨bs, h1, h2⟩ := ih (l.drop k).length (by rw [List.length_drop]; omega) _ rfl
        refine ⟨l.take k :: bs, fun x hx => ?_, ?_⟩
        · rcases List.mem_cons.mp hx with rfl | hx
          · exact ⟨ht, h⟩
          · exact h1 x hx
        · rcases h2 with ⟨t, h2, h3⟩ | ⟨b, rest, h2, h3, h4⟩
          · exact Or.inl ⟨t, h2, by rw [List.flatten_cons, List.append_assoc, ← h3, List.take_append_drop]⟩
          · exact Or.inr ⟨b, rest, h2, h3, by
              rw [List.flatten_cons, List.append_assoc, List.append_assoc, ← List.append_assoc bs.flatten, ← h4,
                List.take_append_drop]⟩

theorem Shape.lt (s : Shape max k M c) {l : List UInt8} {v rest} (h : randInt max l = (some v, rest)) : v < max := by
  obtain ⟨_, _, _, _, _, h, _⟩ := s.some_iff.mp h
  exact h

/-- `m` draws. -/
def ints (max : ℕ) : ℕ → List UInt8 → Option (List ℕ)
  | 0, _ => some []
  | m + 1, l => match randInt max l with
    | (some v, rest) => (ints max m rest).map (v :: ·)
    | (none, _) => none

/-! ## Counting -/

abbrev Block (k : ℕ) := List.Vector UInt8 k

local instance : Fintype UInt8 := Fintype.ofEquiv (Fin 256) ⟨fun i => ⟨⟨i⟩⟩, fun b => b.toBitVec.toFin, fun _ => rfl, fun _ => rfl⟩

theorem card_u8 : Fintype.card UInt8 = 256 := by rw [Fintype.ofEquiv_card, Fintype.card_fin]

/-- Blocks are numbers. -/
noncomputable def blockEquiv (hm : c * M = 256 ^ k) : Block k ≃ Fin c × Fin M :=
  (Equiv.ofBijective (fun b : Block k => (⟨beNat b.1, by have := beNat_lt b.1; rw [b.2] at this; rw [hm]; exact this⟩ : Fin (c * M)))
    ((Fintype.bijective_iff_injective_and_card _).mpr ⟨fun a b h => Subtype.ext (beNat_inj (a.2.trans b.2.symm) (by
      simpa using h)), by rw [card_vector, card_u8, Fintype.card_fin, hm]⟩)).trans finProdFinEquiv.symm

theorem blockEquiv_snd (hm : c * M = 256 ^ k) (b : Block k) : ((blockEquiv hm b).2 : ℕ) = beNat b.1 % M := rfl

theorem card_value (hm : c * M = 256 ^ k) {v : ℕ} (hv : v < M) : Nat.card {b : Block k // beNat b.1 % M = v} = c := by
  have e : {b : Block k // beNat b.1 % M = v} ≃ Fin c :=
    ((blockEquiv hm).subtypeEquiv (q := fun p => p.2 = ⟨v, hv⟩) fun b => by
      rw [← blockEquiv_snd hm, Fin.ext_iff]).trans
    ⟨fun p => p.1.1, fun i => ⟨(i, ⟨v, hv⟩), rfl⟩, fun p => by
      obtain ⟨⟨i, j⟩, h⟩ := p
      simp only at h
      subst h; rfl, fun _ => rfl⟩
  rw [Nat.card_congr e, Nat.card_fin]

theorem card_rejected (hm : c * M = 256 ^ k) (hx : max ≤ M) :
    Nat.card {b : Block k // ¬ beNat b.1 % M < max} = c * (M - max) := by
  have e : {b : Block k // ¬ beNat b.1 % M < max} ≃ Fin c × Fin (M - max) :=
    ((blockEquiv hm).subtypeEquiv (q := fun p => ¬ p.2.1 < max) fun b => by
      rw [← blockEquiv_snd hm]).trans
    ⟨fun p => (p.1.1, ⟨p.1.2.1 - max, by have := p.1.2.2; have := p.2; omega⟩),
      fun p => ⟨(p.1, ⟨p.2.1 + max, by have := p.2.2; omega⟩), by simp⟩, fun p => by
      obtain ⟨⟨i, j⟩, h⟩ := p
      simp only at h
      refine Subtype.ext (Prod.ext rfl (Fin.ext ?_))
      change j.1 - max + max = j.1
      omega, fun p => Prod.ext rfl (Fin.ext (by
        change p.2.1 + max - max = p.2.1
        omega))⟩
  rw [Nat.card_congr e, Nat.card_prod, Nat.card_fin, Nat.card_fin]

/-- Sums over the first block. -/
theorem card_cons {n : ℕ} (p : Blocks (n + 1) k → Prop) :
    Nat.card {x // p x} = ∑ b : Block k, Nat.card {v : Blocks n k // p (b ::ᵥ v)} := by
  rw [← Nat.card_sigma]
  refine Nat.card_congr ⟨fun x => ⟨x.1.head, x.1.tail, by rw [List.Vector.cons_head_tail]; exact x.2⟩,
    fun y => ⟨y.1 ::ᵥ y.2.1, y.2.2⟩, fun x => Subtype.ext (List.Vector.cons_head_tail _), fun y => ?_⟩
  rfl

theorem bytes_cons {n : ℕ} (b : Block k) (v : Blocks n k) : Blocks.bytes (b ::ᵥ v) = b.1 ++ Blocks.bytes v := rfl

theorem sum_cases (s : Shape max k M c) (f : Option ℕ → ℕ) (v : ℕ) (hv : v < max) (h0 : ∀ w, w ≠ v → f (some w) = 0) :
    ∑ b : Block k, f (if beNat b.1 % M < max then some (beNat b.1 % M) else none) =
      c * f (some v) + c * (M - max) * f none := by
  classical
  have e : ∀ b : Block k, f (if beNat b.1 % M < max then some (beNat b.1 % M) else none) =
      (if beNat b.1 % M = v then f (some v) else 0) + if ¬ beNat b.1 % M < max then f none else 0 := by
    intro b
    by_cases h : beNat b.1 % M < max
    · rw [if_pos h, if_neg (not_not.mpr h), add_zero]
      split
      · next e => rw [e]
      · next e => exact h0 _ e
    · rw [if_neg h, if_pos h, if_neg (by omega), zero_add]
  have hle := s.le
  rw [Finset.sum_congr rfl fun b _ => e b, Finset.sum_add_distrib, ← Finset.sum_filter, ← Finset.sum_filter,
    Finset.sum_const, Finset.sum_const, smul_eq_mul, smul_eq_mul, ← Fintype.card_subtype, ← Fintype.card_subtype,
    ← Nat.card_eq_fintype_card, ← Nat.card_eq_fintype_card, card_value s.mul (by omega), card_rejected s.mul hle]

/-- The number of streams of `n` blocks from which the numbers `vs` are drawn. -/
noncomputable def number (max k n : ℕ) (vs : List ℕ) : ℕ :=
  Nat.card {x : Blocks n k // ints max vs.length x.bytes = some vs}

theorem number_nil (n : ℕ) : number max k n [] = 256 ^ (k * n) := by
  rw [number]
  have : ∀ x : Blocks n k, ints max ([] : List ℕ).length x.bytes = some [] := fun _ => rfl
  rw [Nat.card_congr (Equiv.subtypeUnivEquiv this), Nat.card_eq_fintype_card, card_vector, card_vector, card_u8, ← pow_mul]

theorem number_zero (s : Shape max k M c) (v : ℕ) (vs : List ℕ) : number max k 0 (v :: vs) = 0 := by
  rw [number, Nat.card_eq_zero]
  refine Or.inl ⟨fun x => ?_⟩
  obtain ⟨x, h⟩ := x
  have e : Blocks.bytes x = [] := by rw [Blocks.bytes, List.Vector.eq_nil x]; rfl
  rw [e, List.length_cons, ints, s.short [] (by simpa using s.pos)] at h
  cases h

theorem number_succ (s : Shape max k M c) (n v : ℕ) (vs : List ℕ) (hv : v < max) : number max k (n + 1) (v :: vs) =
    c * number max k n vs + c * (M - max) * number max k n (v :: vs) := by
  rw [number, card_cons]
  refine Eq.trans ?_ ((sum_cases s (fun o => Nat.card {x : Blocks n k // (match o with
    | some w => (ints max vs.length x.bytes).map (w :: ·)
    | none => ints max (vs.length + 1) x.bytes) = some (v :: vs)}) v hv ?_).trans ?_)
  · refine Finset.sum_congr rfl fun b _ => Nat.card_congr (Equiv.subtypeEquivRight fun x => ?_)
    rw [bytes_cons, List.length_cons, ints, s.run _ _ b.2]
    by_cases h : beNat b.1 % M < max
    · rw [if_pos h, if_pos h]
    · rw [if_neg h, if_neg h]
      rfl
  · intro w hw
    rw [Nat.card_eq_zero]
    refine Or.inl ⟨fun x => ?_⟩
    obtain ⟨x, h⟩ := x
    obtain ⟨l, _, h⟩ := Option.map_eq_some_iff.mp h
    exact hw (List.cons.inj h).1
  · congr 2
    rw [number]
    refine Nat.card_congr (Equiv.subtypeEquivRight fun x => ?_)
    rw [Option.map_eq_some_iff]
    exact ⟨fun ⟨l, h1, h2⟩ => by rw [h1, (List.cons.inj h2).2], fun h => ⟨vs, h, rfl⟩⟩

theorem number_eq (s : Shape max k M c) (n : ℕ) : ∀ {vs ws : List ℕ}, vs.length = ws.length → (∀ v ∈ vs, v < max) →
    (∀ w ∈ ws, w < max) → number max k n vs = number max k n ws := by
  induction n with
  | zero =>
    intro vs ws hl _ _
    match vs, ws, hl with
    | [], [], _ => rfl
    | v :: vs, w :: ws, _ => rw [number_zero s, number_zero s]
  | succ n ih =>
    intro vs ws hl h1 h2
    match vs, ws, hl with
    | [], [], _ => rfl
    | v :: vs, w :: ws, hl =>
      rw [number_succ s n v vs (h1 v (List.mem_cons_self ..)), number_succ s n w ws (h2 w (List.mem_cons_self ..)), ih hl h1 h2,
        ih (Nat.succ.inj hl) (fun x hx => h1 x (List.mem_cons_of_mem _ hx)) fun x hx => h2 x (List.mem_cons_of_mem _ hx)]

theorem number_one (s : Shape max k M c) (n v : ℕ) (hv : v < max) :
    number max k n [v] * max + (c * (M - max)) ^ n = 256 ^ (k * n) := by
  have hT : c * max + c * (M - max) = 256 ^ k := by
    rw [← s.mul, ← mul_add, Nat.add_sub_cancel' s.le]
  induction n with
  | zero => rw [number_zero s]; simp
  | succ n ih =>
    rw [number_succ s n v [] hv, number_nil]
    generalize number max k n [v] = N at *
    generalize c * (M - max) = R at *
    rw [Nat.mul_succ, pow_add 256, ← hT, ← ih]
    ring

theorem card_fail (s : Shape max k M c) (n : ℕ) :
    Nat.card {x : Blocks n k // (randInt max x.bytes).1 = none} = (c * (M - max)) ^ n := by
  classical
  induction n with
  | zero =>
    rw [pow_zero]
    have : ∀ x : Blocks 0 k, (randInt max x.bytes).1 = none := fun x => by
      have e : Blocks.bytes x = [] := by rw [Blocks.bytes, List.Vector.eq_nil x]; rfl
      rw [e, s.short [] (by simpa using s.pos)]
    rw [Nat.card_congr (Equiv.subtypeUnivEquiv this), Nat.card_eq_fintype_card, card_vector, pow_zero]
  | succ n ih =>
    rw [card_cons]
    have e : ∀ b : Block k, Nat.card {v : Blocks n k // (randInt max (Blocks.bytes (b ::ᵥ v))).1 = none} =
        if ¬ beNat b.1 % M < max then (c * (M - max)) ^ n else 0 := by
      intro b
      split
      · next h =>
        rw [← ih]
        refine Nat.card_congr (Equiv.subtypeEquivRight fun x => ?_)
        rw [bytes_cons, s.run _ _ b.2, if_neg h]
      · next h =>
        rw [Nat.card_eq_zero]
        refine Or.inl ⟨fun x => ?_⟩
        obtain ⟨x, e⟩ := x
        rw [bytes_cons, s.run _ _ b.2, if_pos (not_not.mp h)] at e
        cases e
    rw [Finset.sum_congr rfl fun b _ => e b, ← Finset.sum_filter, Finset.sum_const, smul_eq_mul, ← Fintype.card_subtype,
      ← Nat.card_eq_fintype_card, card_rejected s.mul s.le, pow_succ, mul_comm]

theorem shapeR : Shape r 32 (2 ^ 255) 2 :=
  shape 255 7 31 _ _ (by rw [r_eq]; decide +kernel) rfl rfl (by apply UInt8.forall_of; decide +kernel) (by decide +kernel)
    (by rw [r_eq]; decide +kernel) (by decide +kernel)

theorem shapeQ : Shape q 48 (2 ^ 381) 8 :=
  shape 381 5 47 _ _ (by rw [q_eq]; decide +kernel) rfl rfl (by apply UInt8.forall_of; decide +kernel) (by decide +kernel)
    (by rw [q_eq]; decide +kernel) (by decide +kernel)

end Bls.Reader
