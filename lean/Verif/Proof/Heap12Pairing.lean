import Verif.Proof.Heap12
import Verif.Proof.FQ12
import Verif.Model.Pairing
/-
The pairing functions in the memory of `FQ12` values: they return a new object with the value the
value model computes, and leave every object that existed before as it is.
-/
namespace Bls.Heap12
open Function

theorem _root_.Bls.FQ12.expLoop_total : ∀ (k fuel : Nat) (n : FQRepr) (fi res : FQ12), n.toNat < 2 ^ k → k < fuel →
    ∃ out, FQ12.expLoop fuel n fi res = some out := by
  intro k
  induction k with
  | zero =>
    intro fuel n fi res hn hf
    obtain ⟨fuel, rfl⟩ := Nat.exists_eq_add_of_lt hf
    have h0 : n.toNat = 0 := by simpa using hn
    refine ⟨res, ?_⟩
    rw [FQ12.expLoop, if_neg (not_not.mpr (FQRepr.cmp_bigZero.mpr h0))]
  | succ k ih =>
    intro fuel n fi res hn hf
    obtain ⟨fuel, rfl⟩ := Nat.exists_eq_add_of_lt (lt_of_le_of_lt (Nat.zero_le _) hf)
    rw [FQ12.expLoop]
    by_cases hc : n.cmp bigZero = 0
    · rw [if_neg (not_not.mpr hc)]; exact ⟨res, rfl⟩
    · rw [if_pos hc]
      have hs := FQRepr.rsh_spec n 1
      rw [pow_one] at hs
      exact ih (0 + fuel) (n.rsh 1) _ _ (by rw [hs]; rw [pow_succ] at hn; omega) (by omega)

theorem _root_.Bls.FQ12.exp?_eq (f : FQ12) (n : FQRepr) : f.exp? n = some (f.exp n) := by
  obtain ⟨out, h⟩ := FQ12.expLoop_total 384 385 n f FQ12.one n.toNat_lt (by norm_num)
  unfold FQ12.exp FQ12.exp?
  rw [h]; rfl

theorem val_one {m : Mem} (h : Inv m) : val m aFQ12One = FQ12.one := by
  have e := h.one
  unfold val Mem.c0 Mem.c1 FQ12.one
  rw [e, h.six0, h.six1]

theorem val_zero {m : Mem} (h : Inv m) : val m aFQ12Zero = FQ12.zero := by
  have e := h.zero
  unfold val Mem.c0 Mem.c1 FQ12.zero
  rw [e, h.six0]

/-- `m'` comes after `m`: the objects of `m` are as they were. -/
structure Keeps (m m' : Mem) : Prop where
  inv : Inv m'
  next : m.next12 ≤ m'.next12
  val : ∀ g, g < m.next12 → val m' g = val m g
  free : Frees m m'

theorem Keeps.refl {m : Mem} (h : Inv m) : Keeps m m := ⟨h, le_refl _, fun _ _ => rfl, .refl m⟩
theorem New.keeps {m m' : Mem} {f : Nat} {v : FQ12} (h : New m m' f v) : Keeps m m' := 
  ⟨h.inv, h.next.le, h.others, h.free⟩
theorem Keeps.trans {m m' m'' : Mem} (h : Keeps m m') (h' : Keeps m' m'') : Keeps m m'' :=
  ⟨h'.inv, h.next.trans h'.next, fun g hg => by rw [h'.val g (by have := h.next; omega), h.val g hg],
    h.free.trans h'.free⟩
theorem Keeps.upd {m m' m'' : Mem} {f : Nat} {v : FQ12} (h : Keeps m m') (hf : m.next12 ≤ f) (h' : Upd m' m'' f v) :
    Keeps m m'' :=
  ⟨h'.inv, by rw [h'.next]; exact h.next,
    fun g hg => by rw [h'.others g (by have := h.next; omega) (by omega), h.val g hg], h.free.trans h'.free⟩

theorem expLoop_spec {fi res : Nat} (h1 : 2 ≤ fi) (h2 : 2 ≤ res) (hne : fi ≠ res) (fuel : Nat) :
    ∀ (n : FQRepr) (m : Mem) (v : FQ12), Inv m → fi < m.next12 → res < m.next12 →
    FQ12.expLoop fuel n (val m fi) (val m res) = some v →
    ∃ m', expLoop fi res fuel n m = some m' ∧ Inv m' ∧ m'.next12 = m.next12 ∧ val m' res = v ∧
      (∀ g, g < m.next12 → g ≠ fi → g ≠ res → val m' g = val m g) ∧ Frees m m' := by
  induction fuel with
  | zero => intro n m v _ _ _ h; cases h
  | succ fuel ih =>
    intro n m v hi hfi hres h
    rw [FQ12.expLoop] at h
    rw [expLoop]
    by_cases hc : n.cmp bigZero = 0
    · rw [if_neg (not_not.mpr hc)] at h ⊢
      cases h
      exact ⟨m, rfl, hi, rfl, rfl, fun _ _ _ _ => rfl, .refl m⟩
    · rw [if_pos hc] at h ⊢
      by_cases ho : n.isEven = true
      · simp only [ho, Bool.not_true, Bool.false_eq_true, if_false] at h ⊢
        have u := mul_upd hi h1 hfi hfi
        obtain ⟨m', e, k1, k2, k3, k4, k5⟩ := ih (n.rsh 1) (mul m fi fi) v u.inv (by rw [u.next]; exact hfi)
          (by rw [u.next]; exact hres) (by rw [u.val, u.others res hres hne.symm]; exact h)
        refine ⟨m', e, k1, by rw [k2, u.next], k3, fun g hg hg1 hg2 => ?_, u.free.trans k5⟩
        rw [k4 g (by rw [u.next]; exact hg) hg1 hg2, u.others g hg hg1]
      · simp only [Bool.not_eq_true] at ho
        simp only [ho, Bool.not_false, if_true] at h ⊢
        have u0 := mul_upd hi h2 hres hfi
        have hfi' : fi < (mul m res fi).next12 := by rw [u0.next]; exact hfi
        have hres' : res < (mul m res fi).next12 := by rw [u0.next]; exact hres
        have u := mul_upd u0.inv h1 hfi' hfi'
        obtain ⟨m', e, k1, k2, k3, k4, k5⟩ := ih (n.rsh 1) (mul (mul m res fi) fi fi) v u.inv (by rw [u.next]; exact hfi')
          (by rw [u.next]; exact hres')
          (by rw [u.val, u.others res hres' hne.symm, u0.val, u0.others fi hfi hne]; exact h)
        refine ⟨m', e, k1, by rw [k2, u.next, u0.next], k3, fun g hg hg1 hg2 => ?_, (u0.free.trans u.free).trans k5⟩
        rw [k4 g (by rw [u.next, u0.next]; exact hg) hg1 hg2, u.others g (by rw [u0.next]; exact hg) hg1,
          u0.others g hg hg2]

theorem exp_new {m : Mem} (h : Inv m) {f : Nat} (hf : f < m.next12) (n : FQRepr) :
    ∃ g m', exp m f n = some (g, m') ∧ New m m' g ((val m f).exp n) := by
  have l := h.le12
  have h1 : aFQ12One < m.next12 := by unfold aFQ12One; omega
  obtain ⟨res, m1, e1⟩ : ∃ res m1, copy m aFQ12One = (res, m1) := ⟨_, _, rfl⟩
  have n1 := copy_new h h1
  rw [e1, val_one h] at n1
  dsimp only at n1
  obtain ⟨fi, m2, e2⟩ : ∃ fi m2, copy m1 f = (fi, m2) := ⟨_, _, rfl⟩
  have n2 := copy_new n1.inv (lt_trans hf n1.next)
  rw [e2] at n2
  dsimp only at n2
  have a1 := n1.addr
  have a2 := n2.addr
  have b1 := n1.next
  have b2 := n2.next
  have hr : res < m1.next12 := by omega
  have ev : FQ12.expLoop 385 n (val m2 fi) (val m2 res) = some ((val m f).exp n) := by
    rw [n2.val, n2.others res hr, n1.val, n1.others f hf]
    exact FQ12.exp?_eq (val m f) n
  obtain ⟨m', e, k1, k2, k3, k4, k5⟩ := expLoop_spec (fi := fi) (res := res) (by omega) (by omega) (by omega) 385 n m2 _ n2.inv
    (by omega) (by omega) ev
  refine ⟨res, m', ?_, k1, a1, by omega, k3, fun g hg => ?_, (n1.free.trans n2.free).trans k5⟩
  · unfold exp
    rw [e1]; dsimp only; rw [e2]; dsimp only; rw [e]; rfl
  · rw [k4 g (by omega) (by omega) (by omega), n2.others g (by omega), n1.others g hg]

theorem New.upd {m m' m'' : Mem} {f : Nat} {v w : FQ12} (h : New m m' f v) (h' : Upd m' m'' f w) : New m m'' f w :=
  ⟨h'.inv, h.addr, by rw [h'.next]; exact h.next, h'.val, fun g hg => by
    rw [h'.others g (by have := h.next; omega) (by have := h.addr; omega), h.others g hg],
    h.free.trans h'.free⟩

theorem New.lt {m m' : Mem} {f : Nat} {v : FQ12} (h : New m m' f v) : f < m'.next12 := by
  have := h.addr; have := h.next; omega

theorem expByX_new {m : Mem} (h : Inv m) {f : Nat} (hf : f < m.next12) (x : FQRepr) :
    ∃ g m', expByX m f x = some (g, m') ∧ New m m' g (Bls.expByX (val m f) x) := by
  obtain ⟨g, m', e, k⟩ := exp_new h hf x
  have a := k.addr
  have l := h.le12
  have u := conjugate_upd k.inv (by omega) k.lt
  rw [k.val] at u
  refine ⟨g, if blsIsNegative then conjugate m' g else m', ?_, ?_⟩
  · unfold expByX; rw [e]; rfl
  · unfold Bls.expByX
    dsimp only
    by_cases hb : blsIsNegative = true
    · rw [if_pos hb, if_pos hb]; exact k.upd u
    · rw [if_neg hb, if_neg hb]; exact k

theorem ell_upd {m : Mem} (h : Inv m) {f : Nat} (hf : 2 ≤ f) (hf' : f < m.next12) (c : Coeffs) (p : G1Affine) :
    Upd m (ell m f c p) f (Bls.ell (val m f) c p) := by
  unfold ell Bls.ell
  exact mulBy014_upd h hf hf' _ _ _

theorem Upd.trans {m m' m'' : Mem} {f : Nat} {v w : FQ12} (h : Upd m m' f v) (h' : Upd m' m'' f w) : Upd m m'' f w :=
  ⟨h'.inv, by rw [h'.next, h.next], h'.val, fun g hg hgf => by
    rw [h'.others g (by rw [h.next]; exact hg) hgf, h.others g hg hgf], h.free.trans h'.free⟩

theorem ellAll_upd {f : Nat} (hf : 2 ≤ f) : ∀ (pairs : List PairingItem) (m : Mem), Inv m → f < m.next12 →
    match Bls.ellAll (val m f) pairs with
    | none => ellAll f m pairs = none
    | some (v, pairs') => ∃ m', ellAll f m pairs = some (m', pairs') ∧ Upd m m' f v
  | [], m, h, hf' => ⟨m, rfl, h, rfl, rfl, fun _ _ _ => rfl, .refl m⟩
  | pair :: rest, m, h, hf' => by
    rw [Bls.ellAll, ellAll]
    rcases hq : pair.q[pair.qIndex]? with _ | coeffs
    · rfl
    rcases hp : pair.p with _ | p
    · rfl
    dsimp only
    have u := ell_upd h hf hf' coeffs p
    have r := ellAll_upd hf rest (ell m f coeffs p) u.inv (by rw [u.next]; exact hf')
    rw [u.val] at r
    rcases hr : Bls.ellAll (Bls.ell (val m f) coeffs p) rest with _ | ⟨v, rest'⟩
    · rw [hr] at r; dsimp only at r; rw [r]
    · rw [hr] at r
      obtain ⟨m', e, k⟩ := r
      exact ⟨m', by rw [e], u.trans k⟩

theorem millerGo_upd {f : Nat} (hf : 2 ≤ f) (b : FQRepr) : ∀ (k i : Nat) (fo : Bool) (pairs : List PairingItem) (m : Mem),
    Inv m → f < m.next12 →
    match Bls.millerGo b k i fo (val m f) pairs with
    | none => millerGo f b k i fo m pairs = none
    | some (v, pairs') => ∃ m', millerGo f b k i fo m pairs = some (m', pairs') ∧ Upd m m' f v
  | 0, i, fo, pairs, m, h, hf' => ⟨m, rfl, h, rfl, rfl, fun _ _ _ => rfl, .refl m⟩
  | k + 1, i, fo, pairs, m, h, hf' => by
    rw [Bls.millerGo, millerGo]
    rcases hb : b.bit (b.bitLen - i) with _ | set
    · rfl
    dsimp only
    cases fo
    · exact millerGo_upd hf b k (i + 1) set pairs m h hf'
    simp only [Bool.not_true, Bool.false_eq_true, if_false]
    have r := ellAll_upd hf pairs m h hf'
    rcases hr : Bls.ellAll (val m f) pairs with _ | ⟨v, pairs'⟩
    · rw [hr] at r; dsimp only at r; rw [r]
    rw [hr] at r
    obtain ⟨m', e, u⟩ := r
    rw [e]
    dsimp only
    have hl : f < m'.next12 := by rw [u.next]; exact hf'
    have step : ∀ (m'' : Mem) (pairs : List PairingItem), (u2 : ∃ w, Upd m m'' f w) →
        match Bls.millerGo b k (i + 1) true (val m'' f).square pairs with
        | none => millerGo f b k (i + 1) true (square m'' f) pairs = none
        | some (v, pairs') => ∃ m', millerGo f b k (i + 1) true (square m'' f) pairs = some (m', pairs') ∧ Upd m m' f v := by
      rintro m'' pairs ⟨w, u2⟩
      have hl : f < m''.next12 := by rw [u2.next]; exact hf'
      have u3 := square_upd u2.inv hf hl
      have r := millerGo_upd hf b k (i + 1) true pairs (square m'' f) u3.inv (by rw [u3.next]; exact hl)
      rw [u3.val] at r
      rcases hr : Bls.millerGo b k (i + 1) true (val m'' f).square pairs with _ | ⟨v, pairs'⟩
      · rw [hr] at r; exact r
      · rw [hr] at r
        obtain ⟨m3, e, u4⟩ := r
        exact ⟨m3, e, u2.trans (u3.trans u4)⟩
    cases set
    · simp only [Bool.false_eq_true, if_false]
      have := step m' pairs' ⟨_, u⟩
      rw [u.val] at this
      exact this
    · simp only [if_true]
      have r := ellAll_upd hf pairs' m' u.inv hl
      rw [u.val] at r
      rcases hr : Bls.ellAll v pairs' with _ | ⟨v2, pairs2⟩
      · rw [hr] at r; dsimp only at r; rw [r]
      rw [hr] at r
      obtain ⟨m2, e, u2⟩ := r
      rw [e]
      dsimp only
      have := step m2 pairs2 ⟨_, u.trans u2⟩
      rw [u2.val] at this
      exact this

theorem millerLoop_new {m : Mem} (h : Inv m) (items : List (G1Affine × G2Prepared)) :
    match Bls.millerLoop items with
    | none => millerLoop m items = none
    | some v => ∃ f m', millerLoop m items = some (f, m') ∧ New m m' f v := by
  have l := h.le12
  have h1 : aFQ12One < m.next12 := by unfold aFQ12One; omega
  obtain ⟨f, m1, e1⟩ : ∃ res m1, copy m aFQ12One = (res, m1) := ⟨_, _, rfl⟩
  have n1 := copy_new h h1
  rw [e1, val_one h] at n1
  dsimp only at n1
  have hf : 2 ≤ f := by rw [n1.addr]; exact l
  unfold Bls.millerLoop millerLoop
  rw [e1]
  dsimp only
  have r := millerGo_upd hf (blsX.rsh 1) ((blsX.rsh 1).bitLen + 1) 0 false (items.map PairingItem.make) m1 n1.inv n1.lt
  rw [n1.val] at r
  rcases hr : Bls.millerGo (blsX.rsh 1) ((blsX.rsh 1).bitLen + 1) 0 false FQ12.one (items.map PairingItem.make) with
    _ | ⟨v, pairs⟩
  · rw [hr] at r; dsimp only at r; rw [r]
  rw [hr] at r
  obtain ⟨m2, e, u⟩ := r
  rw [e]
  dsimp only
  have r := ellAll_upd hf pairs m2 u.inv (by rw [u.next]; exact n1.lt)
  rw [u.val] at r
  rcases hr : Bls.ellAll v pairs with _ | ⟨v2, pairs2⟩
  · rw [hr] at r; dsimp only at r; rw [r]
  rw [hr] at r
  obtain ⟨m3, e, u2⟩ := r
  rw [e]
  dsimp only
  have n3 := (n1.upd u).upd u2
  have u3 := conjugate_upd n3.inv hf n3.lt
  rw [n3.val] at u3
  refine ⟨f, _, rfl, ?_⟩
  by_cases hb : blsIsNegative = true
  · rw [if_pos hb, if_pos hb]; exact n3.upd u3
  · rw [if_neg hb, if_neg hb]; exact n3

/-! ### The final exponentiation -/

/-- An object with a value. -/
structure At (m : Mem) (f : Nat) (v : FQ12) : Prop where
  lt : f < m.next12
  val : val m f = v

theorem Upd.self {m m' : Mem} {f : Nat} {v w : FQ12} (u : Upd m m' f v) (a : At m f w) : At m' f v :=
  ⟨by rw [u.next]; exact a.lt, u.val⟩
theorem Upd.at {m m' : Mem} {f g : Nat} {v w : FQ12} (u : Upd m m' f v) (a : At m g w) (hne : g ≠ f) : At m' g w :=
  ⟨by rw [u.next]; exact a.lt, by rw [u.others g a.lt hne]; exact a.val⟩
theorem New.self {m m' : Mem} {f : Nat} {v : FQ12} (u : New m m' f v) : At m' f v := ⟨u.lt, u.val⟩
theorem New.at {m m' : Mem} {f g : Nat} {v w : FQ12} (u : New m m' f v) (a : At m g w) : At m' g w :=
  ⟨lt_trans a.lt u.next, by rw [u.others g a.lt]; exact a.val⟩
theorem New.ne {m m' : Mem} {f g : Nat} {v w : FQ12} (u : New m m' f v) (a : At m g w) : g ≠ f := by
  have := u.addr; have := a.lt; omega

theorem run_bind {α β : Type} {x : Run α} {k : α → Run β} {m m' : Mem} {a : α} (h : x m = some (a, m')) :
    (x >>= k) m = k a m' := by
  change (x m).bind _ = _
  rw [h]; rfl

theorem get_copy {m : Mem} (h : Inv m) {f : Nat} (hf : f < m.next12) :
    ∃ g m', get (copy · f) m = some (g, m') ∧ New m m' g (val m f) :=
  ⟨_, _, rfl, copy_new h hf⟩

theorem get_of {g : Mem → Bool × Mem} {m : Mem} {x : Bool × Mem} (e : g m = x) {b : Bool} (h : x.1 = b) :
    get g m = some (b, x.2) := by
  subst e h; rfl

theorem get_inverse {m : Mem} (h : Inv m) {f : Nat} (hf : 2 ≤ f) (hf' : f < m.next12) :
    ∃ m', get (inverse · f) m = some ((val m f).inverse.2, m') ∧ Upd m m' f (val m f).inverse.1 := by
  have i := inverse_upd h hf hf'
  generalize e : inverse m f = x at i
  generalize (val m f).inverse = y at i ⊢
  exact ⟨x.2, get_of e i.1, i.2⟩

section
variable {m : Mem} (h : Inv m) {f : Nat} (hf : 2 ≤ f) (hf' : f < m.next12)
include h hf hf'
theorem call_conj : ∃ m', call (conjugate · f) m = some ((), m') ∧ Upd m m' f (val m f).conjugate :=
  ⟨_, rfl, conjugate_upd h hf hf'⟩
theorem call_square : ∃ m', call (square · f) m = some ((), m') ∧ Upd m m' f (val m f).square :=
  ⟨_, rfl, square_upd h hf hf'⟩
theorem call_frob (k : UInt8) :
    ∃ m', call (frobeniusMap · f k) m = some ((), m') ∧ Upd m m' f ((val m f).frobeniusMap k) :=
  ⟨_, rfl, frobeniusMap_upd h hf hf' k⟩
theorem call_mul {g : Nat} (hg : g < m.next12) :
    ∃ m', call (mul · f g) m = some ((), m') ∧ Upd m m' f ((val m f).mul (val m g)) :=
  ⟨_, rfl, mul_upd h hf hf' hg⟩
end

theorem fe_none {v : FQ12} (h : v.inverse.2 = false) : Bls.finalExponentiation v = none := by
  unfold Bls.finalExponentiation
  exact if_pos (by rw [h]; rfl)

/-- A result object. -/
structure Out (m m' : Mem) (f : Nat) (v : FQ12) : Prop where
  keeps : Keeps m m'
  fresh : m.next12 ≤ f
  lt : f < m'.next12
  val : Heap12.val m' f = v

theorem finalExponentiation_none {m : Mem} (h : Inv m) {r0 : Nat} {v : FQ12} (a_r0 : At m r0 v)
    (hv : v.inverse.2 = false) : ∃ m', finalExponentiation r0 m = some (none, m') ∧ Keeps m m' := by
  have l := h.le12
  have k := Keeps.refl h
  unfold finalExponentiation
  obtain ⟨f1, m1, e1, n1⟩ := get_copy k.inv a_r0.lt
  rw [a_r0.val] at n1
  have d_r0_f1 := n1.ne a_r0
  replace a_r0 := n1.at a_r0
  have a_f1 := n1.self
  have g_f1 : m.next12 ≤ f1 := le_of_le_of_eq k.next n1.addr.symm
  replace k := k.trans n1.keeps
  obtain ⟨m2, e2, u2⟩ := call_conj k.inv (l.trans g_f1) a_f1.lt
  rw [a_f1.val] at u2
  replace a_r0 := u2.at a_r0 d_r0_f1
  replace a_f1 := u2.self a_f1
  replace k := k.upd g_f1 u2
  obtain ⟨f2, m3, e3, n3⟩ := get_copy k.inv a_r0.lt
  rw [a_r0.val] at n3
  have d_f1_f2 := n3.ne a_f1
  replace a_f1 := n3.at a_f1
  have a_f2 := n3.self
  have g_f2 : m.next12 ≤ f2 := le_of_le_of_eq k.next n3.addr.symm
  replace k := k.trans n3.keeps
  obtain ⟨m4, e4, u4⟩ := get_inverse k.inv (l.trans g_f2) a_f2.lt
  rw [a_f2.val] at u4 e4
  replace a_f1 := u4.at a_f1 d_f1_f2
  replace a_f2 := u4.self a_f2
  replace k := k.upd g_f2 u4
  rw [run_bind e1, run_bind e2, run_bind e3, run_bind e4]
  rw [hv]
  exact ⟨_, rfl, k⟩

theorem finalExponentiation_some {m : Mem} (h : Inv m) {r0 : Nat} {v : FQ12} (a_r0 : At m r0 v)
    (hv : v.inverse.2 = true) : ∃ f m' w, finalExponentiation r0 m = some (some f, m') ∧
      Bls.finalExponentiation v = some w ∧ Out m m' f w := by
  have l := h.le12
  have k := Keeps.refl h
  unfold finalExponentiation
  obtain ⟨f1, m1, e1, n1⟩ := get_copy k.inv a_r0.lt
  rw [a_r0.val] at n1
  have d_r0_f1 := n1.ne a_r0
  replace a_r0 := n1.at a_r0
  have a_f1 := n1.self
  have g_f1 : m.next12 ≤ f1 := le_of_le_of_eq k.next n1.addr.symm
  replace k := k.trans n1.keeps
  obtain ⟨m2, e2, u2⟩ := call_conj k.inv (l.trans g_f1) a_f1.lt
  rw [a_f1.val] at u2
  replace a_r0 := u2.at a_r0 d_r0_f1
  replace a_f1 := u2.self a_f1
  replace k := k.upd g_f1 u2
  obtain ⟨f2, m3, e3, n3⟩ := get_copy k.inv a_r0.lt
  rw [a_r0.val] at n3
  have d_f1_f2 := n3.ne a_f1
  replace a_f1 := n3.at a_f1
  have a_f2 := n3.self
  have g_f2 : m.next12 ≤ f2 := le_of_le_of_eq k.next n3.addr.symm
  replace k := k.trans n3.keeps
  obtain ⟨m4, e4, u4⟩ := get_inverse k.inv (l.trans g_f2) a_f2.lt
  rw [a_f2.val] at u4 e4
  replace a_f1 := u4.at a_f1 d_f1_f2
  replace a_f2 := u4.self a_f2
  replace k := k.upd g_f2 u4
  rw [run_bind e1, run_bind e2, run_bind e3, run_bind e4]
  rw [hv, if_neg (by decide)]
  obtain ⟨r, m5, e5, n5⟩ := get_copy k.inv a_f1.lt
  rw [a_f1.val] at n5
  have d_f2_r := n5.ne a_f2
  replace a_f2 := n5.at a_f2
  have a_r := n5.self
  have g_r : m.next12 ≤ r := le_of_le_of_eq k.next n5.addr.symm
  replace k := k.trans n5.keeps
  rw [run_bind e5]
  obtain ⟨m6, e6, u6⟩ := call_mul k.inv (l.trans g_r) a_r.lt a_f2.lt
  rw [a_r.val, a_f2.val] at u6
  replace a_r := u6.self a_r
  replace k := k.upd g_r u6
  rw [run_bind e6]
  obtain ⟨f2b, m7, e7, n7⟩ := get_copy k.inv a_r.lt
  rw [a_r.val] at n7
  have d_r_f2b := n7.ne a_r
  replace a_r := n7.at a_r
  have a_f2b := n7.self
  have g_f2b : m.next12 ≤ f2b := le_of_le_of_eq k.next n7.addr.symm
  replace k := k.trans n7.keeps
  rw [run_bind e7]
  obtain ⟨m8, e8, u8⟩ := call_frob k.inv (l.trans g_r) a_r.lt 2
  rw [a_r.val] at u8
  replace a_f2b := u8.at a_f2b d_r_f2b.symm
  replace a_r := u8.self a_r
  replace k := k.upd g_r u8
  rw [run_bind e8]
  obtain ⟨m9, e9, u9⟩ := call_mul k.inv (l.trans g_r) a_r.lt a_f2b.lt
  rw [a_r.val, a_f2b.val] at u9
  replace a_r := u9.self a_r
  replace k := k.upd g_r u9
  rw [run_bind e9]
  obtain ⟨y0, m10, e10, n10⟩ := get_copy k.inv a_r.lt
  rw [a_r.val] at n10
  have d_r_y0 := n10.ne a_r
  replace a_r := n10.at a_r
  have a_y0 := n10.self
  have g_y0 : m.next12 ≤ y0 := le_of_le_of_eq k.next n10.addr.symm
  replace k := k.trans n10.keeps
  rw [run_bind e10]
  obtain ⟨m11, e11, u11⟩ := call_square k.inv (l.trans g_y0) a_y0.lt
  rw [a_y0.val] at u11
  replace a_r := u11.at a_r d_r_y0
  replace a_y0 := u11.self a_y0
  replace k := k.upd g_y0 u11
  rw [run_bind e11]
  obtain ⟨y1, m12, e12, n12⟩ := expByX_new k.inv a_y0.lt blsX
  rw [a_y0.val] at n12
  have d_r_y1 := n12.ne a_r
  replace a_r := n12.at a_r
  have d_y0_y1 := n12.ne a_y0
  replace a_y0 := n12.at a_y0
  have a_y1 := n12.self
  have g_y1 : m.next12 ≤ y1 := le_of_le_of_eq k.next n12.addr.symm
  replace k := k.trans n12.keeps
  rw [run_bind e12]
  obtain ⟨y2, m13, e13, n13⟩ := expByX_new k.inv a_y1.lt (blsX.rsh 1)
  rw [a_y1.val] at n13
  have d_r_y2 := n13.ne a_r
  replace a_r := n13.at a_r
  have d_y0_y2 := n13.ne a_y0
  replace a_y0 := n13.at a_y0
  have d_y1_y2 := n13.ne a_y1
  replace a_y1 := n13.at a_y1
  have a_y2 := n13.self
  have g_y2 : m.next12 ≤ y2 := le_of_le_of_eq k.next n13.addr.symm
  replace k := k.trans n13.keeps
  rw [run_bind e13]
  obtain ⟨y3, m14, e14, n14⟩ := get_copy k.inv a_r.lt
  rw [a_r.val] at n14
  have d_r_y3 := n14.ne a_r
  replace a_r := n14.at a_r
  have d_y0_y3 := n14.ne a_y0
  replace a_y0 := n14.at a_y0
  have d_y1_y3 := n14.ne a_y1
  replace a_y1 := n14.at a_y1
  have d_y2_y3 := n14.ne a_y2
  replace a_y2 := n14.at a_y2
  have a_y3 := n14.self
  have g_y3 : m.next12 ≤ y3 := le_of_le_of_eq k.next n14.addr.symm
  replace k := k.trans n14.keeps
  rw [run_bind e14]
  obtain ⟨m15, e15, u15⟩ := call_conj k.inv (l.trans g_y3) a_y3.lt
  rw [a_y3.val] at u15
  replace a_r := u15.at a_r d_r_y3
  replace a_y0 := u15.at a_y0 d_y0_y3
  replace a_y1 := u15.at a_y1 d_y1_y3
  replace a_y2 := u15.at a_y2 d_y2_y3
  replace a_y3 := u15.self a_y3
  replace k := k.upd g_y3 u15
  rw [run_bind e15]
  obtain ⟨y1b, m16, e16, n16⟩ := get_copy k.inv a_y1.lt
  rw [a_y1.val] at n16
  have d_r_y1b := n16.ne a_r
  replace a_r := n16.at a_r
  have d_y0_y1b := n16.ne a_y0
  replace a_y0 := n16.at a_y0
  have d_y2_y1b := n16.ne a_y2
  replace a_y2 := n16.at a_y2
  have d_y3_y1b := n16.ne a_y3
  replace a_y3 := n16.at a_y3
  have a_y1b := n16.self
  have g_y1b : m.next12 ≤ y1b := le_of_le_of_eq k.next n16.addr.symm
  replace k := k.trans n16.keeps
  rw [run_bind e16]
  obtain ⟨m17, e17, u17⟩ := call_mul k.inv (l.trans g_y1b) a_y1b.lt a_y3.lt
  rw [a_y1b.val, a_y3.val] at u17
  replace a_r := u17.at a_r d_r_y1b
  replace a_y0 := u17.at a_y0 d_y0_y1b
  replace a_y2 := u17.at a_y2 d_y2_y1b
  replace a_y1b := u17.self a_y1b
  replace k := k.upd g_y1b u17
  rw [run_bind e17]
  obtain ⟨m18, e18, u18⟩ := call_conj k.inv (l.trans g_y1b) a_y1b.lt
  rw [a_y1b.val] at u18
  replace a_r := u18.at a_r d_r_y1b
  replace a_y0 := u18.at a_y0 d_y0_y1b
  replace a_y2 := u18.at a_y2 d_y2_y1b
  replace a_y1b := u18.self a_y1b
  replace k := k.upd g_y1b u18
  rw [run_bind e18]
  obtain ⟨m19, e19, u19⟩ := call_mul k.inv (l.trans g_y1b) a_y1b.lt a_y2.lt
  rw [a_y1b.val, a_y2.val] at u19
  replace a_r := u19.at a_r d_r_y1b
  replace a_y0 := u19.at a_y0 d_y0_y1b
  replace a_y1b := u19.self a_y1b
  replace k := k.upd g_y1b u19
  rw [run_bind e19]
  obtain ⟨y2b, m20, e20, n20⟩ := expByX_new k.inv a_y1b.lt ((blsX.rsh 1).lsh 1)
  rw [a_y1b.val] at n20
  have d_r_y2b := n20.ne a_r
  replace a_r := n20.at a_r
  have d_y0_y2b := n20.ne a_y0
  replace a_y0 := n20.at a_y0
  have d_y1b_y2b := n20.ne a_y1b
  replace a_y1b := n20.at a_y1b
  have a_y2b := n20.self
  have g_y2b : m.next12 ≤ y2b := le_of_le_of_eq k.next n20.addr.symm
  replace k := k.trans n20.keeps
  rw [run_bind e20]
  obtain ⟨y3b, m21, e21, n21⟩ := expByX_new k.inv a_y2b.lt ((blsX.rsh 1).lsh 1)
  rw [a_y2b.val] at n21
  have d_r_y3b := n21.ne a_r
  replace a_r := n21.at a_r
  have d_y0_y3b := n21.ne a_y0
  replace a_y0 := n21.at a_y0
  have d_y1b_y3b := n21.ne a_y1b
  replace a_y1b := n21.at a_y1b
  have d_y2b_y3b := n21.ne a_y2b
  replace a_y2b := n21.at a_y2b
  have a_y3b := n21.self
  have g_y3b : m.next12 ≤ y3b := le_of_le_of_eq k.next n21.addr.symm
  replace k := k.trans n21.keeps
  rw [run_bind e21]
  obtain ⟨m22, e22, u22⟩ := call_conj k.inv (l.trans g_y1b) a_y1b.lt
  rw [a_y1b.val] at u22
  replace a_r := u22.at a_r d_r_y1b
  replace a_y0 := u22.at a_y0 d_y0_y1b
  replace a_y2b := u22.at a_y2b d_y1b_y2b.symm
  replace a_y3b := u22.at a_y3b d_y1b_y3b.symm
  replace a_y1b := u22.self a_y1b
  replace k := k.upd g_y1b u22
  rw [run_bind e22]
  obtain ⟨m23, e23, u23⟩ := call_mul k.inv (l.trans g_y3b) a_y3b.lt a_y1b.lt
  rw [a_y3b.val, a_y1b.val] at u23
  replace a_r := u23.at a_r d_r_y3b
  replace a_y0 := u23.at a_y0 d_y0_y3b
  replace a_y1b := u23.at a_y1b d_y1b_y3b
  replace a_y2b := u23.at a_y2b d_y2b_y3b
  replace a_y3b := u23.self a_y3b
  replace k := k.upd g_y3b u23
  rw [run_bind e23]
  obtain ⟨m24, e24, u24⟩ := call_conj k.inv (l.trans g_y1b) a_y1b.lt
  rw [a_y1b.val] at u24
  replace a_r := u24.at a_r d_r_y1b
  replace a_y0 := u24.at a_y0 d_y0_y1b
  replace a_y2b := u24.at a_y2b d_y1b_y2b.symm
  replace a_y3b := u24.at a_y3b d_y1b_y3b.symm
  replace a_y1b := u24.self a_y1b
  replace k := k.upd g_y1b u24
  rw [run_bind e24]
  obtain ⟨m25, e25, u25⟩ := call_frob k.inv (l.trans g_y1b) a_y1b.lt 3
  rw [a_y1b.val] at u25
  replace a_r := u25.at a_r d_r_y1b
  replace a_y0 := u25.at a_y0 d_y0_y1b
  replace a_y2b := u25.at a_y2b d_y1b_y2b.symm
  replace a_y3b := u25.at a_y3b d_y1b_y3b.symm
  replace a_y1b := u25.self a_y1b
  replace k := k.upd g_y1b u25
  rw [run_bind e25]
  obtain ⟨m26, e26, u26⟩ := call_frob k.inv (l.trans g_y2b) a_y2b.lt 2
  rw [a_y2b.val] at u26
  replace a_r := u26.at a_r d_r_y2b
  replace a_y0 := u26.at a_y0 d_y0_y2b
  replace a_y1b := u26.at a_y1b d_y1b_y2b
  replace a_y3b := u26.at a_y3b d_y2b_y3b.symm
  replace a_y2b := u26.self a_y2b
  replace k := k.upd g_y2b u26
  rw [run_bind e26]
  obtain ⟨m27, e27, u27⟩ := call_mul k.inv (l.trans g_y1b) a_y1b.lt a_y2b.lt
  rw [a_y1b.val, a_y2b.val] at u27
  replace a_r := u27.at a_r d_r_y1b
  replace a_y0 := u27.at a_y0 d_y0_y1b
  replace a_y3b := u27.at a_y3b d_y1b_y3b.symm
  replace a_y1b := u27.self a_y1b
  replace k := k.upd g_y1b u27
  rw [run_bind e27]
  obtain ⟨y2c, m28, e28, n28⟩ := expByX_new k.inv a_y3b.lt ((blsX.rsh 1).lsh 1)
  rw [a_y3b.val] at n28
  have d_r_y2c := n28.ne a_r
  replace a_r := n28.at a_r
  have d_y0_y2c := n28.ne a_y0
  replace a_y0 := n28.at a_y0
  have d_y1b_y2c := n28.ne a_y1b
  replace a_y1b := n28.at a_y1b
  have d_y3b_y2c := n28.ne a_y3b
  replace a_y3b := n28.at a_y3b
  have a_y2c := n28.self
  have g_y2c : m.next12 ≤ y2c := le_of_le_of_eq k.next n28.addr.symm
  replace k := k.trans n28.keeps
  rw [run_bind e28]
  obtain ⟨m29, e29, u29⟩ := call_mul k.inv (l.trans g_y2c) a_y2c.lt a_y0.lt
  rw [a_y2c.val, a_y0.val] at u29
  replace a_r := u29.at a_r d_r_y2c
  replace a_y1b := u29.at a_y1b d_y1b_y2c
  replace a_y3b := u29.at a_y3b d_y3b_y2c
  replace a_y2c := u29.self a_y2c
  replace k := k.upd g_y2c u29
  rw [run_bind e29]
  obtain ⟨m30, e30, u30⟩ := call_mul k.inv (l.trans g_y2c) a_y2c.lt a_r.lt
  rw [a_y2c.val, a_r.val] at u30
  replace a_y1b := u30.at a_y1b d_y1b_y2c
  replace a_y3b := u30.at a_y3b d_y3b_y2c
  replace a_y2c := u30.self a_y2c
  replace k := k.upd g_y2c u30
  rw [run_bind e30]
  obtain ⟨m31, e31, u31⟩ := call_mul k.inv (l.trans g_y1b) a_y1b.lt a_y2c.lt
  rw [a_y1b.val, a_y2c.val] at u31
  replace a_y3b := u31.at a_y3b d_y1b_y3b.symm
  replace a_y1b := u31.self a_y1b
  replace k := k.upd g_y1b u31
  rw [run_bind e31]
  obtain ⟨m32, e32, u32⟩ := call_frob k.inv (l.trans g_y3b) a_y3b.lt 1
  rw [a_y3b.val] at u32
  replace a_y1b := u32.at a_y1b d_y1b_y3b
  replace a_y3b := u32.self a_y3b
  replace k := k.upd g_y3b u32
  rw [run_bind e32]
  obtain ⟨m33, e33, u33⟩ := call_mul k.inv (l.trans g_y1b) a_y1b.lt a_y3b.lt
  rw [a_y1b.val, a_y3b.val] at u33
  replace a_y1b := u33.self a_y1b
  replace k := k.upd g_y1b u33
  rw [run_bind e33]
  refine ⟨y1b, _, _, rfl, ?_, k, g_y1b, a_y1b.lt, a_y1b.val⟩
  unfold Bls.finalExponentiation
  exact if_neg (by rw [hv]; decide)

end Bls.Heap12
