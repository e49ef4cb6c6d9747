import Verif.Model.Pairing
import Verif.Proof.Bilinear
import Verif.Proof.Gens
/-
MillerLoop computes the Miller products.
-/
namespace Bls
open WeierstrassCurve

/-! ### The line coefficients -/

/-- The coefficients are a nonzero multiple of those of `y - (l x + m)`. -/
def Coeffs.Rep (c : Coeffs) (l m : Fq2) : Prop :=
  ∃ κ : Fq2, κ ≠ 0 ∧ c.1.Rep κ ∧ c.2.1.Rep (-(κ * l)) ∧ c.2.2.Rep (-(κ * m))

theorem G2Projective.Rep.scaled {g : G2Projective} {R : E2} {x y : Fq2} (h : g.Rep R) (hR : IsAt R x y) :
    ∃ z, z ≠ 0 ∧ g.x.Rep (x * z ^ 2) ∧ g.y.Rep (y * z ^ 3) ∧ g.z.Rep z := by
  obtain ⟨X, Y, z, hx, hy, hz, h⟩ := h
  have n1 : z ≠ 0 := fun e => hR.ne_zero (h.zero_iff.mp e)
  have e := hR.coord (h.isAt n1)
  refine ⟨z, n1, hx.of_eq ?_, hy.of_eq ?_, hz⟩
  · rw [e.1]; field_simp
  · rw [e.2]; field_simp

theorem Fq2.two_ne : (2 : Fq2) ≠ 0 := GoodCurve.two_ne b2

theorem doublingStep_spec {g : G2Projective} {R : E2} {l m x x' x₃ : Fq2} (h : g.Rep R) (hl : LD R R l m x x' x₃) :
    (doublingStep g).1.Rep (R + R) ∧ Coeffs.Rep (doublingStep g).2 l m := by
  obtain ⟨z, hz0, hx, hy, hz⟩ := h.scaled hl.at1
  have hyne := E2.at_y_ne hl.at1
  have ht := hl.tangent
  have hJ : JPt R (x * z ^ 2) ((l * x + m) * z ^ 3) z := by
    refine Or.inr ⟨hz0, ?_⟩
    convert hl.at1 using 1 <;> field_simp
  generalize hyy : l * x + m = y at *
  unfold doublingStep
  have tmp0 := hx.square
  have tmp1 := hy.square
  have tmp2 := tmp1.square
  have tmp3 := (((tmp1.add hx).square.sub tmp0).sub tmp2).double
  have tmp4 := tmp0.double.add tmp0
  have tmp6 := hx.add tmp4
  have tmp5 := tmp4.square
  have zz := hz.square
  have rx := (tmp5.sub tmp3).sub tmp3
  have rz := ((hz.add hy).square.sub tmp1).sub zz
  have ry := ((tmp3.sub rx).mul tmp4).sub tmp2.double.double.double
  have c1 := (tmp4.mul zz).double.neg
  have c2 := ((tmp6.square.sub tmp0).sub tmp5).sub tmp1.double.double
  have c0 := (rz.mul zz).double
  refine ⟨⟨_, _, _, rx, ry, rz, hJ.double hz0 ?_ ?_ ?_⟩, 4 * y * z ^ 6, ?_, c0.of_eq ?_, c1.of_eq ?_, c2.of_eq ?_⟩
  · ring
  · ring
  · ring
  · have h4 : (4 : Fq2) ≠ 0 := by
      have : (4 : Fq2) = 2 * 2 := by norm_num
      rw [this]; exact mul_ne_zero Fq2.two_ne Fq2.two_ne
    exact mul_ne_zero (mul_ne_zero h4 hyne) (pow_ne_zero 6 hz0)
  · ring
  · linear_combination 2 * z ^ 6 * ht
  · linear_combination (-2 * x * z ^ 6) * ht + 4 * y * z ^ 6 * hyy

theorem additionStep_spec {g : G2Projective} {a : G2Affine} {R Q : E2} {l m x₁ x₂ x₃ : Fq2} (h : g.Rep R) (ha : a.Rep Q)
    (hl : LD R Q l m x₁ x₂ x₃) (hx12 : x₁ ≠ x₂) :
    (additionStep g a).1.Rep (R + Q) ∧ Coeffs.Rep (additionStep g a).2 l m := by
  obtain ⟨z, hz0, hx, hy, hz⟩ := h.scaled hl.at1
  rcases ha with ⟨rfl, e⟩ | ⟨_, X, Y, hX, hY, hQ⟩
  · exact absurd e hl.at2.ne_zero
  obtain ⟨e1, e2⟩ := hl.at2.coord hQ
  rw [← e1] at hX
  rw [← e2] at hY
  have hJ : JPt R (x₁ * z ^ 2) ((l * x₁ + m) * z ^ 3) z := by
    refine Or.inr ⟨hz0, ?_⟩
    convert hl.at1 using 1 <;> field_simp
  have hJ2 := JPt.ofAffine hl.at2
  generalize hy1 : l * x₁ + m = y₁ at *
  generalize hy2 : l * x₂ + m = y₂ at *
  unfold additionStep
  have zz := hz.square
  have yy := hY.square
  have t0 := zz.mul hX
  have t1 := (((hY.add hz).square.sub yy).sub zz).mul zz
  have t2 := t0.sub hx
  have t3 := t2.square
  have t4 := t3.double.double
  have t5 := t4.mul t2
  have t6 := (t1.sub hy).sub hy
  have t9 := t6.mul hX
  have t7 := t4.mul hx
  have rx := ((t6.square.sub t5).sub t7).sub t7
  have rz := ((hz.add t2).square.sub zz).sub t3
  have t10 := hY.add rz
  have t8 := (t7.sub rx).mul t6
  have ry := t8.sub (hy.mul t5).double
  have t10' := (t10.square.sub yy).sub rz.square
  have c2 := t9.double.sub t10'
  have c0 := rz.double
  have c1 := t6.neg.double
  refine ⟨⟨_, _, _, rx, ry, rz, hJ.add hJ2 hz0 one_ne_zero ?_ rfl rfl ?_ ?_ ?_⟩, 4 * z ^ 3 * (x₂ - x₁), ?_, c0.of_eq ?_,
    c1.of_eq ?_, c2.of_eq ?_⟩
  · rintro ⟨k, _⟩
    apply hx12
    apply mul_right_cancel₀ (pow_ne_zero 2 hz0)
    linear_combination k
  · ring
  · ring
  · ring
  · have h4 : (4 : Fq2) ≠ 0 := by
      have : (4 : Fq2) = 2 * 2 := by norm_num
      rw [this]; exact mul_ne_zero Fq2.two_ne Fq2.two_ne
    exact mul_ne_zero (mul_ne_zero h4 (pow_ne_zero 3 hz0)) (sub_ne_zero.mpr (Ne.symm hx12))
  · ring
  · linear_combination (4 * z ^ 3) * (hy2 - hy1)
  · linear_combination (4 * z ^ 3 * x₂) * hy1 - (4 * z ^ 3 * x₁) * hy2

/-! ### One line evaluation -/

theorem ell_spec {f : FQ12} {X : Fq12} {c : Coeffs} {p : G1Affine} {P : E1} {x y : Fq} {l m : Fq2} (hf : f.Rep X)
    (hc : c.Rep l m) (hp : p.Rep P) (hP : IsAt P x y) :
    ∃ κ : Fq2, κ ≠ 0 ∧ (ell f c p).Rep (X * (Fq12.ofFq2 κ * lv x y l m)) := by
  obtain ⟨κ, h0, c0, c1, c2⟩ := hc
  rcases hp with ⟨rfl, e⟩ | ⟨_, x', y', hx, hy, h⟩
  · exact absurd e hP.ne_zero
  obtain ⟨rfl, rfl⟩ := hP.coord h
  refine ⟨κ, h0, ?_⟩
  unfold ell
  have k0 : FQ2.Rep ⟨c.1.c0.mul p.y, c.1.c1.mul p.y⟩ (κ * Fq2.of y) := by
    constructor
    · convert c0.c0.mul hy using 1; simp
    · convert c0.c1.mul hy using 1; simp
  have k1 : FQ2.Rep ⟨c.2.1.c0.mul p.x, c.2.1.c1.mul p.x⟩ (-(κ * l) * Fq2.of x) := by
    constructor
    · convert c1.c0.mul hx using 1; simp; ring
    · convert c1.c1.mul hx using 1; simp; ring
  convert hf.mulBy014 c2 k1 k0 using 1
  congr 1
  rw [lv_eq]
  ext1
  · ext1 <;> simp [Fq12.ofFq2]
    ring
  · ext1 <;> simp [Fq12.ofFq2]

theorem ell_phi {f : FQ12} {X : Fq12} {c : Coeffs} {p : G1Affine} {P : E1} {A B : E2} {l m x₁ x₂ x₃ : Fq2} (hf : f.Rep X) (hX : X ≠ 0)
    (hc : c.Rep l m) (hp : p.Rep P) (hP : P ≠ 0) (hl : LD A B l m x₁ x₂ x₃) :
    ∃ Y, ∃ hY : Y ≠ 0, (ell f c p).Rep Y ∧ phi Y hY = phi X hX * cc P A B := by
  obtain ⟨x, y, hP⟩ := (zero_or_isAt P).resolve_left hP
  obtain ⟨κ, h0, h⟩ := ell_spec hf hc hp hP
  have k1 : Fq12.ofFq2 κ ≠ 0 := (map_ne_zero Fq12.ofFq2).mpr h0
  have k2 := lv_ne (x := x) (E1.at_y_ne hP) l m
  refine ⟨_, mul_ne_zero hX (mul_ne_zero k1 k2), h, ?_⟩
  rw [phi_mul hX (mul_ne_zero k1 k2), phi_mul k1 k2, phi_ofFq2, one_mul, cc_LD hP hl]

/-! ### One pass over the pairs -/

/-- The next coefficient of the item is that of the line through `A` and `B`, to be taken at `P`. -/
def PairingItem.LineAt (it : PairingItem) (P : E1) (A B : E2) : Prop :=
  ∃ c p l m x₁ x₂ x₃, it.q[it.qIndex]? = some c ∧ it.p = some p ∧ p.Rep P ∧ P ≠ 0 ∧ Coeffs.Rep c l m ∧ LD A B l m x₁ x₂ x₃

/-- The item after its next coefficient has been used. -/
def PairingItem.next (it : PairingItem) : PairingItem := { it with qIndex := it.qIndex + 1 }

/-- The product of the lines over the pairs. -/
noncomputable def lineProd (A B : E2 → E2) (ds : List (E1 × E2)) : GT := (ds.map fun d => cc d.1 (A d.2) (B d.2)).prod

theorem ellAll_spec {A B : E2 → E2} {S S' : PairingItem → E1 × E2 → Prop}
    {ps : List PairingItem} {ds : List (E1 × E2)} (h : List.Forall₂ S ps ds)
    (hS : ∀ it d, d ∈ ds → S it d → it.LineAt d.1 (A d.2) (B d.2) ∧ S' it.next d) :
    ∀ {f : FQ12} {X : Fq12} (_ : f.Rep X) (hX : X ≠ 0),
    ∃ f' ps' Y, ∃ hY : Y ≠ 0, ellAll f ps = some (f', ps') ∧ f'.Rep Y ∧ phi Y hY = phi X hX * lineProd A B ds ∧
      List.Forall₂ S' ps' ds := by
  induction h with
  | nil =>
    intro f X hf hX
    exact ⟨f, [], X, hX, rfl, hf, by rw [lineProd, List.map_nil, List.prod_nil, mul_one], .nil⟩
  | @cons it d ps ds h0 _ ih =>
    intro f X hf hX
    obtain ⟨⟨c, p, l, m, x₁, x₂, x₃, k1, k2, hp, hP, hc, hl⟩, hn⟩ := hS it d (List.mem_cons_self) h0
    obtain ⟨Y, hY, h1, h2⟩ := ell_phi hf hX hc hp hP hl
    obtain ⟨f', ps', Z, hZ, e1, e2, e3, e4⟩ := ih (fun it' d' hd => hS it' d' (List.mem_cons_of_mem _ hd)) h1 hY
    refine ⟨f', it.next :: ps', Z, hZ, ?_, e2, ?_, .cons hn e4⟩
    · rw [ellAll, k1, k2]
      dsimp only
      rw [e1, PairingItem.next, k2]
    · rw [e3, h2, lineProd, lineProd, List.map_cons, List.prod_cons, mul_assoc]

theorem lineProd_mul (A B A' B' : E2 → E2) (ds : List (E1 × E2)) : lineProd A B ds * lineProd A' B' ds =
    (ds.map fun d => cc d.1 (A d.2) (B d.2) * cc d.1 (A' d.2) (B' d.2)).prod := by
  rw [lineProd, lineProd, List.prod_map_mul]

/-- The product of the Miller products over the pairs. -/
noncomputable def prodM (ds : List (E1 × E2)) (n : ℕ) : GT := (ds.map fun d => millerProd (cc d.1) d.2 n).prod

theorem prodM_one (ds : List (E1 × E2)) : prodM ds 1 = 1 := by
  induction ds with
  | nil => rw [prodM, List.map_nil, List.prod_nil]
  | cons d ds ih => rw [prodM, List.map_cons, List.prod_cons, (cc_cocycle d.1).one, one_mul]; exact ih

theorem prodM_double (ds : List (E1 × E2)) (m : ℕ) :
    prodM ds (2 * m) = prodM ds m ^ 2 * lineProd (fun Q => m • Q) (fun Q => m • Q) ds := by
  induction ds with
  | nil => rw [prodM, prodM, lineProd, List.map_nil, List.map_nil, List.map_nil, List.prod_nil, one_pow, one_mul]
  | cons d ds ih =>
    rw [prodM, lineProd, prodM] at ih
    rw [prodM, lineProd, prodM, List.map_cons, List.prod_cons, List.map_cons, List.prod_cons, List.map_cons, List.prod_cons,
      (cc_cocycle d.1).double, ih, mul_pow]
    exact mul_mul_mul_comm _ _ _ _

theorem prodM_succ (ds : List (E1 × E2)) (m : ℕ) :
    prodM ds (m + 1) = prodM ds m * lineProd (fun Q => m • Q) (fun Q => Q) ds := by
  rw [prodM, lineProd, prodM, ← List.prod_map_mul]
  rfl

/-! ### The coefficient list of a prepared point -/

/-- The coefficients still to be produced when the remaining bits are `bits`. -/
def prepTail (q : G2Affine) : List Bool → G2Projective → List Coeffs
  | [], r => [(doublingStep r).2]
  | false :: bits, r => (doublingStep r).2 :: prepTail q bits (doublingStep r).1
  | true :: bits, r => (doublingStep r).2 :: (additionStep (doublingStep r).1 q).2 ::
      prepTail q bits (additionStep (doublingStep r).1 q).1

theorem prepareLoop_bits (q : G2Affine) (b : FQRepr) (bits : List Bool) :
    ∀ (i : ℕ) (r : G2Projective) (cs : List Coeffs),
    (∀ j, (h : j < bits.length) → b.bit (b.bitLen - (i + j)) = some bits[j]) →
    ∃ r' cs', prepareLoop q b bits.length i true r cs = some (r', cs') ∧
      cs' ++ [(doublingStep r').2] = cs ++ prepTail q bits r := by
  induction bits with
  | nil => intro i r cs _; exact ⟨r, cs, rfl, rfl⟩
  | cons x bits ih =>
    intro i r cs h
    have h0 := h 0 (Nat.succ_pos _)
    rw [Nat.add_zero, List.getElem_cons_zero] at h0
    have hs : ∀ j, (h : j < bits.length) → b.bit (b.bitLen - (i + 1 + j)) = some bits[j] := by
      intro j hj
      have := h (j + 1) (Nat.succ_lt_succ hj)
      rw [List.getElem_cons_succ] at this
      rw [← this, add_assoc, add_comm 1 j]
    rw [List.length_cons, prepareLoop, h0]
    dsimp only
    rw [Bool.not_true, if_neg Bool.false_ne_true]
    cases x
    · rw [if_neg Bool.false_ne_true]
      obtain ⟨r', cs', e1, e2⟩ := ih (i + 1) (doublingStep r).1 (cs ++ [(doublingStep r).2]) hs
      refine ⟨r', cs', e1, ?_⟩
      rw [e2, prepTail, List.append_assoc, List.singleton_append]
    · rw [if_pos rfl]
      obtain ⟨r', cs', e1, e2⟩ := ih (i + 1) (additionStep (doublingStep r).1 q).1
        (cs ++ [(doublingStep r).2] ++ [(additionStep (doublingStep r).1 q).2]) hs
      refine ⟨r', cs', e1, ?_⟩
      rw [e2, prepTail, List.append_assoc, List.append_assoc, List.singleton_append, List.singleton_append]

/-- The bits of |x|/2 below the leading one, most significant first. -/
def tailBits : List Bool := (List.range 62).map fun i => (0x6900800000008000 : ℕ).testBit (61 - i)

theorem bitLen_rsh : (blsX.rsh 1).bitLen = 63 := by decide +kernel

theorem bit_rsh : (blsX.rsh 1).bit 63 = some false ∧ (blsX.rsh 1).bit 62 = some true ∧
    ∀ j, (h : j < tailBits.length) → (blsX.rsh 1).bit (61 - j) = some tailBits[j] := by decide +kernel

theorem toPrepared_eq {q : G2Affine} (h : q.isZero = false) :
    q.toPrepared = some ⟨prepTail q tailBits q.toProjective, false⟩ := by
  obtain ⟨b0, b1, bs⟩ := bit_rsh
  obtain ⟨r', cs', e1, e2⟩ := prepareLoop_bits q (blsX.rsh 1) tailBits 2 q.toProjective []
    (fun j hj => by rw [bitLen_rsh, show 63 - (2 + j) = 61 - j from by omega]; exact bs j hj)
  have hl : tailBits.length = 62 := by rw [tailBits, List.length_map, List.length_range]
  rw [hl] at e1
  rw [List.nil_append] at e2
  unfold G2Affine.toPrepared
  rw [h, if_neg Bool.false_ne_true]
  dsimp only
  have k : prepareLoop q (blsX.rsh 1) ((blsX.rsh 1).bitLen + 1) 0 false q.toProjective [] = some (r', cs') := by
    rw [bitLen_rsh, prepareLoop, bitLen_rsh, b0]
    dsimp only
    rw [Bool.not_false, if_pos rfl, prepareLoop, bitLen_rsh, b1]
    dsimp only
    rw [Bool.not_false, if_pos rfl]
    exact e1
  rw [k]
  dsimp only
  rw [e2]

/-! ### The loop -/

/-- The loop of `MillerLoop` after the leading bit, with the final step. -/
def millerTail : List Bool → FQ12 → List PairingItem → Option FQ12
  | [], f, ps => (ellAll f ps).map (·.1)
  | false :: bits, f, ps => (ellAll f ps).bind fun a => millerTail bits a.1.square a.2
  | true :: bits, f, ps => (ellAll f ps).bind fun a => (ellAll a.1 a.2).bind fun c => millerTail bits c.1.square c.2

theorem millerGo_bits (b : FQRepr) (bits : List Bool) :
    ∀ (i : ℕ) (f : FQ12) (ps : List PairingItem),
    (∀ j, (h : j < bits.length) → b.bit (b.bitLen - (i + j)) = some bits[j]) →
    ((millerGo b bits.length i true f ps).bind fun a => (ellAll a.1 a.2).map (·.1)) = millerTail bits f ps := by
  induction bits with
  | nil => intro i f ps _; rfl
  | cons x bits ih =>
    intro i f ps h
    have h0 := h 0 (Nat.succ_pos _)
    rw [Nat.add_zero, List.getElem_cons_zero] at h0
    have hs : ∀ j, (h : j < bits.length) → b.bit (b.bitLen - (i + 1 + j)) = some bits[j] := by
      intro j hj
      have := h (j + 1) (Nat.succ_lt_succ hj)
      rw [List.getElem_cons_succ] at this
      rw [← this, add_assoc, add_comm 1 j]
    rw [List.length_cons, millerGo, h0]
    dsimp only
    rw [Bool.not_true, if_neg Bool.false_ne_true]
    cases x
    · rw [millerTail]
      rcases ellAll f ps with _ | ⟨f1, ps1⟩
      · rfl
      · dsimp only
        rw [if_neg Bool.false_ne_true, Option.bind_some]
        exact ih (i + 1) _ _ hs
    · rw [millerTail]
      rcases ellAll f ps with _ | ⟨f1, ps1⟩
      · rfl
      · dsimp only
        rw [if_pos rfl, Option.bind_some]
        rcases ellAll f1 ps1 with _ | ⟨f2, ps2⟩
        · rfl
        · dsimp only
          rw [Option.bind_some]
          exact ih (i + 1) _ _ hs

theorem millerLoop_eq (items : List (G1Affine × G2Prepared)) :
    millerLoop items = (millerTail tailBits FQ12.one (items.map PairingItem.make)).map FQ12.conjugate := by
  obtain ⟨b0, b1, bs⟩ := bit_rsh
  have e := millerGo_bits (blsX.rsh 1) tailBits 2 FQ12.one (items.map PairingItem.make)
    (fun j hj => by rw [bitLen_rsh, show 63 - (2 + j) = 61 - j from by omega]; exact bs j hj)
  have hl : tailBits.length = 62 := by rw [tailBits, List.length_map, List.length_range]
  rw [hl] at e
  have k : millerGo (blsX.rsh 1) ((blsX.rsh 1).bitLen + 1) 0 false FQ12.one (items.map PairingItem.make) =
      millerGo (blsX.rsh 1) 62 2 true FQ12.one (items.map PairingItem.make) := by
    rw [bitLen_rsh, millerGo, bitLen_rsh, b0]
    dsimp only
    rw [Bool.not_false, if_pos rfl, millerGo, bitLen_rsh, b1]
    dsimp only
    rw [Bool.not_false, if_pos rfl]
  unfold millerLoop
  dsimp only
  rw [k, ← e]
  rcases millerGo (blsX.rsh 1) 62 2 true FQ12.one (items.map PairingItem.make) with _ | ⟨f, ps⟩
  · rfl
  · dsimp only
    rw [Option.bind_some]
    dsimp only
    rcases ellAll f ps with _ | ⟨f', ps'⟩
    · rfl
    · dsimp only
      rw [if_pos (show blsIsNegative = true from rfl)]; rfl

/-! ### The invariant -/

/-- The number whose binary expansion is that of `m` followed by `bits`. -/
def mbVal : ℕ → List Bool → ℕ
  | m, [] => m
  | m, b :: bits => mbVal (2 * m + b.toNat) bits

theorem le_mbVal (bits : List Bool) : ∀ m, m ≤ mbVal m bits := by
  induction bits with
  | nil => intro m; exact le_refl m
  | cons b bits ih => intro m; exact le_trans (by omega) (ih (2 * m + b.toNat))

/-- A point of order `r`. -/
def Ord (Q : E2) : Prop := Q ≠ 0 ∧ r • Q = 0

theorem Ord.smul_ne {Q : E2} (h : Ord Q) {n : ℕ} (h0 : 0 < n) (hn : n < r) : n • Q ≠ 0 := by
  intro e
  have hp : Fact r.Prime := ⟨r_prime⟩
  have ho := addOrderOf_eq_prime (p := r) h.2 h.1
  have := addOrderOf_dvd_of_nsmul_eq_zero e
  rw [ho] at this
  exact absurd (Nat.le_of_dvd h0 this) (not_le.mpr hn)

/-- The multiples of `Q` that the loop compares, doubles and adds are not 0. -/
def Reg (Q : E2) : ℕ → List Bool → Prop
  | m, [] => m • Q ≠ 0 ∧ (2 * m) • Q ≠ 0
  | m, false :: bits => m • Q ≠ 0 ∧ (2 * m) • Q ≠ 0 ∧ Reg Q (2 * m) bits
  | m, true :: bits => m • Q ≠ 0 ∧ (2 * m) • Q ≠ 0 ∧ (2 * m - 1) • Q ≠ 0 ∧ (2 * m + 1) • Q ≠ 0 ∧ Reg Q (2 * m + 1) bits

theorem Ord.reg {Q : E2} (h : Ord Q) (bits : List Bool) : ∀ {m : ℕ}, 0 < m → 2 * mbVal m bits < r → Reg Q m bits := by
  induction bits with
  | nil =>
    intro m h0 hm
    rw [mbVal] at hm
    exact ⟨h.smul_ne h0 (by omega), h.smul_ne (by omega) hm⟩
  | cons b bits ih =>
    intro m h0 hm
    rw [mbVal] at hm
    have hle := le_mbVal bits (2 * m + b.toNat)
    cases b
    · rw [Bool.toNat_false, add_zero] at *
      exact ⟨h.smul_ne h0 (by omega), h.smul_ne (by omega) (by omega), ih (by omega) hm⟩
    · rw [Bool.toNat_true] at *
      exact ⟨h.smul_ne h0 (by omega), h.smul_ne (by omega) (by omega), h.smul_ne (by omega) (by omega),
        h.smul_ne (by omega) (by omega), ih (by omega) hm⟩

theorem Reg.fst {Q : E2} {m : ℕ} {bits : List Bool} (h : Reg Q m bits) : m • Q ≠ 0 ∧ (2 * m) • Q ≠ 0 := by
  cases bits with
  | nil => exact h
  | cons b bits => cases b <;> exact ⟨h.1, h.2.1⟩

theorem Reg.ne {Q : E2} {m : ℕ} {bits : List Bool} (h : Reg Q m bits) : Q ≠ 0 := fun e => h.fst.1 (by rw [e, nsmul_zero])

theorem double_LD {Q : E2} {m : ℕ} (h : m • Q ≠ 0 ∧ (2 * m) • Q ≠ 0) :
    ∃ l μ x₁ x₂ x₃, LD (m • Q) (m • Q) l μ x₁ x₂ x₃ := by
  refine LD.exists h.1 h.1 ?_
  rw [← add_nsmul, ← two_mul]
  exact h.2

theorem add_LD {Q : E2} {m : ℕ} (h0 : 0 < m) (hm : m • Q ≠ 0) (h1 : (m - 1) • Q ≠ 0) (h2 : (m + 1) • Q ≠ 0) :
    ∃ l μ x₁ x₂ x₃, LD (m • Q) Q l μ x₁ x₂ x₃ ∧ x₁ ≠ x₂ := by
  have n1 : m • Q + Q ≠ 0 := by rw [← succ_nsmul]; exact h2
  have hQ : Q ≠ 0 := fun e => hm (by rw [e, nsmul_zero])
  obtain ⟨l, μ, x₁, x₂, x₃, hl⟩ := LD.exists hm hQ n1
  refine ⟨l, μ, x₁, x₂, x₃, hl, ?_⟩
  intro e
  have h2 := hl.at2
  rw [← e] at h2
  rcases hl.at1.eq_or_neg h2 with k | k
  · have : m = (m - 1) + 1 := by omega
    rw [this, succ_nsmul] at k
    exact h1 (add_eq_right.mp k)
  · exact n1 k

/-- The state of a pair when the accumulated point is `m • Q` and `bits` remain. -/
def PairSt (m : ℕ) (bits : List Bool) (it : PairingItem) (d : E1 × E2) : Prop :=
  ∃ p qa g, it.p = some p ∧ p.Rep d.1 ∧ d.1 ≠ 0 ∧ qa.Rep d.2 ∧ g.Rep (m • d.2) ∧ it.q.drop it.qIndex = prepTail qa bits g

/-- The state between the doubling line and the addition line. -/
def PairMid (m : ℕ) (bits : List Bool) (it : PairingItem) (d : E1 × E2) : Prop :=
  ∃ p qa g, it.p = some p ∧ p.Rep d.1 ∧ d.1 ≠ 0 ∧ qa.Rep d.2 ∧ g.Rep (m • d.2) ∧
    it.q.drop it.qIndex = (additionStep g qa).2 :: prepTail qa bits (additionStep g qa).1

theorem drop_cons {α : Type*} {l t : List α} {n : ℕ} {a : α} (h : l.drop n = a :: t) : l[n]? = some a ∧ l.drop (n + 1) = t := by
  constructor
  · have := congrArg List.head? h
    rwa [List.head?_drop, List.head?_cons] at this
  · have := congrArg List.tail h
    rwa [List.tail_drop, List.tail_cons] at this

theorem step_false {m : ℕ} {bits : List Bool} {it : PairingItem} {d : E1 × E2} (hd : m • d.2 ≠ 0 ∧ (2 * m) • d.2 ≠ 0)
    (h : PairSt m (false :: bits) it d) : it.LineAt d.1 (m • d.2) (m • d.2) ∧ PairSt (2 * m) bits it.next d := by
  obtain ⟨p, qa, g, k1, k2, k3, k4, k5, k6⟩ := h
  obtain ⟨l, μ, x₁, x₂, x₃, hl⟩ := double_LD hd
  obtain ⟨s1, s2⟩ := doublingStep_spec k5 hl
  rw [prepTail] at k6
  obtain ⟨e1, e2⟩ := drop_cons k6
  refine ⟨⟨_, p, l, μ, x₁, x₂, x₃, e1, k1, k2, k3, s2, hl⟩, p, qa, _, k1, k2, k3, k4, ?_, e2⟩
  rw [two_mul, add_nsmul]; exact s1

theorem step_nil {m : ℕ} {it : PairingItem} {d : E1 × E2} (hd : m • d.2 ≠ 0 ∧ (2 * m) • d.2 ≠ 0)
    (h : PairSt m [] it d) : it.LineAt d.1 (m • d.2) (m • d.2) ∧ True := by
  obtain ⟨p, qa, g, k1, k2, k3, k4, k5, k6⟩ := h
  obtain ⟨l, μ, x₁, x₂, x₃, hl⟩ := double_LD hd
  obtain ⟨s1, s2⟩ := doublingStep_spec k5 hl
  rw [prepTail] at k6
  obtain ⟨e1, e2⟩ := drop_cons k6
  exact ⟨⟨_, p, l, μ, x₁, x₂, x₃, e1, k1, k2, k3, s2, hl⟩, trivial⟩

theorem step_true {m : ℕ} {bits : List Bool} {it : PairingItem} {d : E1 × E2} (hd : m • d.2 ≠ 0 ∧ (2 * m) • d.2 ≠ 0)
    (h : PairSt m (true :: bits) it d) : it.LineAt d.1 (m • d.2) (m • d.2) ∧ PairMid (2 * m) bits it.next d := by
  obtain ⟨p, qa, g, k1, k2, k3, k4, k5, k6⟩ := h
  obtain ⟨l, μ, x₁, x₂, x₃, hl⟩ := double_LD hd
  obtain ⟨s1, s2⟩ := doublingStep_spec k5 hl
  rw [prepTail] at k6
  obtain ⟨e1, e2⟩ := drop_cons k6
  refine ⟨⟨_, p, l, μ, x₁, x₂, x₃, e1, k1, k2, k3, s2, hl⟩, p, qa, _, k1, k2, k3, k4, ?_, e2⟩
  rw [two_mul, add_nsmul]; exact s1

theorem step_mid {m : ℕ} {bits : List Bool} {it : PairingItem} {d : E1 × E2} (h0 : 0 < m) (hm : m • d.2 ≠ 0)
    (h1 : (m - 1) • d.2 ≠ 0) (h2 : (m + 1) • d.2 ≠ 0)
    (h : PairMid m bits it d) : it.LineAt d.1 (m • d.2) d.2 ∧ PairSt (m + 1) bits it.next d := by
  obtain ⟨p, qa, g, k1, k2, k3, k4, k5, k6⟩ := h
  obtain ⟨l, μ, x₁, x₂, x₃, hl, hx⟩ := add_LD h0 hm h1 h2
  obtain ⟨s1, s2⟩ := additionStep_spec k5 k4 hl hx
  obtain ⟨e1, e2⟩ := drop_cons k6
  refine ⟨⟨_, p, l, μ, x₁, x₂, x₃, e1, k1, k2, k3, s2, hl⟩, p, qa, _, k1, k2, k3, k4, ?_, e2⟩
  rw [succ_nsmul]; exact s1

theorem phi_sq {Y : Fq12} {hY : Y ≠ 0} : phi (Y * Y) (mul_ne_zero hY hY) = phi Y hY ^ 2 := by
  rw [phi_mul hY hY, pow_two]

theorem millerTail_spec {ds : List (E1 × E2)} (bits : List Bool) :
    ∀ {m : ℕ} {f : FQ12} {X : Fq12} {ps : List PairingItem} (_ : 0 < m) (_ : ∀ d ∈ ds, Reg d.2 m bits)
    (_ : List.Forall₂ (PairSt m bits) ps ds) (_ : f.Rep X) (hX : X ≠ 0) (_ : phi X hX = prodM ds m ^ 2),
    ∃ f' Y, ∃ hY : Y ≠ 0, millerTail bits f ps = some f' ∧ f'.Rep Y ∧ phi Y hY = prodM ds (2 * mbVal m bits) := by
  induction bits with
  | nil =>
    intro m f X ps h0 hm hp hf hX hφ
    rw [mbVal]
    obtain ⟨f', ps', Y, hY, e1, e2, e3, _⟩ := ellAll_spec (A := fun Q => m • Q) (B := fun Q => m • Q) (S' := fun _ _ => True) hp
      (fun it d hdm h => step_nil (hm d hdm).fst h) hf hX
    refine ⟨f', Y, hY, ?_, e2, ?_⟩
    · rw [millerTail, e1]; rfl
    · rw [e3, hφ, prodM_double]
  | cons b bits ih =>
    intro m f X ps h0 hm hp hf hX hφ
    rw [mbVal]
    cases b
    · rw [Bool.toNat_false, add_zero] at *
      obtain ⟨f', ps', Y, hY, e1, e2, e3, e4⟩ := ellAll_spec (A := fun Q => m • Q) (B := fun Q => m • Q) hp
        (fun it d hdm h => step_false (hm d hdm).fst h) hf hX
      obtain ⟨f'', Z, hZ, k1, k2, k3⟩ := ih (m := 2 * m) (by omega) (fun d hdm => (hm d hdm).2.2) e4 e2.square (mul_ne_zero hY hY)
        (by rw [phi_sq (hY := hY), e3, hφ, prodM_double])
      refine ⟨f'', Z, hZ, ?_, k2, k3⟩
      rw [millerTail, e1]; exact k1
    · rw [Bool.toNat_true] at *
      obtain ⟨f', ps', Y, hY, e1, e2, e3, e4⟩ := ellAll_spec (A := fun Q => m • Q) (B := fun Q => m • Q) hp
        (fun it d hdm h => step_true (hm d hdm).fst h) hf hX
      obtain ⟨f2, ps2, Y2, hY2, g1, g2, g3, g4⟩ := ellAll_spec (A := fun Q => (2 * m) • Q) (B := fun Q => Q) e4
        (fun it d hdm h => step_mid (by omega) (hm d hdm).2.1 (hm d hdm).2.2.1 (hm d hdm).2.2.2.1 h) e2 hY
      obtain ⟨f'', Z, hZ, k1, k2, k3⟩ := ih (m := 2 * m + 1) (by omega) (fun d hdm => (hm d hdm).2.2.2.2) g4 g2.square (mul_ne_zero hY2 hY2)
        (by rw [phi_sq (hY := hY2), g3, e3, hφ, prodM_succ, prodM_double])
      refine ⟨f'', Z, hZ, ?_, k2, k3⟩
      rw [millerTail, e1, Option.bind_some, g1]; exact k1

theorem mbVal_tail : 2 * mbVal 1 tailBits = blsU := by rw [blsU]; decide +kernel

theorem blsU_lt : blsU < r := by rw [blsU, r]; decide +kernel

/-- The product of the pairings. -/
noncomputable def prodE (ds : List (E1 × E2)) : GT := (ds.map fun d => ee d.1 d.2).prod

theorem prodE_eq (ds : List (E1 × E2)) : prodE ds = (prodM ds blsU)⁻¹ := by
  induction ds with
  | nil => rw [prodE, prodM, List.map_nil, List.map_nil, List.prod_nil, inv_one]
  | cons d ds ih =>
    rw [prodE, prodM] at ih
    rw [prodE, prodM, List.map_cons, List.prod_cons, List.map_cons, List.prod_cons, ih, mul_inv]; rfl

/-- The argument of `MillerLoop` made from affine points. -/
def ItemRep (it : G1Affine × G2Prepared) (d : E1 × E2) : Prop :=
  it.1.Rep d.1 ∧ ∃ a : G2Affine, a.Rep d.2 ∧ a.toPrepared = some it.2

theorem G2Affine.Rep.isZero_false {a : G2Affine} {Q : E2} (h : a.Rep Q) (hQ : Q ≠ 0) : a.isZero = false := by
  rw [← Bool.not_eq_true]; exact fun e => hQ (h.infinity_iff.mp e)

theorem G1Affine.Rep.isZero_false {a : G1Affine} {Q : E1} (h : a.Rep Q) (hQ : Q ≠ 0) : a.isZero = false := by
  rw [← Bool.not_eq_true]; exact fun e => hQ (h.infinity_iff.mp e)

theorem ItemRep.pairSt {it : G1Affine × G2Prepared} {d : E1 × E2} (h : ItemRep it d) (h1 : d.1 ≠ 0) (h2 : d.2 ≠ 0) :
    PairSt 1 tailBits (PairingItem.make it) d := by
  obtain ⟨hp, a, ha, e⟩ := h
  rw [toPrepared_eq (ha.isZero_false h2)] at e
  obtain ⟨p, prep⟩ := it
  obtain rfl := Option.some_inj.mp e
  refine ⟨p, a, a.toProjective, ?_, hp, h1, ha, ?_, ?_⟩
  · rw [PairingItem.make, hp.isZero_false h1]; rfl
  · rw [one_nsmul]; exact ha.toProjective
  · rw [PairingItem.make, hp.isZero_false h1]; rfl

theorem millerLoop_spec {items : List (G1Affine × G2Prepared)} {ds : List (E1 × E2)} (h : List.Forall₂ ItemRep items ds)
    (h1 : ∀ d ∈ ds, d.1 ≠ 0) (h2 : ∀ d ∈ ds, Reg d.2 1 tailBits) :
    ∃ f Y, ∃ hY : Y ≠ 0, millerLoop items = some f ∧ f.Rep Y ∧ phi Y hY = prodE ds := by
  have hp : List.Forall₂ (PairSt 1 tailBits) (items.map PairingItem.make) ds := by
    rw [List.forall₂_map_left_iff]
    induction h with
    | nil => exact .nil
    | @cons it d its ds hi _ ih =>
      exact .cons (hi.pairSt (h1 d List.mem_cons_self) (h2 d List.mem_cons_self).ne)
        (ih (fun d hd => h1 d (List.mem_cons_of_mem _ hd)) (fun d hd => h2 d (List.mem_cons_of_mem _ hd)))
  obtain ⟨f, Y, hY, e1, e2, e3⟩ := millerTail_spec tailBits (m := 1) (f := FQ12.one) (X := 1) Nat.one_pos
    h2 hp FQ12.one_rep one_ne_zero
    (by rw [prodM_one, one_pow]; apply GT.ext; rw [phi_val, one_pow, GT.val_one])
  rw [mbVal_tail] at e3
  refine ⟨f.conjugate, Fq12.conj Y, Fq12.conj_ne hY, ?_, e2.conjugate, ?_⟩
  · rw [millerLoop_eq, e1]; rfl
  · rw [phi_conj hY, e3, prodE_eq]

/-! ### Infinity: the loop panics -/

theorem ellAll_none {ps : List PairingItem} (h : (⟨none, [], 0⟩ : PairingItem) ∈ ps) : ∀ f, ellAll f ps = none := by
  induction ps with
  | nil => exact absurd h (List.not_mem_nil)
  | cons it ps ih =>
    intro f
    rcases List.mem_cons.mp h with e | e
    · rw [← e]; rfl
    · rw [ellAll]
      rcases it.q[it.qIndex]? with _ | c
      · rfl
      rcases it.p with _ | p
      · rfl
      dsimp only
      rw [ih e]

theorem millerLoop_none {items : List (G1Affine × G2Prepared)} {it : G1Affine × G2Prepared} (h : it ∈ items)
    (hz : it.1.isZero = true ∨ it.2.isZero = true) : millerLoop items = none := by
  have hm : (⟨none, [], 0⟩ : PairingItem) ∈ items.map PairingItem.make := by
    refine List.mem_map.mpr ⟨it, h, ?_⟩
    rw [PairingItem.make, if_neg]
    rcases hz with e | e <;> rw [e]
    · exact Bool.false_ne_true
    · rw [Bool.not_true, Bool.and_false]; exact Bool.false_ne_true
  rw [millerLoop_eq]
  have e : tailBits = true :: tailBits.tail := by decide +kernel
  rw [e, millerTail, ellAll_none hm]
  rfl

/-! ### Pairing and CompareTwoPairings -/

theorem Ord.of_smul {Q : E2} (h0 : Q ≠ 0) (h : r • Q = 0) : Ord Q := ⟨h0, h⟩

theorem toPrepared_ok (a : G2Affine) : ∃ prep, a.toPrepared = some prep ∧ prep.isZero = a.isZero := by
  cases h : a.isZero
  · exact ⟨_, toPrepared_eq h, rfl⟩
  · refine ⟨⟨[], true⟩, ?_, rfl⟩
    unfold G2Affine.toPrepared
    rw [if_pos h]

theorem finalExp_phi {f : FQ12} {Y : Fq12} (hf : f.Rep Y) (hY : Y ≠ 0) :
    ∃ g, finalExponentiation f = some g ∧ g.Rep (phi Y hY).val := by
  rw [phi_val]; exact hf.finalExponentiation hY

theorem Ord.reg_tail {Q : E2} (h : Ord Q) : Reg Q 1 tailBits :=
  h.reg tailBits Nat.one_pos (by rw [mbVal_tail]; exact blsU_lt)

theorem pairing_reg {p : G1Projective} {g : G2Projective} {P : E1} {Q : E2} (hp : p.Rep P) (hg : g.Rep Q) (hP : P ≠ 0)
    (hQ : Reg Q 1 tailBits) : ∃ e, pairing p g = some (some e) ∧ e.Rep (ee P Q).val := by
  have ha := hg.toAffine
  obtain ⟨prep, e1, _⟩ := toPrepared_ok g.toAffine
  have hi : ItemRep (p.toAffine, prep) (P, Q) := ⟨hp.toAffine, _, ha, e1⟩
  obtain ⟨f, Y, hY, m1, m2, m3⟩ := millerLoop_spec (.cons hi .nil) (fun d hd => by rw [List.mem_singleton.mp hd]; exact hP)
    (fun d hd => by rw [List.mem_singleton.mp hd]; exact hQ)
  obtain ⟨e, f1, f2⟩ := finalExp_phi m2 hY
  refine ⟨e, ?_, ?_⟩
  · rw [pairing, e1]
    dsimp only
    rw [m1, Option.map_some, f1]
  · rw [m3, prodE, List.map_singleton, List.prod_singleton] at f2
    exact f2

theorem pairing_spec {p : G1Projective} {g : G2Projective} {P : E1} {Q : E2} (hp : p.Rep P) (hg : g.Rep Q) (hP : P ≠ 0)
    (hQ : Ord Q) : ∃ e, pairing p g = some (some e) ∧ e.Rep (ee P Q).val := pairing_reg hp hg hP hQ.reg_tail

theorem pairing_none {p : G1Projective} {g : G2Projective} {P : E1} {Q : E2} (hp : p.Rep P) (hg : g.Rep Q)
    (h : P = 0 ∨ Q = 0) : pairing p g = none := by
  obtain ⟨prep, e1, e2⟩ := toPrepared_ok g.toAffine
  rw [pairing, e1]
  dsimp only
  rw [millerLoop_none (it := (p.toAffine, prep)) List.mem_cons_self, Option.map_none]
  rcases h with e | e
  · exact Or.inl (hp.toAffine.infinity_iff.mpr e)
  · right
    rw [e2]; exact hg.toAffine.infinity_iff.mpr e

theorem equals_one_iff {e : FQ12} {a b : GT} (h : e.Rep (a * b⁻¹).val) : e.equals FQ12.one = true ↔ a = b := by
  rw [h.equals FQ12.one_rep, ← GT.val_one]
  constructor
  · intro h
    exact mul_inv_eq_one.mp (GT.ext h)
  · intro h
    rw [mul_inv_eq_one.mpr h]

theorem prodE_pair (P₁ P₂ : E1) (Q₁ Q₂ : E2) : prodE [(P₁, Q₁), (-P₂, Q₂)] = ee P₁ Q₁ * (ee P₂ Q₂)⁻¹ := by
  have h : prodE [(P₁, Q₁), (-P₂, Q₂)] = ee P₁ Q₁ * (ee (-P₂) Q₂ * 1) := by
    rw [prodE, List.map_cons, List.map_cons, List.map_nil, List.prod_cons, List.prod_cons, List.prod_nil]
  rw [h, mul_one, ee_neg_left]

theorem forall_pair {α : Type*} {p : α → Prop} {a b : α} (ha : p a) (hb : p b) : ∀ d ∈ [a, b], p d := by
  intro d hd
  rcases List.mem_cons.mp hd with e | e
  · rw [e]; exact ha
  · rw [List.mem_singleton.mp e]; exact hb

theorem compare_eq {p₁ p₂ : G1Projective} {g₁ g₂ : G2Projective} {prep1 prep2 : G2Prepared} {f e : FQ12}
    (e1 : g₁.toAffine.toPrepared = some prep1) (e2 : g₂.toAffine.toPrepared = some prep2)
    (m1 : millerLoop [(p₁.toAffine, prep1), (p₂.neg.toAffine, prep2)] = some f) (f1 : finalExponentiation f = some e) :
    compareTwoPairings p₁ g₁ p₂ g₂ = some (e.equals FQ12.one) := by
  unfold compareTwoPairings
  rw [e1, e2, Option.bind_some, Option.bind_some, m1, Option.bind_some, f1, Option.map_some]

theorem compareTwoPairings_reg {p₁ p₂ : G1Projective} {g₁ g₂ : G2Projective} {P₁ P₂ : E1} {Q₁ Q₂ : E2} (hp₁ : p₁.Rep P₁)
    (hg₁ : g₁.Rep Q₁) (hp₂ : p₂.Rep P₂) (hg₂ : g₂.Rep Q₂) (h1 : P₁ ≠ 0) (h2 : P₂ ≠ 0) (k1 : Reg Q₁ 1 tailBits)
    (k2 : Reg Q₂ 1 tailBits) :
    ∃ c, compareTwoPairings p₁ g₁ p₂ g₂ = some c ∧ (c = true ↔ ee P₁ Q₁ = ee P₂ Q₂) := by
  obtain ⟨prep1, e1, _⟩ := toPrepared_ok g₁.toAffine
  obtain ⟨prep2, e2, _⟩ := toPrepared_ok g₂.toAffine
  have hi1 : ItemRep (p₁.toAffine, prep1) (P₁, Q₁) := ⟨hp₁.toAffine, _, hg₁.toAffine, e1⟩
  have hi2 : ItemRep (p₂.neg.toAffine, prep2) (-P₂, Q₂) := ⟨hp₂.neg.toAffine, _, hg₂.toAffine, e2⟩
  obtain ⟨f, Y, hY, m1, m2, m3⟩ := millerLoop_spec (.cons hi1 (.cons hi2 .nil))
    (forall_pair h1 (neg_ne_zero.mpr h2)) (forall_pair k1 k2)
  obtain ⟨e, f1, f2⟩ := finalExp_phi m2 hY
  refine ⟨e.equals FQ12.one, ?_, ?_⟩
  · exact compare_eq e1 e2 m1 f1
  · rw [m3, prodE_pair] at f2
    exact equals_one_iff f2

theorem compareTwoPairings_spec {p₁ p₂ : G1Projective} {g₁ g₂ : G2Projective} {P₁ P₂ : E1} {Q₁ Q₂ : E2} (hp₁ : p₁.Rep P₁)
    (hg₁ : g₁.Rep Q₁) (hp₂ : p₂.Rep P₂) (hg₂ : g₂.Rep Q₂) (h1 : P₁ ≠ 0) (h2 : P₂ ≠ 0) (k1 : Ord Q₁) (k2 : Ord Q₂) :
    ∃ c, compareTwoPairings p₁ g₁ p₂ g₂ = some c ∧ (c = true ↔ ee P₁ Q₁ = ee P₂ Q₂) :=
  compareTwoPairings_reg hp₁ hg₁ hp₂ hg₂ h1 h2 k1.reg_tail k2.reg_tail

theorem compareTwoPairings_none {p₁ p₂ : G1Projective} {g₁ g₂ : G2Projective} {P₁ P₂ : E1} {Q₁ Q₂ : E2} (hp₁ : p₁.Rep P₁)
    (hg₁ : g₁.Rep Q₁) (hp₂ : p₂.Rep P₂) (hg₂ : g₂.Rep Q₂) (h : P₁ = 0 ∨ P₂ = 0 ∨ Q₁ = 0 ∨ Q₂ = 0) :
    compareTwoPairings p₁ g₁ p₂ g₂ = none := by
  obtain ⟨prep1, e1, z1⟩ := toPrepared_ok g₁.toAffine
  obtain ⟨prep2, e2, z2⟩ := toPrepared_ok g₂.toAffine
  rw [compareTwoPairings, e1, e2, Option.bind_some, Option.bind_some]
  have : millerLoop [(p₁.toAffine, prep1), (p₂.neg.toAffine, prep2)] = none := by
    rcases h with e | e | e | e
    · exact millerLoop_none List.mem_cons_self (Or.inl (hp₁.toAffine.infinity_iff.mpr e))
    · exact millerLoop_none (List.mem_cons_of_mem _ List.mem_cons_self)
        (Or.inl (hp₂.neg.toAffine.infinity_iff.mpr (by rw [e, neg_zero])))
    · exact millerLoop_none List.mem_cons_self (Or.inr (by rw [z1]; exact hg₁.toAffine.infinity_iff.mpr e))
    · exact millerLoop_none (List.mem_cons_of_mem _ List.mem_cons_self)
        (Or.inr (by rw [z2]; exact hg₂.toAffine.infinity_iff.mpr e))
  rw [this, Option.bind_none]

end Bls
