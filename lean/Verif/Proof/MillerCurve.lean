import Verif.Proof.MillerMul
import Verif.Proof.Orders
/-
The loop for arbitrary points of the second curve: it gives 0 exactly if 13 times the point is infinity.
-/
namespace Bls

/-! ### Points that meet 13 -/

/-- Coordinates of infinity, as the steps produce them. -/
def G2Projective.Far (g : G2Projective) : Prop := ∃ X Y : Fq2, g.x.Rep X ∧ g.y.Rep Y ∧ g.z.Rep 0 ∧ X ^ 3 = Y ^ 2

/-- All coordinates are 0. -/
def G2Projective.Null (g : G2Projective) : Prop := g.x.Rep 0 ∧ g.y.Rep 0 ∧ g.z.Rep 0

theorem additionStep_neg {g : G2Projective} {a : G2Affine} {R Q : E2} (h : g.Rep R) (ha : a.Rep Q) (hQ : Q ≠ 0)
    (e : R + Q = 0) : (additionStep g a).1.Far := by
  obtain ⟨x, y, hxy⟩ := (zero_or_isAt Q).resolve_left hQ
  have hR : IsAt R x (-y) := by rw [eq_neg_of_add_eq_zero_left e]; exact hxy.neg
  obtain ⟨z, hz0, hx, hy, hz⟩ := h.scaled hR
  rcases ha with ⟨rfl, e⟩ | ⟨_, X, Y, hX, hY, hQ'⟩
  · exact absurd e hQ
  obtain ⟨rfl, rfl⟩ := hxy.coord hQ'
  unfold additionStep
  have zz := hz.square
  have yy := hY.square
  have t0 := zz.mul hX
  have t1 := (((hY.add hz).square.sub yy).sub zz).mul zz
  have t2 := t0.sub hx
  have t3 := t2.square
  have t4 := t3.double.double
  have t5 := t4.mul t2
  have t6 := (t1.sub hy).sub hy
  have t7 := t4.mul hx
  have rx := ((t6.square.sub t5).sub t7).sub t7
  have rz := ((hz.add t2).square.sub zz).sub t3
  have t8 := (t7.sub rx).mul t6
  have ry := t8.sub (hy.mul t5).double
  exact ⟨(4 * y * z ^ 3) ^ 2, -(4 * y * z ^ 3) ^ 3, rx.of_eq (by ring), ry.of_eq (by ring), rz.of_eq (by ring), by ring⟩

theorem doublingStep_far {g : G2Projective} (h : g.Far) : (doublingStep g).1.Far := by
  obtain ⟨X, Y, hx, hy, hz, e⟩ := h
  unfold doublingStep
  have tmp0 := hx.square
  have tmp1 := hy.square
  have tmp2 := tmp1.square
  have tmp3 := (((tmp1.add hx).square.sub tmp0).sub tmp2).double
  have tmp4 := tmp0.double.add tmp0
  have tmp5 := tmp4.square
  have zz := hz.square
  have rx := (tmp5.sub tmp3).sub tmp3
  have rz := ((hz.add hy).square.sub tmp1).sub zz
  have ry := ((tmp3.sub rx).mul tmp4).sub tmp2.double.double.double
  refine ⟨X ^ 4, X ^ 6, rx.of_eq ?_, ry.of_eq ?_, rz.of_eq (by ring), by ring⟩
  · linear_combination (8 * X) * e
  · linear_combination (-4 * (7 * X ^ 3 - 2 * Y ^ 2)) * e

theorem additionStep_far {g : G2Projective} {a : G2Affine} (h : g.Far) (h1 : a.x.isValid = true) (h2 : a.y.isValid = true) :
    (additionStep g a).1.Null := by
  obtain ⟨x, y, hx, hy, hz, e⟩ := h
  have hX := FQ2.rep h1
  have hY := FQ2.rep h2
  unfold additionStep
  have zz := hz.square
  have yy := hY.square
  have t0 := zz.mul hX
  have t1 := (((hY.add hz).square.sub yy).sub zz).mul zz
  have t2 := t0.sub hx
  have t3 := t2.square
  have t4 := t3.double.double
  have t5 := t4.mul t2
  have t6 := (t1.sub hy).sub hy
  have t7 := t4.mul hx
  have rx := ((t6.square.sub t5).sub t7).sub t7
  have rz := ((hz.add t2).square.sub zz).sub t3
  have t8 := (t7.sub rx).mul t6
  have ry := t8.sub (hy.mul t5).double
  refine ⟨rx.of_eq ?_, ry.of_eq ?_, rz.of_eq (by ring)⟩
  · linear_combination (-4) * e
  · linear_combination (-8) * y * e

theorem doublingStep_null {g : G2Projective} (h : g.Null) :
    (doublingStep g).2.1.Rep 0 ∧ (doublingStep g).2.2.1.Rep 0 ∧ (doublingStep g).2.2.2.Rep 0 := by
  obtain ⟨hx, hy, hz⟩ := h
  unfold doublingStep
  have tmp0 := hx.square
  have tmp1 := hy.square
  have tmp2 := tmp1.square
  have tmp4 := tmp0.double.add tmp0
  have tmp6 := hx.add tmp4
  have tmp5 := tmp4.square
  have zz := hz.square
  have rz := ((hz.add hy).square.sub tmp1).sub zz
  have c1 := (tmp4.mul zz).double.neg
  have c2 := ((tmp6.square.sub tmp0).sub tmp5).sub tmp1.double.double
  have c0 := (rz.mul zz).double
  exact ⟨c0.of_eq (by ring), c1.of_eq (by ring), c2.of_eq (by ring)⟩

theorem smul_ne_of_thirteen {Q : E2} (h0 : Q ≠ 0) (h : 13 • Q = 0) {n : ℕ} (h1 : 0 < n) (h2 : n < 13) : n • Q ≠ 0 := by
  intro e
  have hp : Fact (Nat.Prime 13) := ⟨by norm_num⟩
  have ho := addOrderOf_eq_prime (p := 13) h h0
  have := addOrderOf_dvd_of_nsmul_eq_zero e
  rw [ho] at this
  exact absurd (Nat.le_of_dvd h1 this) (not_le.mpr h2)

theorem tailBits_eq : ∃ bits, tailBits = true :: false :: true :: false :: false :: true :: false :: bits :=
  ⟨tailBits.drop 7, by decide +kernel⟩

/-- The tenth line of a point whose 13th multiple is infinity is 0. -/
theorem thirteen_line {a : G2Affine} {Q : E2} (ha : a.Rep Q) (h0 : Q ≠ 0) (h : 13 • Q = 0) (hX : a.x.isValid = true)
    (hY : a.y.isValid = true) :
    ∃ c : Coeffs, (prepTail a tailBits a.toProjective)[9]? = some c ∧ c.1.Rep 0 ∧ c.2.1.Rep 0 ∧ c.2.2.Rep 0 := by
  have ne : ∀ n : ℕ, 0 < n → n < 13 → n • Q ≠ 0 := fun n h1 h2 => smul_ne_of_thirteen h0 h h1 h2
  have g0 : a.toProjective.Rep (1 • Q) := by rw [one_nsmul]; exact ha.toProjective
  obtain ⟨_, _, _, _, _, l1⟩ := double_LD (Q := Q) (m := 1) ⟨ne 1 (by omega) (by omega), ne 2 (by omega) (by omega)⟩
  have g1 := (doublingStep_spec g0 l1).1
  rw [← add_nsmul] at g1
  obtain ⟨_, _, _, _, _, l2, x2⟩ := add_LD (Q := Q) (m := 2) (by omega) (ne 2 (by omega) (by omega))
    (ne 1 (by omega) (by omega)) (ne 3 (by omega) (by omega))
  have g2 := (additionStep_spec g1 ha l2 x2).1
  rw [← succ_nsmul] at g2
  obtain ⟨_, _, _, _, _, l3⟩ := double_LD (Q := Q) (m := 3) ⟨ne 3 (by omega) (by omega), ne 6 (by omega) (by omega)⟩
  have g3 := (doublingStep_spec g2 l3).1
  rw [← add_nsmul] at g3
  obtain ⟨_, _, _, _, _, l4⟩ := double_LD (Q := Q) (m := 6) ⟨ne 6 (by omega) (by omega), ne 12 (by omega) (by omega)⟩
  have g4 := (doublingStep_spec g3 l4).1
  rw [← add_nsmul] at g4
  have g5 := additionStep_neg g4 ha h0 (by rw [← succ_nsmul]; exact h)
  have g6 := additionStep_far (doublingStep_far (doublingStep_far (doublingStep_far g5))) hX hY
  obtain ⟨bits, hb⟩ := tailBits_eq
  rw [hb]
  exact ⟨_, rfl, doublingStep_null g6⟩

theorem mval_zero (bits : List Bool) : ∀ (j : ℕ) (X : Fq12) (v : ℕ → Fq12),
    (X = 0 ∨ ∃ i, j ≤ i ∧ i < j + need bits ∧ v i = 0) → mval bits j X v = 0 := by
  induction bits with
  | nil =>
    intro j X v h
    rw [mval]
    rcases h with rfl | ⟨i, h1, h2, h3⟩
    · rw [zero_mul]
    · rw [need] at h2
      rw [show j = i from by omega, h3, mul_zero]
  | cons b bits ih =>
    intro j X v h
    cases b
    · rw [mval]
      apply ih
      rcases h with rfl | ⟨i, h1, h2, h3⟩
      · left; ring
      · rw [need] at h2
        by_cases e : j = i
        · left; rw [e, h3]; ring
        · exact Or.inr ⟨i, by omega, by omega, h3⟩
    · rw [mval]
      apply ih
      rcases h with rfl | ⟨i, h1, h2, h3⟩
      · left; ring
      · rw [need] at h2
        by_cases e : j = i
        · left; rw [e, h3]; ring
        · by_cases e : j + 1 = i
          · left; rw [e, h3]; ring
          · exact Or.inr ⟨i, by omega, by omega, h3⟩

theorem prodV_zero {vs : List (ℕ → Fq12)} {v : ℕ → Fq12} (hv : v ∈ vs) {i : ℕ} (h : v i = 0) : prodV vs i = 0 :=
  List.prod_eq_zero (List.mem_map.mpr ⟨v, hv, h⟩)

theorem ItemRep.finite {it : G1Affine × G2Prepared} {d : E1 × E2} (h : ItemRep it d) (h1 : d.1 ≠ 0) (h2 : d.2 ≠ 0) :
    FinitePair it := by
  obtain ⟨hp, a, ha, e⟩ := h
  rcases hp with ⟨_, e⟩ | ⟨i1, x, y, hx, hy, _⟩
  · exact absurd e h1
  rcases ha with ⟨_, e⟩ | ⟨i2, X, Y, hX, hY, _⟩
  · exact absurd e h2
  exact ⟨i1, FQ.isValid_iff.mpr hx.1, FQ.isValid_iff.mpr hy.1, a, i2, hX.out.1, hY.out.1, e⟩

/-- With a pair whose point in G2 has order 13, the loop gives 0. -/
theorem millerLoop_thirteen {items : List (G1Affine × G2Prepared)} {ds : List (E1 × E2)} (h : List.Forall₂ ItemRep items ds)
    (h1 : ∀ d ∈ ds, d.1 ≠ 0) (h2 : ∀ d ∈ ds, d.2 ≠ 0) {d : E1 × E2} (hd : d ∈ ds) (h13 : 13 • d.2 = 0) :
    ∃ f, millerLoop items = some f ∧ f.Rep 0 := by
  have key : ∀ it ∈ items, FinitePair it := by
    clear h13 hd
    induction h with
    | nil => exact fun it hit => absurd hit List.not_mem_nil
    | @cons it d its ds hi _ ih =>
      intro it' hit
      rcases List.mem_cons.mp hit with rfl | hit
      · exact hi.finite (h1 d List.mem_cons_self) (h2 d List.mem_cons_self)
      · exact ih (fun d hd => h1 d (List.mem_cons_of_mem _ hd)) (fun d hd => h2 d (List.mem_cons_of_mem _ hd)) it' hit
  obtain ⟨f, e1, e2⟩ := millerLoop_finite key
  refine ⟨f, e1, ?_⟩
  suffices hz : Fq12.conj (mval tailBits 0 1 (prodV (items.map fun it => pairVals it.1 it.2.coeffs))) = 0 by rwa [hz] at e2
  clear e2
  obtain ⟨it, hit, hi⟩ : ∃ it ∈ items, ItemRep it d := by
    clear e1 key h1 h2
    induction h with
    | nil => exact absurd hd List.not_mem_nil
    | @cons it d its ds hi _ ih =>
      rcases List.mem_cons.mp hd with rfl | hd
      · exact ⟨it, List.mem_cons_self, hi⟩
      · obtain ⟨it, k1, k2⟩ := ih hd
        exact ⟨it, List.mem_cons_of_mem _ k1, k2⟩
  obtain ⟨hp, a, ha, e⟩ := id hi
  rw [toPrepared_eq (ha.isZero_false (h2 d hd))] at e
  obtain ⟨i2, X, Y, hX, hY, _⟩ := ha.resolve_left fun k => h2 d hd k.2
  obtain ⟨c, k1, k2, k3, k4⟩ := thirteen_line ha (h2 d hd) h13 hX.out.1 hY.out.1
  rw [mval_zero tailBits 0 1 _ (Or.inr ⟨9, by omega, by decide +kernel, prodV_zero
    (v := pairVals it.1 it.2.coeffs) (List.mem_map.mpr ⟨it, hit, rfl⟩) ?_⟩), map_zero]
  rw [pairVals, ← Option.some_inj.mp e]
  dsimp only
  rw [k1]
  dsimp only
  rw [lineEval, k2.out.2, k3.out.2, k4.out.2, zero_mul, zero_mul]
  rfl

theorem smul_ne_of_gcd {Q : E2} (h : 13 • Q ≠ 0) {n : ℕ} (hn : 13 % Nat.gcd n (h2 * r) = 0) : n • Q ≠ 0 := by
  intro e
  have h1 := addOrderOf_dvd_of_nsmul_eq_zero e
  have h3 : addOrderOf Q ∣ h2 * r := by rw [← E2.card]; exact addOrderOf_dvd_natCard Q
  exact h (addOrderOf_dvd_iff_nsmul_eq_zero.mp ((Nat.dvd_gcd h1 h3).trans (Nat.dvd_of_mod_eq_zero hn)))

/-- A check that the multiples in `Reg` are by numbers without a common factor, except 13, with the order `N` of the
curve. -/
def regCheck (N : ℕ) : ℕ → List Bool → Bool
  | m, [] => 13 % Nat.gcd m N == 0 && 13 % Nat.gcd (2 * m) N == 0
  | m, false :: bits => 13 % Nat.gcd m N == 0 && 13 % Nat.gcd (2 * m) N == 0 && regCheck N (2 * m) bits
  | m, true :: bits => 13 % Nat.gcd m N == 0 && 13 % Nat.gcd (2 * m) N == 0 && 13 % Nat.gcd (2 * m - 1) N == 0 &&
      13 % Nat.gcd (2 * m + 1) N == 0 && regCheck N (2 * m + 1) bits

theorem regCheck_reg {Q : E2} (h : 13 • Q ≠ 0) (bits : List Bool) :
    ∀ {m : ℕ}, regCheck (h2 * r) m bits = true → Reg Q m bits := by
  induction bits with
  | nil =>
    intro m k
    rw [regCheck, Bool.and_eq_true, beq_iff_eq, beq_iff_eq] at k
    exact ⟨smul_ne_of_gcd h k.1, smul_ne_of_gcd h k.2⟩
  | cons b bits ih =>
    intro m k
    cases b
    · rw [regCheck, Bool.and_eq_true, Bool.and_eq_true, beq_iff_eq, beq_iff_eq] at k
      exact ⟨smul_ne_of_gcd h k.1.1, smul_ne_of_gcd h k.1.2, ih k.2⟩
    · rw [regCheck, Bool.and_eq_true, Bool.and_eq_true, Bool.and_eq_true, Bool.and_eq_true, beq_iff_eq, beq_iff_eq,
        beq_iff_eq, beq_iff_eq] at k
      exact ⟨smul_ne_of_gcd h k.1.1.1.1, smul_ne_of_gcd h k.1.1.1.2, smul_ne_of_gcd h k.1.1.2, smul_ne_of_gcd h k.1.2,
        ih k.2⟩

theorem reg_of_thirteen {Q : E2} (h : 13 • Q ≠ 0) : Reg Q 1 tailBits := by
  refine regCheck_reg h tailBits ?_
  rw [r_eq]
  decide +kernel

theorem finalExponentiation_zero {f : FQ12} (hf : f.Rep 0) : finalExponentiation f = none := by
  unfold finalExponentiation
  rw [hf.inverse_zero]
  rfl

theorem pairing_thirteen {p : G1Projective} {g : G2Projective} {P : E1} {Q : E2} (hp : p.Rep P) (hg : g.Rep Q)
    (hP : P ≠ 0) (hQ : Q ≠ 0) (h : 13 • Q = 0) : pairing p g = some none := by
  obtain ⟨prep, e1, _⟩ := toPrepared_ok g.toAffine
  have hi : ItemRep (p.toAffine, prep) (P, Q) := ⟨hp.toAffine, _, hg.toAffine, e1⟩
  obtain ⟨f, m1, m2⟩ := millerLoop_thirteen (.cons hi .nil) (fun d hd => by rw [List.mem_singleton.mp hd]; exact hP)
    (fun d hd => by rw [List.mem_singleton.mp hd]; exact hQ) List.mem_cons_self h
  rw [pairing, e1]
  dsimp only
  rw [m1, Option.map_some, finalExponentiation_zero m2]

theorem compareTwoPairings_thirteen {p₁ p₂ : G1Projective} {g₁ g₂ : G2Projective} {P₁ P₂ : E1} {Q₁ Q₂ : E2}
    (hp₁ : p₁.Rep P₁) (hg₁ : g₁.Rep Q₁) (hp₂ : p₂.Rep P₂) (hg₂ : g₂.Rep Q₂) (h1 : P₁ ≠ 0) (h2 : P₂ ≠ 0) (k1 : Q₁ ≠ 0)
    (k2 : Q₂ ≠ 0) (h : 13 • Q₁ = 0 ∨ 13 • Q₂ = 0) : compareTwoPairings p₁ g₁ p₂ g₂ = none := by
  obtain ⟨prep1, e1, _⟩ := toPrepared_ok g₁.toAffine
  obtain ⟨prep2, e2, _⟩ := toPrepared_ok g₂.toAffine
  have hi1 : ItemRep (p₁.toAffine, prep1) (P₁, Q₁) := ⟨hp₁.toAffine, _, hg₁.toAffine, e1⟩
  have hi2 : ItemRep (p₂.neg.toAffine, prep2) (-P₂, Q₂) := ⟨hp₂.neg.toAffine, _, hg₂.toAffine, e2⟩
  have key : ∃ f, millerLoop [(p₁.toAffine, prep1), (p₂.neg.toAffine, prep2)] = some f ∧ f.Rep 0 := by
    rcases h with h | h
    · exact millerLoop_thirteen (.cons hi1 (.cons hi2 .nil)) (forall_pair h1 (neg_ne_zero.mpr h2)) (forall_pair k1 k2)
        List.mem_cons_self h
    · exact millerLoop_thirteen (.cons hi1 (.cons hi2 .nil)) (forall_pair h1 (neg_ne_zero.mpr h2)) (forall_pair k1 k2)
        (List.mem_cons_of_mem _ List.mem_cons_self) h
  obtain ⟨f, m1, m2⟩ := key
  unfold compareTwoPairings
  rw [e1, e2, Option.bind_some, Option.bind_some, m1, Option.bind_some, finalExponentiation_zero m2, Option.map_none]

theorem thirteen_of_r {Q : E2} (h : r • Q = 0) : 13 • Q = 0 ↔ Q = 0 :=
  ⟨fun h' => (nsmul_eq_zero_iff_of_coprime (m := 13) (n := r) (by rw [r_eq]; decide +kernel)).mp ⟨h', h⟩,
    fun h' => by rw [h', nsmul_zero]⟩

/-- A point of order 13. -/
theorem thirteen_exists : ∃ Q : E2, Q ≠ 0 ∧ 13 • Q = 0 := by
  obtain ⟨P, _, h1, h2, _⟩ := b13_full
  exact ⟨P, h1, h2⟩

end Bls
