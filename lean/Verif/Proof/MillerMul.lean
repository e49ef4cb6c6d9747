import Verif.Proof.Miller
import Verif.Proof.TowerVal
/-
MillerLoop is multiplicative in its list of pairs, for arbitrary finite arguments.
-/
namespace Bls

/-- The coefficients are canonical. -/
def Coeffs.OK (c : Coeffs) : Prop := c.1.isValid = true ∧ c.2.1.isValid = true ∧ c.2.2.isValid = true

/-- The point has canonical coordinates. -/
def G2Projective.OK (g : G2Projective) : Prop := g.x.isValid = true ∧ g.y.isValid = true ∧ g.z.isValid = true

theorem doublingStep_ok {g : G2Projective} (h : g.OK) : (doublingStep g).1.OK ∧ (doublingStep g).2.OK := by
  have hx := FQ2.rep h.1
  have hy := FQ2.rep h.2.1
  have hz := FQ2.rep h.2.2
  unfold doublingStep
  have tmp0 := hx.square
  have tmp1 := hy.square
  have tmp2 := tmp1.square
  have tmp3 := (((tmp1.add hx).square.sub tmp0).sub tmp2).double
  have tmp4 := tmp0.double.add tmp0
  have tmp6 := hx.add tmp4
  have tmp5 := tmp4.square
  have zz := hz.square
  have rx := (tmp5.sub tmp3).sub tmp3
  have rz := ((hz.add hy).square.sub tmp1).sub zz
  have ry := ((tmp3.sub rx).mul tmp4).sub tmp2.double.double.double
  have c1 := (tmp4.mul zz).double.neg
  have c2 := ((tmp6.square.sub tmp0).sub tmp5).sub tmp1.double.double
  have c0 := (rz.mul zz).double
  exact ⟨⟨rx.out.1, ry.out.1, rz.out.1⟩, c0.out.1, c1.out.1, c2.out.1⟩

theorem additionStep_ok {g : G2Projective} {a : G2Affine} (h : g.OK) (h1 : a.x.isValid = true) (h2 : a.y.isValid = true) :
    (additionStep g a).1.OK ∧ (additionStep g a).2.OK := by
  have hx := FQ2.rep h.1
  have hy := FQ2.rep h.2.1
  have hz := FQ2.rep h.2.2
  have hX := FQ2.rep h1
  have hY := FQ2.rep h2
  unfold additionStep
  have zz := hz.square
  have yy := hY.square
  have t0 := zz.mul hX
  have t1 := (((hY.add hz).square.sub yy).sub zz).mul zz
  have t2 := t0.sub hx
  have t3 := t2.square
  have t4 := t3.double.double
  have t5 := t4.mul t2
  have t6 := (t1.sub hy).sub hy
  have t9 := t6.mul hX
  have t7 := t4.mul hx
  have rx := ((t6.square.sub t5).sub t7).sub t7
  have rz := ((hz.add t2).square.sub zz).sub t3
  have t10 := hY.add rz
  have t8 := (t7.sub rx).mul t6
  have ry := t8.sub (hy.mul t5).double
  have t10' := (t10.square.sub yy).sub rz.square
  have c2 := t9.double.sub t10'
  have c0 := rz.double
  have c1 := t6.neg.double
  exact ⟨⟨rx.out.1, ry.out.1, rz.out.1⟩, c0.out.1, c1.out.1, c2.out.1⟩

/-- The number of lines used for the bits. -/
def need : List Bool → ℕ
  | [] => 1
  | false :: b => 1 + need b
  | true :: b => 2 + need b

theorem prepTail_ok {a : G2Affine} (h1 : a.x.isValid = true) (h2 : a.y.isValid = true) (bits : List Bool) :
    ∀ {g : G2Projective}, g.OK → (prepTail a bits g).length = need bits ∧ ∀ c ∈ prepTail a bits g, c.OK := by
  induction bits with
  | nil =>
    intro g hg
    exact ⟨rfl, fun c hc => by rw [prepTail, List.mem_singleton] at hc; rw [hc]; exact (doublingStep_ok hg).2⟩
  | cons b bits ih =>
    intro g hg
    have hd := doublingStep_ok hg
    cases b
    · obtain ⟨e1, e2⟩ := ih hd.1
      rw [prepTail, need]
      refine ⟨by rw [List.length_cons, e1]; omega, fun c hc => ?_⟩
      rcases List.mem_cons.mp hc with e | e
      · rw [e]; exact hd.2
      · exact e2 c e
    · have ha := additionStep_ok hd.1 h1 h2
      obtain ⟨e1, e2⟩ := ih ha.1
      rw [prepTail, need]
      refine ⟨by rw [List.length_cons, List.length_cons, e1]; omega, fun c hc => ?_⟩
      rcases List.mem_cons.mp hc with e | e
      · rw [e]; exact hd.2
      · rcases List.mem_cons.mp e with e | e
        · rw [e]; exact ha.2
        · exact e2 c e

/-! ### Values -/

/-- The value of one line. -/
noncomputable def lineEval (c : Coeffs) (p : G1Affine) : Fq12 :=
  ⟨⟨c.2.2.fld, c.2.1.fld * Fq2.of (p.x.int : Fq), 0⟩, ⟨0, c.1.fld * Fq2.of (p.y.int : Fq), 0⟩⟩

theorem ell_eval {f : FQ12} {X : Fq12} {c : Coeffs} {p : G1Affine} (hf : f.Rep X) (hc : c.OK) (hx : p.x.isValid = true)
    (hy : p.y.isValid = true) : (ell f c p).Rep (X * lineEval c p) := by
  have c0 := FQ2.rep hc.1
  have c1 := FQ2.rep hc.2.1
  have c2 := FQ2.rep hc.2.2
  have hx := FQ.rep_iff_int.mpr ⟨hx, rfl⟩
  have hy := FQ.rep_iff_int.mpr ⟨hy, rfl⟩
  unfold ell lineEval
  generalize (p.x.int : Fq) = x at hx ⊢
  generalize (p.y.int : Fq) = y at hy ⊢
  have k0 : FQ2.Rep ⟨c.1.c0.mul p.y, c.1.c1.mul p.y⟩ (c.1.fld * Fq2.of y) := by
    constructor
    · convert c0.c0.mul hy using 1; simp
    · convert c0.c1.mul hy using 1; simp
  have k1 : FQ2.Rep ⟨c.2.1.c0.mul p.x, c.2.1.c1.mul p.x⟩ (c.2.1.fld * Fq2.of x) := by
    constructor
    · convert c1.c0.mul hx using 1; simp
    · convert c1.c1.mul hx using 1; simp
  exact hf.mulBy014 c2 k1 k0

/-- The item is at index `j` of at least `n` canonical coefficients, whose line values are `v`. -/
def ItemAt (n j : ℕ) (it : PairingItem) (v : ℕ → Fq12) : Prop :=
  it.qIndex = j ∧ ∃ p, it.p = some p ∧ p.x.isValid = true ∧ p.y.isValid = true ∧
    ∀ i, i < n → ∃ c, it.q[i]? = some c ∧ c.OK ∧ v i = lineEval c p

/-- The product of the line values at one index. -/
noncomputable def prodV (vs : List (ℕ → Fq12)) (j : ℕ) : Fq12 := (vs.map fun v => v j).prod

theorem ellAll_eval {n j : ℕ} (hj : j < n) {ps : List PairingItem} {vs : List (ℕ → Fq12)} (h : List.Forall₂ (ItemAt n j) ps vs) :
    ∀ {f : FQ12} {X : Fq12}, f.Rep X →
    ∃ f' ps', ellAll f ps = some (f', ps') ∧ f'.Rep (X * prodV vs j) ∧ List.Forall₂ (ItemAt n (j + 1)) ps' vs := by
  induction h with
  | nil =>
    intro f X hf
    refine ⟨f, [], rfl, ?_, .nil⟩
    rw [prodV, List.map_nil, List.prod_nil, mul_one]; exact hf
  | @cons it v ps vs h0 _ ih =>
    intro f X hf
    obtain ⟨e1, p, e2, hx, hy, hc⟩ := h0
    obtain ⟨c, k1, k2, k3⟩ := hc j hj
    obtain ⟨f', ps', m1, m2, m3⟩ := ih (ell_eval hf k2 hx hy)
    refine ⟨f', it.next :: ps', ?_, ?_, .cons ⟨?_, p, e2, hx, hy, hc⟩ m3⟩
    · rw [ellAll, e1, k1, e2]
      dsimp only
      rw [m1, PairingItem.next, e2, e1]
    · rw [prodV, List.map_cons, List.prod_cons, k3, ← mul_assoc]; exact m2
    · rw [PairingItem.next, e1]

/-- The value of the loop. -/
noncomputable def mval : List Bool → ℕ → Fq12 → (ℕ → Fq12) → Fq12
  | [], j, X, v => X * v j
  | false :: b, j, X, v => mval b (j + 1) ((X * v j) * (X * v j)) v
  | true :: b, j, X, v => mval b (j + 2) ((X * v j * v (j + 1)) * (X * v j * v (j + 1))) v

theorem mval_mul (bits : List Bool) : ∀ (j : ℕ) (X Y : Fq12) (v w : ℕ → Fq12),
    mval bits j (X * Y) (fun i => v i * w i) = mval bits j X v * mval bits j Y w := by
  induction bits with
  | nil => intro j X Y v w; rw [mval, mval, mval]; ring
  | cons b bits ih =>
    intro j X Y v w
    cases b
    · rw [mval, mval, mval, ← ih]; congr 1; ring
    · rw [mval, mval, mval, ← ih]; congr 1; ring

theorem mval_one (bits : List Bool) : ∀ (j : ℕ), mval bits j 1 (fun _ => 1) = 1 := by
  induction bits with
  | nil => intro j; rw [mval, one_mul]
  | cons b bits ih =>
    intro j
    cases b
    · rw [mval, one_mul, one_mul, ih]
    · rw [mval, one_mul, one_mul, one_mul, ih]

theorem mval_prod (bits : List Bool) (j : ℕ) (vs : List (ℕ → Fq12)) :
    mval bits j 1 (prodV vs) = (vs.map fun v => mval bits j 1 v).prod := by
  induction vs with
  | nil => rw [List.map_nil, List.prod_nil]; exact mval_one bits j
  | cons v vs ih =>
    rw [List.map_cons, List.prod_cons, ← ih, ← mval_mul, one_mul]
    rfl

theorem millerTail_eval {n : ℕ} {vs : List (ℕ → Fq12)} (bits : List Bool) :
    ∀ {j : ℕ} {f : FQ12} {X : Fq12} {ps : List PairingItem}, j + need bits ≤ n → List.Forall₂ (ItemAt n j) ps vs → f.Rep X →
    ∃ f', millerTail bits f ps = some f' ∧ f'.Rep (mval bits j X (prodV vs)) := by
  induction bits with
  | nil =>
    intro j f X ps hn h hf
    obtain ⟨f', ps', e1, e2, _⟩ := ellAll_eval (by rw [need] at hn; omega) h hf
    exact ⟨f', by rw [millerTail, e1]; rfl, e2⟩
  | cons b bits ih =>
    intro j f X ps hn h hf
    cases b
    · rw [need] at hn
      obtain ⟨f', ps', e1, e2, e3⟩ := ellAll_eval (by omega) h hf
      obtain ⟨f'', k1, k2⟩ := ih (by omega) e3 e2.square
      exact ⟨f'', by rw [millerTail, e1]; exact k1, k2⟩
    · rw [need] at hn
      obtain ⟨f', ps', e1, e2, e3⟩ := ellAll_eval (by omega) h hf
      obtain ⟨f2, ps2, g1, g2, g3⟩ := ellAll_eval (by omega) e3 e2
      obtain ⟨f'', k1, k2⟩ := ih (by omega) g3 g2.square
      exact ⟨f'', by rw [millerTail, e1, Option.bind_some, g1]; exact k1, k2⟩

/-- The line values of a finite pair. -/
noncomputable def pairVals (p : G1Affine) (cs : List Coeffs) (i : ℕ) : Fq12 :=
  match cs[i]? with
  | some c => lineEval c p
  | none => 0

/-- A pair of finite points with canonical coordinates, prepared. -/
def FinitePair (it : G1Affine × G2Prepared) : Prop :=
  it.1.infinity = false ∧ it.1.x.isValid = true ∧ it.1.y.isValid = true ∧
  ∃ a : G2Affine, a.infinity = false ∧ a.x.isValid = true ∧ a.y.isValid = true ∧ a.toPrepared = some it.2

theorem FinitePair.itemAt {it : G1Affine × G2Prepared} (h : FinitePair it) :
    ItemAt (need tailBits) 0 (PairingItem.make it) (pairVals it.1 it.2.coeffs) := by
  obtain ⟨h1, hx, hy, a, ha, hX, hY, e⟩ := h
  rw [toPrepared_eq (show a.isZero = false from ha)] at e
  obtain ⟨p, prep⟩ := it
  obtain rfl := Option.some_inj.mp e
  have hok : a.toProjective.OK := by
    have e : a.toProjective = ⟨a.x, a.y, FQ2.one⟩ := by
      unfold G2Affine.toProjective
      rw [if_neg (by rw [show a.isZero = false from ha]; exact Bool.false_ne_true)]
    rw [e]
    exact ⟨hX, hY, FQ2.one_rep.out.1⟩
  obtain ⟨l1, l2⟩ := prepTail_ok hX hY tailBits hok
  have hz : p.isZero = false := h1
  refine ⟨by rw [PairingItem.make, hz]; rfl, p, by rw [PairingItem.make, hz]; rfl, hx, hy, fun i hi => ?_⟩
  have hq : (PairingItem.make (p, ⟨prepTail a tailBits a.toProjective, false⟩)).q = prepTail a tailBits a.toProjective := by
    rw [PairingItem.make, hz]; rfl
  rw [hq]
  have hl : i < (prepTail a tailBits a.toProjective).length := by rw [l1]; exact hi
  refine ⟨(prepTail a tailBits a.toProjective)[i], List.getElem?_eq_getElem hl, l2 _ (List.getElem_mem hl), ?_⟩
  rw [pairVals]
  dsimp only
  rw [List.getElem?_eq_getElem hl]

theorem millerLoop_finite {items : List (G1Affine × G2Prepared)} (h : ∀ it ∈ items, FinitePair it) :
    ∃ f, millerLoop items = some f ∧ f.Rep (Fq12.conj (mval tailBits 0 1 (prodV (items.map fun it => pairVals it.1 it.2.coeffs)))) := by
  have hp : List.Forall₂ (ItemAt (need tailBits) 0) (items.map PairingItem.make) (items.map fun it => pairVals it.1 it.2.coeffs) := by
    rw [List.forall₂_map_left_iff, List.forall₂_map_right_iff, List.forall₂_same]
    exact fun it hit => (h it hit).itemAt
  obtain ⟨f, e1, e2⟩ := millerTail_eval tailBits (by omega) hp FQ12.one_rep
  exact ⟨f.conjugate, by rw [millerLoop_eq, e1]; rfl, e2.conjugate⟩

/-- The loop over a list is the product of the loops over its elements. -/
theorem millerLoop_prod {items : List (G1Affine × G2Prepared)} (h : ∀ it ∈ items, FinitePair it) :
    ∃ (f : FQ12) (fs : List FQ12), millerLoop items = some f ∧ items.map (fun it => millerLoop [it]) = fs.map some ∧
      f.isValid = true ∧ (∀ g ∈ fs, g.isValid = true) ∧ f.fld = (fs.map FQ12.fld).prod := by
  obtain ⟨f, e1, e2⟩ := millerLoop_finite h
  have key : ∀ its : List (G1Affine × G2Prepared), (∀ it ∈ its, FinitePair it) →
      ∃ fs : List FQ12, its.map (fun it => millerLoop [it]) = fs.map some ∧ (∀ g ∈ fs, g.isValid = true) ∧
      (fs.map FQ12.fld).prod = Fq12.conj ((its.map fun it => mval tailBits 0 1 (pairVals it.1 it.2.coeffs)).prod) := by
    intro its
    induction its with
    | nil =>
      intro _
      refine ⟨[], rfl, fun g hg => absurd hg List.not_mem_nil, ?_⟩
      rw [List.map_nil, List.map_nil, List.prod_nil, map_one]
    | cons it its ih =>
      intro h
      obtain ⟨fs, k1, k2, k3⟩ := ih (fun x hx => h x (List.mem_cons_of_mem _ hx))
      obtain ⟨g, m1, m2⟩ := millerLoop_finite (items := [it]) (fun x hx => by
        rw [List.mem_singleton.mp hx]; exact h it List.mem_cons_self)
      refine ⟨g :: fs, ?_, ?_, ?_⟩
      · rw [List.map_cons, List.map_cons, m1, k1]
      · intro g' hg'
        rcases List.mem_cons.mp hg' with e | e
        · rw [e]; exact m2.out.1
        · exact k2 g' e
      · rw [mval_prod] at m2
        have := m2.out.2
        rw [List.map_singleton, List.map_singleton, List.prod_singleton] at this
        rw [List.map_cons, List.prod_cons, List.map_cons, List.prod_cons, k3, map_mul, this]
  obtain ⟨fs, k1, k2, k3⟩ := key items h
  refine ⟨f, fs, e1, k1, e2.out.1, k2, ?_⟩
  rw [e2.out.2, k3, mval_prod, List.map_map, Function.comp_def]

end Bls
