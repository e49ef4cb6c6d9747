import Verif.Model.HeapFQ12
import Verif.Proof.Heap12
/-
The trees of Verif/Model/HeapFQ12.lean, run without interruption, are the functions of Verif/Model/Heap12.lean.
-/
namespace Bls.HeapFQ12
open Bls.Heap12 (Mem aFQ6Zero aFQ12One)

theorem run_bind {α β : Type} (x : M α) (f : α → M β) (m : Mem) :
    (x >>= f).run m = (x.run m).bind fun t => (f t.1).run t.2 := by
  show (M.bind x f).run m = _
  induction x generalizing m with
  | ret a => rfl
  | panic => rfl
  | readSix p k ih => exact ih _ m
  | writeSix p v k ih => exact ih _
  | readTwelve p k ih => exact ih _ m
  | writeTwelve f p q k ih => exact ih _
  | newSix v k ih => exact ih _ _
  | newTwelve p q k ih => exact ih _ _

theorem run_pure {α : Type} (a : α) (m : Mem) : (pure a : M α).run m = some (a, m) := rfl
theorem run_panic {α : Type} (m : Mem) : (M.panic : M α).run m = none := rfl
theorem run_six (p : Nat) (m : Mem) : (six p).run m = some (m.six p, m) := rfl
theorem run_setSix (p : Nat) (v : FQ6) (m : Mem) : (setSix p v).run m = some ((), m.set6 p v) := rfl
theorem run_c0 (p : Nat) (m : Mem) : (c0 p).run m = some (m.c0 p, m) := rfl
theorem run_c1 (p : Nat) (m : Mem) : (c1 p).run m = some (m.c1 p, m) := rfl
theorem run_putC0 (f p : Nat) (m : Mem) : (putC0 f p).run m = some ((), m.putC0 f p) := rfl
theorem run_putC1 (f p : Nat) (m : Mem) : (putC1 f p).run m = some ((), m.putC1 f p) := rfl
theorem run_newSix (v : FQ6) (m : Mem) : (newSix v).run m = some (m.new6 v) := rfl
theorem run_newTwelve (p q : Nat) (m : Mem) : (newTwelve p q).run m = some (m.new12 p q) := rfl
theorem run_setC0 (p : Nat) (v : FQ2) (m : Mem) : (setC0 p v).run m = some ((), m.setC0 p v) := rfl
theorem run_setC1 (p : Nat) (v : FQ2) (m : Mem) : (setC1 p v).run m = some ((), m.setC1 p v) := rfl
theorem run_setC2 (p : Nat) (v : FQ2) (m : Mem) : (setC2 p v).run m = some ((), m.setC2 p v) := rfl
theorem run_ite {α : Type} (c : Prop) [Decidable c] (x y : M α) (m : Mem) :
    (if c then x else y).run m = if c then x.run m else y.run m := by split <;> rfl

macro "runs" "[" ls:Lean.Parser.Tactic.simpLemma,* "]" : tactic =>
  `(tactic| simp only [run_bind, run_pure, run_six, run_setSix, run_c0, run_c1, run_putC0, run_putC1, run_newSix,
    run_newTwelve, run_setC0, run_setC1, run_setC2, run_ite, run_panic, Option.bind_some, Option.bind_none, $ls,*])

theorem copy6_run (m : Mem) (p : Nat) : (copy6 p).run m = some (Heap12.copy6 m p) := rfl
theorem mulByNonresidue6_run (m : Mem) (p : Nat) :
    (mulByNonresidue6 p).run m = some ((), Heap12.mulByNonresidue6 m p) := rfl
theorem mulBy1_6_run (m : Mem) (p : Nat) (d : FQ2) : (mulBy1_6 p d).run m = some ((), Heap12.mulBy1_6 m p d) := rfl
theorem mulBy01_6_run (m : Mem) (p : Nat) (d d' : FQ2) :
    (mulBy01_6 p d d').run m = some ((), Heap12.mulBy01_6 m p d d') := rfl
theorem equals6_run (m : Mem) (p o : Nat) : (equals6 p o).run m = some (Heap12.equals6 m p o, m) := rfl
theorem isZero6_run (m : Mem) (p : Nat) : (isZero6 p).run m = some (Heap12.isZero6 m p, m) := rfl
theorem double6_run (m : Mem) (p : Nat) : (double6 p).run m = some ((), Heap12.double6 m p) := by
  unfold double6 Heap12.double6; runs []
theorem neg6_run (m : Mem) (p : Nat) : (neg6 p).run m = some ((), Heap12.neg6 m p) := by
  unfold neg6 Heap12.neg6; runs []
theorem add6_run (m : Mem) (p o : Nat) : (add6 p o).run m = some ((), Heap12.add6 m p o) := by
  unfold add6 Heap12.add6; runs []
theorem sub6_run (m : Mem) (p o : Nat) : (sub6 p o).run m = some ((), Heap12.sub6 m p o) := by
  unfold sub6 Heap12.sub6; runs []
theorem frobenius6_run (m : Mem) (p : Nat) (k : UInt8) :
    (frobenius6 p k).run m = some ((), Heap12.frobenius6 m p k) := by
  unfold frobenius6 Heap12.frobenius6; runs []
theorem square6_run (m : Mem) (p : Nat) : (square6 p).run m = some ((), Heap12.square6 m p) := rfl
theorem mul6_run (m : Mem) (p o : Nat) : (mul6 p o).run m = some ((), Heap12.mul6 m p o) := by
  unfold mul6 Heap12.mul6; runs []
theorem run_not {α : Type} (m : Mem) {b : Bool} {x y : M α} {r t : α × Mem} (hx : b = false → x.run m = some r)
    (hy : b = true → y.run m = some t) : (if !b then x else y).run m = some (if !b then r else t) := by
  cases b
  · exact hx rfl
  · exact hy rfl
theorem inverse6_run (m : Mem) (p : Nat) : (inverse6 p).run m = some (Heap12.inverse6 m p) := by
  rw [inverse6, run_bind, run_six, Option.bind_some]
  exact run_not m (fun _ => rfl) fun _ => rfl

theorem conjugate_run (m : Mem) (f : Nat) : (conjugate f).run m = some ((), Heap12.conjugate m f) := by
  unfold conjugate Heap12.conjugate; runs [neg6_run]
theorem mulBy014_chain (m : Mem) (f : Nat) (d0 d1 d4 : FQ2) : ∃ aa m1 m2 bb m3 m4 m5 m6 m7 m8 t m9 m10 m11,
    Heap12.copy6 m (m.c0 f) = (aa, m1) ∧ Heap12.mulBy01_6 m1 aa d0 d1 = m2 ∧ Heap12.copy6 m2 (m2.c1 f) = (bb, m3) ∧
    Heap12.mulBy1_6 m3 bb d4 = m4 ∧ Heap12.add6 m4 (m4.c1 f) (m4.c0 f) = m5 ∧
    Heap12.mulBy01_6 m5 (m5.c1 f) d0 (d1.add d4) = m6 ∧ Heap12.sub6 m6 (m6.c1 f) aa = m7 ∧
    Heap12.sub6 m7 (m7.c1 f) bb = m8 ∧ Heap12.copy6 m8 bb = (t, m9) ∧ m9.putC0 f t = m10 ∧
    Heap12.mulByNonresidue6 m10 (m10.c0 f) = m11 ∧ Heap12.add6 m11 (m11.c0 f) aa = Heap12.mulBy014 m f d0 d1 d4 :=
  ⟨_, _, _, _, _, _, _, _, _, _, _, _, _, _, rfl, rfl, rfl, rfl, rfl, rfl, rfl, rfl, rfl, rfl, rfl, rfl⟩

theorem mulBy014_run (m : Mem) (f : Nat) (d0 d1 d4 : FQ2) :
    (mulBy014 f d0 d1 d4).run m = some ((), Heap12.mulBy014 m f d0 d1 d4) := by
  obtain ⟨aa, m1, m2, bb, m3, m4, m5, m6, m7, m8, t, m9, m10, m11, e1, e2, e3, e4, e5, e6, e7, e8, e9, e10, e11, e12⟩ :=
    mulBy014_chain m f d0 d1 d4
  unfold mulBy014
  runs [copy6_run, mulBy01_6_run, mulBy1_6_run, add6_run, sub6_run, mulByNonresidue6_run, e1, e2, e3, e4, e5, e6, e7, e8,
    e9, e10, e11, e12]
theorem run_and (m : Mem) {a b : Bool} {y : M Bool} (hy : y.run m = some (b, m)) :
    (if a = true then y else pure false).run m = some (a && b, m) := by
  cases a
  · rfl
  · exact hy
theorem equals_run (m : Mem) (f o : Nat) : (equals f o).run m = some (Heap12.equals m f o, m) := by
  rw [equals, run_bind, run_c0, Option.bind_some, run_bind, run_c0, Option.bind_some, run_bind, equals6_run,
    Option.bind_some]
  refine run_and m ?_
  rw [run_bind, run_c1, Option.bind_some, run_bind, run_c1, Option.bind_some, equals6_run]
theorem double_run (m : Mem) (f : Nat) : (double f).run m = some ((), Heap12.double m f) := by
  unfold double Heap12.double; runs [double6_run]
theorem neg_run (m : Mem) (f : Nat) : (neg f).run m = some ((), Heap12.neg m f) := by
  unfold neg Heap12.neg; runs [neg6_run]
theorem add_run (m : Mem) (f o : Nat) : (add f o).run m = some ((), Heap12.add m f o) := by
  unfold add Heap12.add; runs [add6_run]
theorem isZero_run (m : Mem) (f : Nat) : (isZero f).run m = some (Heap12.isZero m f, m) := by
  rw [isZero, run_bind, run_c0, Option.bind_some, run_bind, isZero6_run, Option.bind_some]
  refine run_and m ?_
  rw [run_bind, run_c1, Option.bind_some, isZero6_run]
theorem sub_run (m : Mem) (f o : Nat) : (sub f o).run m = some ((), Heap12.sub m f o) := by
  unfold sub Heap12.sub; runs [sub6_run]
theorem rand_run (m : Mem) (a b : FQ6) : (rand a b).run m = some (Heap12.rand m a b) := rfl
theorem copy_run (m : Mem) (f : Nat) : (copy f).run m = some (Heap12.copy m f) := by
  unfold copy Heap12.copy; runs [copy6_run]
theorem mul_run (m : Mem) (f o : Nat) : (mul f o).run m = some ((), Heap12.mul m f o) := by
  obtain ⟨aa, m1, m2, bb, m3, m4, t, m5, m6, m7, m8, m9, m10, u, m11, m12, m13, e1, e2, e3, e4, e5, e6, e7, e8, e9, e10,
    e11, e12, e13, e14⟩ := Heap12.mul_chain m f o
  unfold mul
  runs [copy6_run, mul6_run, add6_run, sub6_run, mulByNonresidue6_run, e1, e2, e3, e4, e5, e6, e7, e8, e9, e10, e11, e12,
    e13, e14]

theorem expLoop_run (fi res : Nat) : ∀ (fuel : Nat) (n : FQRepr) (m : Mem),
    (expLoop fi res fuel n).run m = (Heap12.expLoop fi res fuel n m).map fun m => ((), m)
  | 0, _, _ => rfl
  | fuel + 1, n, m => by
    unfold expLoop Heap12.expLoop
    by_cases h : n.cmp bigZero ≠ 0
    · rw [if_pos h, if_pos h]
      dsimp only
      by_cases h' : (!n.isEven) = true
      · rw [if_pos h', if_pos h']; runs [mul_run, expLoop_run fi res fuel]
      · rw [if_neg h', if_neg h']; runs [mul_run, expLoop_run fi res fuel]
    · rw [if_neg h, if_neg h]; rfl

theorem exp_run (m : Mem) (f : Nat) (n : FQRepr) : (exp f n).run m = Heap12.exp m f n := by
  unfold exp Heap12.exp; runs [copy_run, expLoop_run]
  generalize Heap12.expLoop _ _ _ _ _ = o
  cases o <;> rfl
theorem frobeniusMap_run (m : Mem) (f : Nat) (k : UInt8) :
    (frobeniusMap f k).run m = some ((), Heap12.frobeniusMap m f k) := by
  unfold frobeniusMap Heap12.frobeniusMap; runs [frobenius6_run]
theorem square_chain (m : Mem) (f : Nat) : ∃ ab m1 m2 c m3 m4 d m5 m6 m7 m8 m9 t m10 m11 m12 m13 m14,
    Heap12.copy6 m (m.c0 f) = (ab, m1) ∧ Heap12.mul6 m1 ab (m1.c1 f) = m2 ∧ Heap12.copy6 m2 (m2.c0 f) = (c, m3) ∧
    Heap12.add6 m3 c (m3.c1 f) = m4 ∧ Heap12.copy6 m4 (m4.c1 f) = (d, m5) ∧ Heap12.mulByNonresidue6 m5 d = m6 ∧
    Heap12.add6 m6 d (m6.c0 f) = m7 ∧ Heap12.mul6 m7 d c = m8 ∧ Heap12.sub6 m8 d ab = m9 ∧
    Heap12.copy6 m9 ab = (t, m10) ∧ m10.putC1 f t = m11 ∧ Heap12.add6 m11 (m11.c1 f) ab = m12 ∧
    Heap12.mulByNonresidue6 m12 ab = m13 ∧ Heap12.sub6 m13 d ab = m14 ∧ m14.putC0 f d = Heap12.square m f :=
  ⟨_, _, _, _, _, _, _, _, _, _, _, _, _, _, _, _, _, _, rfl, rfl, rfl, rfl, rfl, rfl, rfl, rfl, rfl, rfl, rfl, rfl, rfl,
    rfl, rfl⟩

theorem square_run (m : Mem) (f : Nat) : (square f).run m = some ((), Heap12.square m f) := by
  obtain ⟨ab, m1, m2, c, m3, m4, d, m5, m6, m7, m8, m9, t, m10, m11, m12, m13, m14, e1, e2, e3, e4, e5, e6, e7, e8, e9,
    e10, e11, e12, e13, e14, e15⟩ := square_chain m f
  unfold square
  runs [copy6_run, mul6_run, add6_run, sub6_run, mulByNonresidue6_run, e1, e2, e3, e4, e5, e6, e7, e8, e9, e10, e11, e12,
    e13, e14, e15]
theorem inverseHead_run (m : Mem) (f : Nat) : (inverseHead f).run m = some (Heap12.inverseHead m f) := by
  unfold inverseHead Heap12.inverseHead; runs [copy6_run, square6_run, sub6_run, mulByNonresidue6_run]
theorem inverseTail_run (m : Mem) (f s : Nat) : (inverseTail f s).run m = some ((), Heap12.inverseTail m f s) := by
  unfold inverseTail Heap12.inverseTail; runs [copy6_run, mul6_run, neg6_run]
theorem inverse_run (m : Mem) (f : Nat) : (inverse f).run m = some (Heap12.inverse m f) := by
  rw [inverse, run_bind, inverseHead_run, Option.bind_some, run_bind, inverse6_run, Option.bind_some]
  refine run_not _ (fun _ => rfl) fun _ => ?_
  rw [run_bind, inverseTail_run]; rfl

theorem ell_run (m : Mem) (f : Nat) (c : Coeffs) (p : G1Affine) : (ell f c p).run m = some ((), Heap12.ell m f c p) :=
  mulBy014_run m f _ _ _

theorem ellAll_run (f : Nat) : ∀ (pairs : List PairingItem) (m : Mem),
    (ellAll f pairs).run m = (Heap12.ellAll f m pairs).map fun t => (t.2, t.1)
  | [], _ => rfl
  | pair :: rest, m => by
    unfold ellAll Heap12.ellAll
    cases pair.q[pair.qIndex]? with
    | none => rfl
    | some c =>
      cases pair.p with
      | none => rfl
      | some p =>
        runs [ell_run, ellAll_run f rest]
        cases Heap12.ellAll f (Heap12.ell m f c p) rest <;> rfl

theorem millerGo_run (f : Nat) (b : FQRepr) : ∀ (k i : Nat) (found : Bool) (pairs : List PairingItem) (m : Mem),
    (millerGo f b k i found pairs).run m = (Heap12.millerGo f b k i found m pairs).map fun t => (t.2, t.1)
  | 0, _, _, _, _ => rfl
  | k + 1, i, found, pairs, m => by
    unfold millerGo Heap12.millerGo
    cases b.bit (b.bitLen - i) with
    | none => rfl
    | some set =>
      dsimp only
      by_cases hf : (!found) = true
      · rw [if_pos hf, if_pos hf]; exact millerGo_run f b k (i + 1) set pairs m
      · rw [if_neg hf, if_neg hf, run_bind, ellAll_run]
        cases Heap12.ellAll f m pairs with
        | none => rfl
        | some t =>
          dsimp only [Option.map_some, Option.bind_some]
          by_cases hs : set = true
          · rw [if_pos hs, if_pos hs, run_bind, ellAll_run]
            cases Heap12.ellAll f t.1 t.2 with
            | none => rfl
            | some u => runs [Option.map_some, square_run, millerGo_run f b k]
          · rw [if_neg hs, if_neg hs]
            runs [square_run, millerGo_run f b k]

theorem millerLoop_run (m : Mem) (items : List (G1Affine × G2Prepared)) :
    (millerLoop items).run m = Heap12.millerLoop m items := by
  unfold millerLoop Heap12.millerLoop
  runs [copy_run, millerGo_run]
  generalize Heap12.millerGo _ _ _ _ _ _ _ = o
  cases o with
  | none => rfl
  | some t =>
    runs [Option.map_some, ellAll_run]
    cases Heap12.ellAll _ t.1 t.2 with
    | none => rfl
    | some u =>
      runs [Option.map_some, conjugate_run]
      by_cases h : blsIsNegative = true
      · rw [if_pos h, if_pos h]
      · rw [if_neg h, if_neg h]

theorem expByX_run (m : Mem) (f : Nat) (x : FQRepr) : (expByX f x).run m = Heap12.expByX m f x := by
  unfold expByX Heap12.expByX; runs [exp_run]
  cases Heap12.exp m f x with
  | none => rfl
  | some t =>
    runs [Option.map_some, conjugate_run]
    by_cases h : blsIsNegative = true
    · rw [if_pos h, if_pos h]
    · rw [if_neg h, if_neg h]

theorem Run_bind {α β : Type} (x : Heap12.Run α) (f : α → Heap12.Run β) (m : Mem) :
    (x >>= f) m = (x m).bind fun t => f t.1 t.2 := by cases h : x m <;> simp [bind, StateT.bind, h]
theorem Run_pure {α : Type} (a : α) (m : Mem) : (pure a : Heap12.Run α) m = some (a, m) := rfl
theorem Run_get {α : Type} (g : Mem → α × Mem) (m : Mem) : Heap12.get g m = some (g m) := rfl
theorem Run_call (g : Mem → Mem) (m : Mem) : Heap12.call g m = some ((), g m) := rfl
theorem Run_ite {α : Type} (c : Prop) [Decidable c] (x y : Heap12.Run α) (m : Mem) :
    (if c then x else y) m = if c then x m else y m := by split <;> rfl

/-- The tree, run without interruption, is the function. -/
def Eqv {α : Type} (x : M α) (y : Heap12.Run α) : Prop := ∀ m, x.run m = y m

theorem Eqv.bind {α β : Type} {x : M α} {y : Heap12.Run α} {f : α → M β} {g : α → Heap12.Run β} (h : Eqv x y)
    (hf : ∀ a, Eqv (f a) (g a)) : Eqv (x >>= f) (y >>= g) := by
  intro m
  rw [run_bind, Run_bind, h m]
  cases y m with
  | none => rfl
  | some t => exact hf t.1 t.2

theorem finalExponentiation_eqv (r : Nat) : Eqv (finalExponentiation r) (Heap12.finalExponentiation r) := by
  have hcopy : ∀ f, Eqv (copy f) (Heap12.get (Heap12.copy · f)) := fun f m => copy_run m f
  have hconj : ∀ f, Eqv (conjugate f) (Heap12.call (Heap12.conjugate · f)) := fun f m => conjugate_run m f
  have hmul : ∀ f g, Eqv (mul f g) (Heap12.call (Heap12.mul · f g)) := fun f g m => mul_run m f g
  have hfrob : ∀ f k, Eqv (frobeniusMap f k) (Heap12.call (Heap12.frobeniusMap · f k)) := fun f k m => frobeniusMap_run m f k
  have hexp : ∀ f x, Eqv (expByX f x) (Heap12.expByX · f x) := fun f x m => expByX_run m f x
  unfold finalExponentiation Heap12.finalExponentiation
  refine (hcopy r).bind fun f1 => (hconj f1).bind fun _ => (hcopy r).bind fun f2 =>
    Eqv.bind (fun m => inverse_run m f2) fun ok => ?_
  cases ok with
  | false => exact fun m => rfl
  | true =>
    exact (hcopy f1).bind fun r => (hmul r f2).bind fun _ => (hcopy r).bind fun f2 => (hfrob r 2).bind fun _ =>
      (hmul r f2).bind fun _ => (hcopy r).bind fun y0 => Eqv.bind (fun m => square_run m y0) fun _ =>
      (hexp y0 _).bind fun y1 => (hexp y1 _).bind fun y2 => (hcopy r).bind fun y3 => (hconj y3).bind fun _ =>
      (hcopy y1).bind fun y1 => (hmul y1 y3).bind fun _ => (hconj y1).bind fun _ => (hmul y1 y2).bind fun _ =>
      (hexp y1 _).bind fun y2 => (hexp y2 _).bind fun y3 => (hconj y1).bind fun _ => (hmul y3 y1).bind fun _ =>
      (hconj y1).bind fun _ => (hfrob y1 3).bind fun _ => (hfrob y2 2).bind fun _ => (hmul y1 y2).bind fun _ =>
      (hexp y3 _).bind fun y2 => (hmul y2 y0).bind fun _ => (hmul y2 r).bind fun _ => (hmul y1 y2).bind fun _ =>
      (hfrob y3 1).bind fun _ => (hmul y1 y3).bind fun _ => fun m => rfl

theorem finalExponentiation_run (m : Mem) (r : Nat) :
    (finalExponentiation r).run m = Heap12.finalExponentiation r m := finalExponentiation_eqv r m

theorem prepare_run (m : Mem) (q : G2Projective) :
    (prepare q).run m = (q.toAffine.toPrepared).map fun p => (p, m) := by
  unfold prepare; cases q.toAffine.toPrepared <;> rfl

theorem Run_lift {α : Type} (x : Option α) (m : Mem) : (StateT.lift x : Heap12.Run α) m = x.map fun p => (p, m) := by
  cases x <;> rfl

theorem pairing_run (m : Mem) (p : G1Projective) (q : G2Projective) :
    (pairing p q).run m = Heap12.pairing p q m := by
  exact Eqv.bind (fun m => (prepare_run m q).trans (Run_lift _ m).symm)
    (fun prep => Eqv.bind (fun m => millerLoop_run m _) fun f => finalExponentiation_eqv f) m

theorem compareTwoPairings_run (m : Mem) (p1 : G1Projective) (q1 : G2Projective) (p2 : G1Projective) (q2 : G2Projective) :
    (compareTwoPairings p1 q1 p2 q2).run m = Heap12.compareTwoPairings p1 q1 p2 q2 m := by
  refine Eqv.bind (fun m => (prepare_run m q1).trans (Run_lift _ m).symm) (fun prep1 =>
    Eqv.bind (fun m => (prepare_run m q2).trans (Run_lift _ m).symm) fun prep2 =>
    Eqv.bind (fun m => millerLoop_run m _) fun f => (finalExponentiation_eqv f).bind fun g => ?_) m
  cases g with
  | none => exact fun m => rfl
  | some g => exact fun m => equals_run _ _ _

end Bls.HeapFQ12
