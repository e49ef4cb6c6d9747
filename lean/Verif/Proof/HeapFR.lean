import Verif.Model.HeapFR
/-
The trees of Verif/Model/HeapFR.lean, run without interruption, are the functions of Verif/Model/Heap.lean.
-/
namespace Bls.HeapFR
open Bls.Heap (Mem aRFieldModulus aFrZero aBigOneFR aBigZeroFR aFRR2 aFrOne aRMinus1Over2)

theorem run_bind {α β : Type} (x : M α) (f : α → M β) (m : Mem) :
    (x >>= f).run m = (x.run m).bind fun t => (f t.1).run t.2 := by
  show (M.bind x f).run m = _
  induction x generalizing m with
  | ret a => rfl
  | panic => rfl
  | readCell p k ih => exact ih _ m
  | writeCell p v k ih => exact ih _
  | readFr p k ih => exact ih _ m
  | writeFr p v k ih => exact ih _
  | newCell v k ih => exact ih _ _
  | newFr v k ih => exact ih _ _

theorem run_pure {α : Type} (a : α) (m : Mem) : (pure a : M α).run m = some (a, m) := rfl
theorem run_panic {α : Type} (m : Mem) : (M.panic : M α).run m = none := rfl
theorem run_cell (p : Nat) (m : Mem) : (cell p).run m = some (m.cell p, m) := rfl
theorem run_setCell (p : Nat) (v : FRRepr) (m : Mem) : (setCell p v).run m = some ((), m.set p v) := rfl
theorem run_fr (p : Nat) (m : Mem) : (fr p).run m = some (m.fr p, m) := rfl
theorem run_setFr (p v : Nat) (m : Mem) : (setFr p v).run m = some ((), m.setN p v) := rfl
theorem run_newCell (v : FRRepr) (m : Mem) : (newCell v).run m = some (m.alloc v) := rfl
theorem run_newFr (v : Nat) (m : Mem) : (newFr v).run m = some (m.allocFr v) := rfl
theorem run_ite {α : Type} (c : Prop) [Decidable c] (x y : M α) (m : Mem) :
    (if c then x else y).run m = if c then x.run m else y.run m := by split <;> rfl

theorem set_fr (m : Mem) (p : Nat) (v : FRRepr) : (m.set p v).fr = m.fr := rfl
theorem alloc_fr (m : Mem) (v : FRRepr) : (m.alloc v).2.fr = m.fr := rfl

macro "runs" "[" ls:Lean.Parser.Tactic.simpLemma,* "]" : tactic =>
  `(tactic| simp only [run_bind, run_pure, run_cell, run_setCell, run_fr, run_setFr, run_newCell, run_newFr, run_ite,
    run_panic, Option.bind_some, Option.bind_none, set_fr, alloc_fr, $ls,*])

theorem isValid_run (m : Mem) (f : Nat) : (isValid f).run m = some (Heap.isValid m f, m) := by
  unfold isValid; runs [Heap.isValid]

theorem reduceAssign_run (m : Mem) (f : Nat) : (reduceAssign f).run m = some ((), Heap.reduceAssign m f) := by
  unfold reduceAssign Heap.reduceAssign; runs [isValid_run]; split <;> rfl

theorem copy_run (m : Mem) (f : Nat) : (copy f).run m = some (Heap.copy m f) := by
  unfold copy Heap.copy; runs []

theorem addAssign_run (m : Mem) (f g : Nat) : (addAssign f g).run m = some ((), Heap.addAssign m f g) := by
  unfold addAssign Heap.addAssign; runs [reduceAssign_run]

theorem montReduce_run (m : Mem) (f : Nat) (hi lo : FRRepr) :
    (montReduce f hi lo).run m = some ((), Heap.montReduce m f hi lo) := by
  unfold montReduce Heap.montReduce; runs [reduceAssign_run]

theorem mulAssign_run (m : Mem) (f g : Nat) : (mulAssign f g).run m = some ((), Heap.mulAssign m f g) := by
  unfold mulAssign Heap.mulAssign; runs [montReduce_run]

theorem frReprToFR_run (m : Mem) (o : Nat) : (frReprToFR o).run m = some (Heap.frReprToFR m o) := by
  unfold frReprToFR Heap.frReprToFR; runs [isValid_run, mulAssign_run]; split <;> rfl

theorem subAssign_run (m : Mem) (f g : Nat) : (subAssign f g).run m = some ((), Heap.subAssign m f g) := by
  unfold subAssign Heap.subAssign; runs []; split <;> rfl

theorem isZero_run (m : Mem) (f : Nat) : (isZero f).run m = some (Heap.isZero m f, m) := by
  unfold isZero Heap.isZero; runs []

theorem equals_run (m : Mem) (f g : Nat) : (equals f g).run m = some (Heap.equals m f g, m) := by
  unfold equals Heap.equals; runs []

theorem negAssign_run (m : Mem) (f : Nat) : (negAssign f).run m = some ((), Heap.negAssign m f) := by
  unfold negAssign Heap.negAssign; runs [isZero_run]; split <;> rfl

theorem doubleAssign_run (m : Mem) (f : Nat) : (doubleAssign f).run m = some ((), Heap.doubleAssign m f) := by
  unfold doubleAssign Heap.doubleAssign; runs [reduceAssign_run]

theorem squareAssign_run (m : Mem) (f : Nat) : (squareAssign f).run m = some ((), Heap.squareAssign m f) := by
  unfold squareAssign Heap.squareAssign; runs [montReduce_run]

theorem toRepr_run (m : Mem) (f : Nat) : (toRepr f).run m = some (Heap.toRepr m f) := by
  unfold toRepr Heap.toRepr; runs [copy_run, montReduce_run]

theorem cmp_run (m : Mem) (f g : Nat) : (cmp f g).run m = some (Heap.cmp m f g) := by
  unfold cmp Heap.cmp; runs [toRepr_run]

theorem expLoop_run (n fi fNew : Nat) : ∀ (fuel : Nat) (m : Mem),
    (expLoop n fi fNew fuel).run m = (Heap.expLoop n fi fNew fuel m).map fun m => ((), m)
  | 0, m => rfl
  | fuel + 1, m => by
    unfold expLoop Heap.expLoop
    runs [mulAssign_run, squareAssign_run, expLoop_run n fi fNew fuel]
    split
    · split <;> rfl
    · rfl

theorem exp_run (m : Mem) (f n : Nat) : (exp f n).run m = Heap.exp m f n := by
  unfold exp Heap.exp; runs [copy_run, expLoop_run]
  rw [Option.bind_map]; exact (Option.map_eq_bind).symm

theorem sqrt_run (m : Mem) (f : Nat) : (sqrt f).run m = some (Heap.sqrt m f) := frReprToFR_run m aFrOne

theorem halveLoop_run (u b : Nat) : ∀ (fuel : Nat) (m : Mem),
    (halveLoop u b fuel).run m = (Heap.halveLoop u b fuel m).map fun m => ((), m)
  | 0, m => rfl
  | fuel + 1, m => by
    unfold halveLoop Heap.halveLoop
    runs [halveLoop_run u b fuel]
    split
    · by_cases h : ((m.set u (m.cell u).div2).cell (m.fr b)).isEven = true
      · simp only [h]; rfl
      · simp only [h]; rfl
    · rfl

theorem inverseLoop_run (one u v b c : Nat) : ∀ (fuel : Nat) (m : Mem),
    (inverseLoop one u v b c fuel).run m = (Heap.inverseLoop one u v b c fuel m).map fun m => ((), m)
  | 0, m => rfl
  | fuel + 1, m => by
    unfold inverseLoop Heap.inverseLoop
    runs [halveLoop_run, subAssign_run, inverseLoop_run one u v b c fuel]
    split
    · cases Heap.halveLoop u b 257 m with
      | none => rfl
      | some m1 =>
        simp only [Option.map_some, Option.bind_some]
        cases Heap.halveLoop v c 257 m1 with
        | none => rfl
        | some m2 =>
          simp only [Option.map_some, Option.bind_some]
          split <;> rfl
    · rfl

theorem inverse_run (m : Mem) (f : Nat) : (inverse f).run m = Heap.inverse m f := by
  unfold inverse Heap.inverse; runs [isZero_run, copy_run, inverseLoop_run]
  split
  · rfl
  · rw [Option.bind_map]; exact (Option.map_eq_bind).symm

theorem parity_run (m : Mem) (f : Nat) : (parity f).run m = some (Heap.parity m f) := by
  unfold parity Heap.parity; runs [copy_run, negAssign_run, cmp_run]

theorem mulBitsLoop_run (f b res : Nat) : ∀ (k i : Nat) (m : Mem),
    (mulBitsLoop f b res k i).run m = (Heap.mulBitsLoop f b res k i m).map fun m => ((), m)
  | 0, _, m => rfl
  | k + 1, i, m => by
    unfold mulBitsLoop Heap.mulBitsLoop
    runs [doubleAssign_run]
    cases ((Heap.doubleAssign m res).cell b).bit i with
    | none => rfl
    | some t =>
      runs [addAssign_run, mulBitsLoop_run f b res k (i + 1)]
      split <;> rfl

theorem mulBits_run (m : Mem) (f b : Nat) : (mulBits f b).run m = Heap.mulBits m f b := by
  unfold mulBits Heap.mulBits; runs [copy_run, mulBitsLoop_run]
  rw [Option.bind_map]; exact (Option.map_eq_bind).symm

theorem mulBytesLoop_run (f : Nat) (b : List UInt8) (res : Nat) : ∀ (k i : Nat) (m : Mem),
    (mulBytesLoop f b res k i).run m = (Heap.mulBytesLoop f b res k i m).map fun m => ((), m)
  | 0, _, m => rfl
  | k + 1, i, m => by
    unfold mulBytesLoop Heap.mulBytesLoop
    runs [doubleAssign_run]
    cases b[i / 8]? with
    | none => rfl
    | some t =>
      runs [addAssign_run, mulBytesLoop_run f b res k (i + 1)]
      split <;> rfl

theorem mulBytes_run (m : Mem) (f : Nat) (b : List UInt8) : (mulBytes f b).run m = Heap.mulBytes m f b := by
  unfold mulBytes Heap.mulBytes; runs [copy_run, mulBytesLoop_run]
  rw [Option.bind_map]; exact (Option.map_eq_bind).symm

theorem hashFR_run (m : Mem) (d : List UInt8) : (hashFR d).run m = Heap.hashFR m d := mulBytes_run m aBigOneFR d

theorem legendre_run (m : Mem) (f : Nat) : (legendre f).run m = Heap.legendre m f := by
  unfold legendre Heap.legendre; runs [exp_run, isZero_run, equals_run]
  cases Heap.exp m f aRMinus1Over2 with
  | none => rfl
  | some t =>
    obtain ⟨o, m1⟩ := t
    simp only [Option.bind_some, Option.map_some]
    split
    · rfl
    · split <;> rfl

theorem serialize_run (m : Mem) (f : Nat) : (serialize f).run m = some (Heap.SecretKey.serialize m ⟨f⟩) := by
  unfold serialize Heap.SecretKey.serialize; runs [toRepr_run]

end Bls.HeapFR
