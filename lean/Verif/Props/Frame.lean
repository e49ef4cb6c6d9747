import Verif.Proof.Frame
/-
C61: a call changes no object that exists but its receiver. In every memory, reachable or not; at every moment of the call
(`M.after` is in Verif/Spec/Frame.lean), also if it panics. The calls are those of Verif/Spec/HistoryPoints.lean.
-/
namespace Bls.Props
open Bls.HeapPoints

/-- After any number of accesses of a call, an object that existed before it and is not what the call's receiver points at
is as before. -/
theorem C61_frame (sha : List UInt8 → List UInt8) (e : List Nat) (op : Op) (m : Mem) (k p : Nat) (hp : p < m.length)
    (hr : ∀ i, op.receiver = some i → e[i]? ≠ some p) : ((op.onMemory sha e).after k m).2[p]? = m[p]? :=
  (keeps_onMemory sha e op).after (Nat.le_refl _) k p hp fun ⟨i, h1, h2⟩ => hr i h1 h2

theorem take_eq_of_getElem? {m m' : Mem} (h : ∀ p < m.length, m'[p]? = m[p]?) : m'.take m.length = m := by
  refine List.ext_getElem? fun p => ?_
  by_cases hp : p < m.length
  · rw [List.getElem?_take_of_lt hp]
    exact h p hp
  · rw [List.getElem?_eq_none (by rw [List.length_take]; omega), List.getElem?_eq_none (by omega)]

/-- A call that has no receiver (all but `NegAssign`, `SetRawBytes` and `Aggregate`) only adds objects, at every moment. -/
theorem C61_readOnly (sha : List UInt8 → List UInt8) (e : List Nat) (op : Op) (h : op.receiver = none) (m : Mem) (k : Nat) :
    ((op.onMemory sha e).after k m).2.take m.length = m :=
  take_eq_of_getElem? fun p hp => C61_frame sha e op m k p hp fun i hi => by rw [h] at hi; cases hi

/-- A program of such calls only adds objects. -/
theorem C61_program (sha : List UInt8 → List UInt8) (ops : List Op) (h : ∀ op ∈ ops, op.receiver = none) (e : List Nat)
    (m : Mem) (k : Nat) : ((memoryRun sha ops e).after k m).2.take m.length = m := by
  have hk : ∀ e, Keeps m.length (fun _ => False) (fun _ => True) (memoryRun sha ops e) := by
    induction ops with
    | nil => exact fun _ => trivial
    | cons op ops ih =>
      intro e
      have h1 : Keeps m.length (fun _ => False) (fun _ => True) (op.onMemory sha e) :=
        (keeps_onMemory sha e op).mono fun p ⟨i, h2, _⟩ => by rw [h op List.mem_cons_self] at h2; cases h2
      exact h1.bind fun f _ => (ih (fun o ho => h o (List.mem_cons_of_mem _ ho)) _).bind fun _ _ => trivial
  exact take_eq_of_getElem? fun p hp => (hk e).after (Nat.le_refl _) k p hp fun h => h

/-- The two `VerifyAggregate` change neither the caller's messages, which they sort a copy of, nor the keys, nor anything
else: in every memory, at every moment, also if they panic. -/
theorem C38_arguments (sha : List UInt8 → List UInt8) (s ms : Nat) (pks : List Nat) (m : Mem) (k : Nat) :
    ((HeapPoints.G1Pubs.verifyAggregate sha s pks ms).after k m).2.take m.length = m ∧
    ((HeapPoints.G2Pubs.verifyAggregate sha s pks ms).after k m).2.take m.length = m :=
  ⟨take_eq_of_getElem? fun p hp =>
      (keeps_G1Pubs_verifyAggregate (S := fun _ => False) sha s pks ms).after (Nat.le_refl _) k p hp fun h => h,
    take_eq_of_getElem? fun p hp =>
      (keeps_G2Pubs_verifyAggregate (S := fun _ => False) sha s pks ms).after (Nat.le_refl _) k p hp fun h => h⟩

/-- The receiver is rightly excluded: after the two accesses of `G1AffineOne.Copy().NegAssign()` it has changed, and an
aggregate of two keys is not the key it was. -/
example : (((Op.neg 8).onMemory (fun _ => []) [0, 1, 2, 3, 4, 5, 6, 7, 8]).after 3 (init ++ [.g1a .one])).2[8]?
    = some (.g1a G1Affine.one.neg) := rfl

end Bls.Props
