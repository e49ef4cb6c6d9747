import Verif.Proof.HistoryPoints
import Verif.Props.SigG1
/-
C57, and C53 and C38 for points, keys and signatures: these are pointers, some methods work in place, some
return shared objects. Programs and their two readings (values, memory) are in Verif/Spec/HistoryPoints.lean.
-/
set_option exponentiation.threshold 1000
namespace Bls.Props
open Bls.HeapPoints

/-! ## C57 -/

/-- Every program gives, in memory, the objects and results that it gives when points, keys, signatures and lists of
messages are plain values; it panics exactly if that does. Missing: programs that call `SetRawBytes` on a `G2Affine`
that is infinity, for which it is false (`C53_g2ToAffine_false`). -/
theorem C57_points_partial (sha : List UInt8 → List UInt8) (ops : List Op) (h : Safe sha ops packageVals) :
    execute sha ops = (meaning sha ops).map fun t => (t.1.map some, t.2) := execute_eq sha ops h

/-- Three messages, not sorted, one twice. -/
def progMsgs : List (List UInt8) := [[2], [1], [2]]

/-- `m := [][]byte{…}; p := G1AffineOne.ToProjective(); q := p.Double(); z := p.Add(p); z.Equal(q); q.NegAssign();
z.Equal(q); z.IsZero(); a := NewAggregatePubkey(); k := NewPublicKeyFromG1(G1AffineOne); a.Aggregate(k);
a.Aggregate(a); c := a.Copy(); c.Aggregate(k); a.Equals(c); w := a.GetPoint(); w.Equal(z);
e := G2ProjectiveZero.ToAffine(); e.NegAssign(); e.Equals(G2AffineZero)`. -/
def progPts : List Op := [.newMsgs progMsgs, .toProjective 1, .double 9, .add 9 9, .equals 11 10, .neg 10, .equals 11 10,
  .isZero 11, .newAggregatePubkey .g1pubs, .newPublicKey .g1pubs 1, .aggregate 12 13, .aggregate 12 12, .copy 12,
  .aggregate 14 13, .equals 12 14, .getPoint 12, .equals 15 11, .toAffine 6, .neg 16, .equals 16 4]

theorem progPts_safe (sha : List UInt8 → List UInt8) : Safe sha progPts packageVals := by
  simp only [progPts, Safe]
  exact ⟨trivial, fun _ _ => ⟨trivial, fun _ _ => ⟨trivial, fun _ _ => ⟨trivial, fun _ _ => ⟨trivial, fun _ _ =>
    ⟨trivial, fun _ _ => ⟨trivial, fun _ _ => ⟨trivial, fun _ _ => ⟨trivial, fun _ _ => ⟨trivial, fun _ _ =>
    ⟨trivial, fun _ _ => ⟨trivial, fun _ _ => ⟨trivial, fun _ _ => ⟨trivial, fun _ _ => ⟨trivial, fun _ _ =>
    ⟨trivial, fun _ _ => ⟨trivial, fun _ _ => ⟨trivial, fun _ _ => ⟨trivial, fun _ _ => ⟨trivial, fun _ _ =>
    trivial⟩⟩⟩⟩⟩⟩⟩⟩⟩⟩⟩⟩⟩⟩⟩⟩⟩⟩⟩⟩

/-- What a program returned, as booleans. -/
def boolsOf (o : List Out) : List Bool := o.map fun | .bool b => b | _ => false

/-- The program meets the hypothesis and returns. -/
example : (execute (fun _ => []) progPts).map (fun t => (t.1.length, boolsOf t.2)) =
    some (17, [true, false, false, false, true, true]) := by
  rw [C57_points_partial _ _ (progPts_safe _)]; decide +kernel

/-! ## C53 -/

/-- A call leaves every variable of the program but its receiver. Missing: programs that call `SetRawBytes` on a
`G2Affine` that is infinity, for which it is false. -/
theorem C53_points_partial (sha : List UInt8 → List UInt8) (ops : List Op) (op : Op) (s t : List (Option Val))
    (o o' : List Out) (safe : Safe sha (ops ++ [op]) packageVals) (h : execute sha ops = some (s, o))
    (h' : execute sha (ops ++ [op]) = some (t, o')) (j : Nat) (hj : j < s.length) (hr : op.receiver ≠ some j) :
    t[j]? = s[j]? := execute_kept safe h h' hj hr

/-- Such a program leaves the package variables at their initial values. -/
theorem C53_packagePoints_partial (sha : List UInt8 → List UInt8) (ops : List Op) (s : List (Option Val)) (o : List Out)
    (safe : Safe sha ops packageVals) (h : execute sha ops = some (s, o)) : s.take 8 = packageVals.map some :=
  execute_package safe h

/-- `p := G2AffineZero.ToProjective(); a := p.ToAffine(); a.SetRawBytes(b)`. -/
def progShared : List Op := [.toProjective 4, .toAffine 8, .setRawBytes 9 (List.replicate 192 1)]

/-- The point has x = 0, in `G2Affine`. -/
def xZero : Val → Bool
  | .g2a v => v.x.c0.equals FQ.zero
  | _ => true

/-- The claim is false without that restriction: `ToAffine` of a `G2Projective` at infinity returns `G2AffineZero`
itself, so setting the result changes the package variable. -/
theorem C53_g2ToAffine_false : ¬ ∀ (sha : List UInt8 → List UInt8) (ops : List Op) (s : List (Option Val))
    (o : List Out), execute sha ops = some (s, o) → s.take 8 = packageVals.map some := by
  intro h
  have k : (execute (fun _ => []) progShared).map (fun t =>
      (t.1[4]?.join.map xZero).getD true) = some false := by decide +kernel
  cases he : execute (fun _ => []) progShared with
  | none => rw [he] at k; cases k
  | some t =>
    rw [he] at k
    have h4 : t.1[4]? = some (some (.g2a .zero)) := by
      have := congrArg (·[4]?) (h _ _ t.1 t.2 he)
      simp only [List.getElem?_take_of_lt (show 4 < 8 by decide)] at this
      exact this
    simp only [Option.map_some, h4] at k
    revert k
    decide +kernel

/-! ## C38 -/

/-- `VerifyAggregate` does not modify its arguments, although it sorts: after any program, it leaves all of the
program's variables, among them the messages, in their order, the keys and the signature. Missing: programs that
call `SetRawBytes` on a `G2Affine` that is infinity; for all memories see `C38_arguments` in Verif/Props/Frame.lean. -/
theorem C38_arguments_partial (sha : List UInt8 → List UInt8) (ops : List Op) (pkg : Pkg) (sig : Nat) (pubs : List Nat)
    (ms : Nat) (s t : List (Option Val)) (o o' : List Out) (safe : Safe sha ops packageVals)
    (h : execute sha ops = some (s, o)) (h' : execute sha (ops ++ [.verifyAggregate pkg sig pubs ms]) = some (t, o')) :
    t = s := execute_verifyAggregate safe h h'

/-- `m := [][]byte{…}; s := NewAggregateSignature(); k := NewAggregatePubkey()`. -/
def progDup : List Op := [.newMsgs progMsgs, .newAggregateSignature .g1pubs, .newAggregatePubkey .g1pubs]

/-- Then `s.VerifyAggregate([k, k, k], m)` sorts, finds the repeated message, and leaves `m` in its order. -/
example : Safe (fun _ => []) progDup packageVals ∧
    (execute (fun _ => []) (progDup ++ [.verifyAggregate .g1pubs 9 [10, 10, 10] 8])).map
      (fun t => (t.1[8]?.join.bind Val.asMsgs, boolsOf t.2)) = some (some progMsgs, [false]) := by
  have safe : Safe (fun _ => []) progDup packageVals := by
    simp only [progDup, Safe]
    exact ⟨trivial, fun _ _ => ⟨trivial, fun _ _ => ⟨trivial, fun _ _ => trivial⟩⟩⟩
  refine ⟨safe, ?_⟩
  rw [C57_points_partial _ _ (safe.snoc (op := .verifyAggregate .g1pubs 9 [10, 10, 10] 8) fun _ => trivial),
    meaning, valuesRun_append]
  have hv : valuesRun (fun _ => []) progDup packageVals = some (packageVals ++ [.msgs progMsgs] ++
    [.sig1 G1Pubs.newAggregateSignature] ++ [.pub1 G1Pubs.newAggregatePubkey], []) := rfl
  rw [hv, Option.bind_some]
  have he : Op.effect (fun _ => []) (packageVals ++ [.msgs progMsgs] ++ [.sig1 G1Pubs.newAggregateSignature] ++
      [.pub1 G1Pubs.newAggregatePubkey]) (.verifyAggregate .g1pubs 9 [10, 10, 10] 8) =
      (G1Pubs.newAggregateSignature.verifyAggregate (fun _ => []) [G1Pubs.newAggregatePubkey,
        G1Pubs.newAggregatePubkey, G1Pubs.newAggregatePubkey] progMsgs).map fun b => .out (.bool b) := rfl
  rw [he, C38_guards_g1pubs _ _ _ _ (.inr (by decide))]
  rfl

end Bls.Props
