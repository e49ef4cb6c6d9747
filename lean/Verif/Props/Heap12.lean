import Verif.Proof.Field12
import Verif.Props.Tower
/-
C54, and C53 for `FQ12`: an `FQ12` is two pointers, its methods work in place and share objects, and
programs cannot tell. Programs and their two readings (values, memory) are in Verif/Spec/History12.lean;
the field reading is in Verif/Spec/Field12.lean.
-/
set_option exponentiation.threshold 1000
namespace Bls.Props
open Bls.Heap12

/-! ## C54 -/

/-- Every program that runs in the memory model gives the variables and the booleans that it gives when elements are
plain values: no call changes a variable other than its receiver, also when receiver and argument are the same
pointer, and the package variables keep their value. -/
theorem C54_values (ops : List Op) : execute ops = valuesRun ops [FQ12.zero, FQ12.one] := execute_eq ops

/-- Every program that uses canonical coordinates computes in the field with `q¹²` elements, and all its variables
stay canonical. -/
theorem C54_field (ops : List Op) (h : ∀ op ∈ ops, op.Canonical) :
    (execute ops).map (fun t => (t.1.map FQ12.fld, t.2)) = fieldRun ops [0, 1] ∧
      ∀ s o, execute ops = some (s, o) → ∀ a ∈ s, a.isValid := execute_field ops h

/-- `x := Rand(); y := x.Copy(); x.MulAssign(x); y.SquareAssign(); x.Equals(y); z := x.Copy(); z.InverseAssign();
z.MulAssign(x); z.SubAssign(FQ12One); z.IsZero(); z.InverseAssign(); FinalExponentiation(z)`. -/
def prog12 : List Op := [.rand ex12.c0 ex12.c1, .copy 2, .mul 2 2, .square 3, .equals 2 3, .copy 2, .inverse 4, .mul 4 2,
  .sub 4 1, .isZero 4, .inverse 4, .finalExponentiation 4]

example : ∀ op ∈ prog12, op.Canonical := by
  intro op h
  simp only [prog12, List.mem_cons, List.not_mem_nil, or_false] at h
  rcases h with rfl | rfl | rfl | rfl | rfl | rfl | rfl | rfl | rfl | rfl | rfl | rfl <;>
    first | exact True.intro | (simp only [Op.Canonical]; decide +kernel)

/-- What the program returns: equal, invertible, zero, not invertible, nil. -/
example : (execute prog12).map (·.2) = some [true, true, true, false, false] := by
  rw [C54_values]; decide +kernel

/-- `CompareTwoPairings` after any program: the result is that of the value model, and nothing the program holds
changes. -/
theorem C54_compareTwoPairings (ops : List Op) (m : Mem) (e : List Nat) (o : List Bool)
    (h : memoryRun ops init [aFQ12Zero, aFQ12One] = some ((m, e), o)) (p1 : G1Projective) (q1 : G2Projective)
    (p2 : G1Projective) (q2 : G2Projective) :
    (Heap12.compareTwoPairings p1 q1 p2 q2 m).map (·.1) = Bls.compareTwoPairings p1 q1 p2 q2 ∧
      ∀ b m', Heap12.compareTwoPairings p1 q1 p2 q2 m = some (b, m') → e.map m'.read = e.map m.read := by
  rcases run_agree ops init_sim with ⟨a, _⟩ | ⟨m', e', s, o', a, _, hs, _⟩
  · rw [h] at a; cases a
  rw [h] at a
  cases a
  rcases compareTwoPairings_spec hs.inv p1 q1 p2 q2 with ⟨a, b⟩ | ⟨b, a, m', c, k⟩
  · rw [a, b]; exact ⟨rfl, fun _ _ h => by cases h⟩
  · rw [a, c]
    refine ⟨rfl, fun b' m'' h => ?_⟩
    cases h
    exact List.map_congr_left fun f hf => k.val f (hs.lt f hf)

/-- The memory of `prog12` is such a memory. -/
example : (memoryRun prog12 init [aFQ12Zero, aFQ12One]).isSome := by
  have h : (execute prog12).isSome := by rw [C54_values]; decide +kernel
  rwa [execute, Option.isSome_map] at h

/-! ## C53 -/

/-- A call leaves every variable of the program but its receiver. Missing: the package variables as receivers, for
which it is false. -/
theorem C53_fq12_partial (ops : List Op) (op : Op) (s t : List FQ12) (o p : List Bool)
    (h : execute ops = some (s, o)) (h' : execute (ops ++ [op]) = some (t, p)) (j : Nat) (hj : j < s.length)
    (hr : op.receiver ≠ some j) : t[j]? = s[j]? := execute_others h h' hj hr

/-- The claim is false of the package variables themselves: `FQ12Zero` and `FQ12One` share an object, so
`FQ12One.AddAssign(x)` also changes `FQ12Zero`. -/
theorem C53_fq12One_false : ¬ ∀ a b : FQ6,
    (Heap12.add (Heap12.rand init a b).2 aFQ12One (Heap12.rand init a b).1).read aFQ12Zero = init.read aFQ12Zero := by
  intro h
  have h1 := h ex12.c0 ex12.c1
  revert h1
  decide +kernel

end Bls.Props
