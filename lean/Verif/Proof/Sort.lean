import Verif.Model.SortBytes
import Mathlib.Data.List.Sort
import Mathlib.Data.List.Nodup
import Mathlib.Tactic.Linarith
/-
The sorting of messages and the duplicate check.
-/
namespace Bls

theorem bytesCompare_range (a b : List UInt8) : bytesCompare a b = -1 ∨ bytesCompare a b = 0 ∨ bytesCompare a b = 1 := by
  induction a generalizing b with
  | nil => cases b <;> simp [bytesCompare]
  | cons x s ih =>
    cases b with
    | nil => simp [bytesCompare]
    | cons y t =>
      rw [bytesCompare]
      split
      · simp
      · split
        · simp
        · exact ih t

theorem bytesCompare_swap (a b : List UInt8) : bytesCompare b a = -bytesCompare a b := by
  induction a generalizing b with
  | nil => cases b <;> simp [bytesCompare]
  | cons x s ih =>
    cases b with
    | nil => simp [bytesCompare]
    | cons y t =>
      rw [bytesCompare, bytesCompare]
      by_cases h : x < y
      · rw [if_pos h, if_neg (by rw [UInt8.lt_iff_toNat_lt] at *; omega), if_pos h]; rfl
      · by_cases h' : y < x
        · rw [if_pos h', if_neg h, if_pos h']
        · rw [if_neg h', if_neg h, if_neg h, if_neg h', ih]

theorem bytesCompare_eq (a b : List UInt8) : bytesCompare a b = 0 ↔ a = b := by
  induction a generalizing b with
  | nil => cases b <;> simp [bytesCompare]
  | cons x s ih =>
    cases b with
    | nil => simp [bytesCompare]
    | cons y t =>
      rw [bytesCompare]
      by_cases h : x < y
      · rw [if_pos h]
        refine ⟨fun e => absurd e (by decide), fun e => ?_⟩
        rw [(List.cons.inj e).1, UInt8.lt_iff_toNat_lt] at h; omega
      · by_cases h' : y < x
        · rw [if_neg h, if_pos h']
          refine ⟨fun e => absurd e (by decide), fun e => ?_⟩
          rw [(List.cons.inj e).1, UInt8.lt_iff_toNat_lt] at h'; omega
        · rw [if_neg h, if_neg h', ih, List.cons.injEq]
          rw [UInt8.lt_iff_toNat_lt] at h h'
          exact ⟨fun e => ⟨UInt8.toNat_inj.mp (by omega), e⟩, And.right⟩

theorem bytesCompare_trans {a b c : List UInt8} (h1 : bytesCompare a b ≠ 1) (h2 : bytesCompare b c ≠ 1) :
    bytesCompare a c ≠ 1 := by
  induction a generalizing b c with
  | nil => cases c <;> simp [bytesCompare]
  | cons x s ih =>
    cases b with
    | nil => simp [bytesCompare] at h1
    | cons y t =>
      cases c with
      | nil => simp [bytesCompare] at h2
      | cons z v =>
        rw [bytesCompare] at *
        simp only [UInt8.lt_iff_toNat_lt] at *
        split_ifs at h1 h2 ⊢ <;> first | exact ih h1 h2 | omega

/-- The order `sort.Sort` uses. -/
def bytesLE (a b : List UInt8) : Prop := bytesLess b a = false

theorem bytesLE_iff {a b : List UInt8} : bytesLE a b ↔ bytesCompare a b ≠ 1 := by
  unfold bytesLE bytesLess
  rw [beq_eq_false_iff_ne, bytesCompare_swap a b]
  omega

theorem bytesLE_antisymm {a b : List UInt8} (h1 : bytesLE a b) (h2 : bytesLE b a) : a = b := by
  rw [bytesLE_iff] at h1 h2
  rw [bytesCompare_swap a b] at h2
  rw [← bytesCompare_eq]
  rcases bytesCompare_range a b with h | h | h <;> omega

theorem nil_bytesLE (a : List UInt8) : bytesLE [] a := by
  rw [bytesLE_iff]; cases a <;> simp [bytesCompare]

theorem sortByteArrays_perm (l : List (List UInt8)) : (sortByteArrays l).Perm l := List.mergeSort_perm _ _

theorem sortByteArrays_sorted (l : List (List UInt8)) : (sortByteArrays l).Pairwise bytesLE := by
  have h := List.pairwise_mergeSort (le := fun a b => !bytesLess b a)
    (fun a b c h1 h2 => by
      rw [Bool.not_eq_true'] at *
      exact bytesLE_iff.mpr (bytesCompare_trans (bytesLE_iff.mp h1) (bytesLE_iff.mp h2)))
    (fun a b => by
      rw [Bool.or_eq_true, Bool.not_eq_true', Bool.not_eq_true']
      show bytesLE a b ∨ bytesLE b a
      rw [bytesLE_iff, bytesLE_iff, bytesCompare_swap a b]; omega) l
  exact h.imp fun h => by rw [Bool.not_eq_true'] at h; exact h

theorem sortByteArrays_unique {l l' : List (List UInt8)} (hp : l'.Perm l) (hs : l'.Pairwise bytesLE) :
    l' = sortByteArrays l :=
  (hp.trans (sortByteArrays_perm l).symm).eq_of_pairwise (fun _ _ _ _ => bytesLE_antisymm) hs (sortByteArrays_sorted l)

theorem noRepeat_iff {last : List UInt8} {l : List (List UInt8)} (h : (last :: l).Pairwise bytesLE) :
    noRepeat last l = true ↔ (last :: l).Nodup := by
  induction l generalizing last with
  | nil => simp [noRepeat]
  | cons m ms ih =>
    rw [List.pairwise_cons] at h
    have hm := h.2
    rw [List.pairwise_cons] at hm
    rw [noRepeat, List.nodup_cons]
    by_cases e : m = last
    · subst e
      simp
    · rw [if_neg (by rwa [beq_iff_eq]), ih h.2]
      refine ⟨fun hn => ⟨fun hmem => ?_, hn⟩, And.right⟩
      rcases List.mem_cons.mp hmem with hl | hl
      · exact e hl.symm
      · exact e (bytesLE_antisymm (hm.1 last hl) (h.1 m List.mem_cons_self))

/-- The guard of `VerifyAggregate`. -/
theorem noRepeat_sort (l : List (List UInt8)) :
    noRepeat [] (sortByteArrays l) = true ↔ l.Nodup ∧ [] ∉ l := by
  rw [noRepeat_iff (List.pairwise_cons.mpr ⟨fun a _ => nil_bytesLE a, sortByteArrays_sorted l⟩), List.nodup_cons,
    (sortByteArrays_perm l).nodup_iff, (sortByteArrays_perm l).mem_iff, and_comm]

end Bls
