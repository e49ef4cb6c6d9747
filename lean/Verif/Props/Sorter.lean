import Verif.Proof.Sort
import Verif.Spec.Sorter
import Mathlib.Data.List.Induction
/-
C38: the sorting of messages through the three methods the packages define. Whatever calls the sorting
routine makes, the batch is only reordered, and if it ends sorted in the sense of `sort.IsSorted` then the
result is the one the model of `sortByteArrays` uses.
-/
namespace Bls.Props

theorem sortableSwap_perm {b b' : List (List UInt8)} {i j : ℕ} (h : sortableSwap b i j = some b') : b'.Perm b := by
  unfold sortableSwap at h
  simp only [Option.bind_eq_bind, Option.bind_eq_some_iff, Option.pure_def, Option.some.injEq] at h
  obtain ⟨x, hx, y, hy, rfl⟩ := h
  obtain ⟨hi, rfl⟩ := List.getElem?_eq_some_iff.mp hx
  obtain ⟨hj, rfl⟩ := List.getElem?_eq_some_iff.mp hy
  exact List.set_set_perm hj hi

/-- Whatever a sorting routine does through `Len`, `Less` and `Swap`, the messages afterwards are the same
messages in some order: none is lost, duplicated or changed. -/
theorem C38_sorter_perm (s : Sorter) (b b' : List (List UInt8)) (h : s.sort b = some b') : b'.Perm b := by
  unfold Sorter.sort at h
  generalize s (sortableLen b) = c at h
  induction c generalizing b with
  | done => cases h; rfl
  | less i j k ih =>
    obtain ⟨x, _, hx⟩ := Option.bind_eq_some_iff.mp h
    exact ih x b hx
  | swap i j k ih =>
    obtain ⟨x, h1, hx⟩ := Option.bind_eq_some_iff.mp h
    exact (ih x hx).trans (sortableSwap_perm h1)

/-- If the routine leaves the data sorted as `sort.Sort` promises, that is no `Less(i + 1, i)`, then the
batch is the one the model of `sortByteArrays` continues with, whatever algorithm it used. -/
theorem C38_sorter (s : Sorter) (b b' : List (List UInt8)) (h : s.sort b = some b') (hs : IsSorted b') :
    b' = sortByteArrays b := by
  refine sortByteArrays_unique (C38_sorter_perm s b b' h) ?_
  have : IsTrans _ bytesLE := ⟨fun a b c h1 h2 =>
    bytesLE_iff.mpr (bytesCompare_trans (bytesLE_iff.mp h1) (bytesLE_iff.mp h2))⟩
  rw [← List.isChain_iff_pairwise, List.isChain_iff_getElem]
  intro i hi
  have := hs i hi
  unfold sortableLess at this
  rw [List.getElem?_eq_getElem hi, List.getElem?_eq_getElem (by omega)] at this
  exact Option.some.inj this

private theorem sink (k : SortCalls) (l : List (List UInt8)) (x : List UInt8) (t : List (List UInt8)) :
    ∃ l', (sinkCalls k l.length).run (l ++ x :: t) = k.run (l' ++ t) ∧ l'.Perm (l ++ [x]) ∧
      (l.Pairwise bytesLE → l'.Pairwise bytesLE) := by
  induction l using List.reverseRecOn generalizing t with
  | nil => exact ⟨[x], rfl, .refl _, fun _ => List.pairwise_singleton _ _⟩
  | append_singleton l y ih =>
    have h1 : (l ++ [y] ++ x :: t)[l.length + 1]? = some x := by
      rw [List.getElem?_append_right (by simp)]; simp
    have h2 : (l ++ [y] ++ x :: t)[l.length]? = some y := by simp
    have hl : sortableLess (l ++ [y] ++ x :: t) (l.length + 1) l.length = some (bytesLess x y) := by
      unfold sortableLess; rw [h1, h2]; rfl
    have hw : sortableSwap (l ++ [y] ++ x :: t) (l.length + 1) l.length = some (l ++ x :: y :: t) := by
      unfold sortableSwap; rw [h1, h2]
      simp
    rw [List.length_append, List.length_singleton, sinkCalls, SortCalls.run, hl, Option.bind_some]
    cases hx : bytesLess x y
    · rw [if_neg (by decide)]
      refine ⟨l ++ [y] ++ [x], by simp, .refl _, fun hp => ?_⟩
      rw [List.pairwise_append] at hp ⊢
      refine ⟨List.pairwise_append.mpr hp, List.pairwise_singleton _ _, fun a ha c hc => ?_⟩
      rw [List.mem_singleton] at hc
      subst hc
      have hyx : bytesLE y c := hx
      rcases List.mem_append.mp ha with ha | ha
      · exact bytesLE_iff.mpr (bytesCompare_trans (bytesLE_iff.mp (hp.2.2 a ha y (by simp))) (bytesLE_iff.mp hyx))
      · rw [List.mem_singleton] at ha; subst ha; exact hyx
    · rw [if_pos rfl, SortCalls.run, hw, Option.bind_some]
      obtain ⟨l', e, hp, hs⟩ := ih (y :: t)
      refine ⟨l' ++ [y], by rw [e]; simp, (hp.append_right [y]).trans ?_, fun hw => ?_⟩
      · rw [List.append_assoc, List.append_assoc]
        exact .append_left l (.swap y x [])
      · rw [List.pairwise_append] at hw ⊢
        refine ⟨hs hw.1, List.pairwise_singleton _ _, fun a ha c hc => ?_⟩
        rw [List.mem_singleton] at hc
        subst hc
        rcases List.mem_append.mp (hp.subset ha) with ha | ha
        · exact hw.2.2 a ha c (by simp)
        · rw [List.mem_singleton] at ha
          subst ha
          rw [bytesLE_iff]
          unfold bytesLess at hx
          rw [beq_iff_eq] at hx
          omega

private theorem insertionFrom_run (l t : List (List UInt8)) (hl : l.Pairwise bytesLE) :
    ∃ b, (insertionFrom l.length t.length).run (l ++ t) = some b ∧ b.Perm (l ++ t) ∧ b.Pairwise bytesLE := by
  induction t generalizing l with
  | nil => exact ⟨l ++ [], rfl, .refl _, by simpa using hl⟩
  | cons x t ih =>
    obtain ⟨l', e, hp, hs⟩ := sink (insertionFrom (l.length + 1) t.length) l x t
    have hn : l'.length = l.length + 1 := by rw [hp.length_eq]; simp
    obtain ⟨b, h1, h2, h3⟩ := ih l' (hs hl)
    refine ⟨b, ?_, h2.trans ((hp.append_right t).trans (by simp)), h3⟩
    rw [List.length_cons, insertionFrom, e, ← hn, h1]

/-- The routine package `sort` uses for short data makes no call out of range, terminates, and leaves every
batch as the model of `sortByteArrays` says: sorting routines as assumed by `C38_sorter` exist, for every batch. -/
theorem C38_sorter_insertion (b : List (List UInt8)) : insertionSort.sort b = some (sortByteArrays b) := by
  cases b with
  | nil => decide +kernel
  | cons x t =>
    obtain ⟨b, h1, h2, h3⟩ := insertionFrom_run [x] t (List.pairwise_singleton _ _)
    rw [← List.singleton_append, ← sortByteArrays_unique h2 h3]
    exact h1

/-- Insertion sort on three messages: no panic, and the outcome is sorted. -/
example : insertionSort.sort [[2, 1], [2], [1, 9]] = some [[1, 9], [2], [2, 1]] ∧
    ∀ i < 2, sortableLess [[1, 9], [2], [2, 1]] (i + 1) i = some false := by decide +kernel

end Bls.Props
