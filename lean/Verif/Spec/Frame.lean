import Verif.Spec.Threads
/- A call in progress: what is left of it, and the memory, after `k` accesses. -/
namespace Bls.HeapPoints

/-- After `k` accesses (or fewer, if the call has returned or panicked). -/
def M.after {α : Type} : Nat → M α → Mem → M α × Mem
  | 0, x, m => (x, m)
  | k + 1, x, m => M.after k (x.next m).1 (x.next m).2

end Bls.HeapPoints
