/-
Programs of a caller. What a program does next may depend on what its calls have returned so far: it may branch, loop
as often as it likes and compute the arguments of a call from earlier results. It ends after finitely many calls
whatever these return.
-/
namespace Bls

/-- A program that makes calls `Op`, each of which returns a list of results `Out`: it stops, or it makes a call and
goes on as what this returns says. -/
inductive Prog (Op Out : Type) where
  | stop
  | call (op : Op) (next : List Out → Prog Op Out)

/-- The program that makes these calls one after the other. -/
def Prog.line {Op Out : Type} : List Op → Prog Op Out
  | [] => .stop
  | op :: ops => .call op fun _ => .line ops

end Bls
