import Verif.Model.FR
import Verif.Model.Pairing
import Verif.Spec.Denote
import Verif.Spec.Bytes
/-
Programs on scalars, points of both groups and values of the pairing, run with the library's functions and run on paper:
in the field with r elements, the two curve groups and the field with q¹² elements.
-/
namespace Bls.Groups

/-- Operations on two scalars. -/
inductive BinF | add | sub | mul
/-- Operations on one scalar. -/
inductive UnF | neg | double | square
/-- Additions of two points; `mixed` converts the second to affine coordinates before. -/
inductive BinP | add | mixed
/-- Operations on one point; `affine` converts it to affine coordinates and back. -/
inductive UnP | neg | double | affine
/-- Multiplications of a point by a scalar; `affine` converts the point to affine coordinates before. -/
inductive MulP | projective | affine
/-- Operations on one value of the pairing. -/
inductive UnT | square | conjugate

/-- What a program can see: the results of comparisons, and encodings. -/
inductive Obs | bool (b : Bool) | bytes (b : List UInt8)

/-- Comparisons; variables are given by their numbers. -/
inductive Test
  | eqF (i j : Nat) | zeroF (i : Nat)
  | eq1 (i j : Nat) | zero1 (i : Nat)
  | eq2 (i j : Nat) | zero2 (i : Nat)
  | eqT (i j : Nat) | compare (i k j l : Nat)

/-- A program: calls, each of which makes a new variable of its kind from earlier ones, and tests and outputs, on which
the rest of the program may depend in any way. -/
inductive Prog
  | done
  | scalar (k : FRRepr) (p : Prog) | binF (o : BinF) (i j : Nat) (p : Prog) | unF (o : UnF) (i : Nat) (p : Prog)
  | invF (i : Nat) (p : Prog) | outF (i : Nat) (p : List UInt8 → Prog)
  | gen1 (p : Prog) | inf1 (p : Prog) | bin1 (o : BinP) (i j : Nat) (p : Prog) | un1 (o : UnP) (i : Nat) (p : Prog)
  | mul1 (o : MulP) (i k : Nat) (p : Prog) | out1 (i : Nat) (p : List UInt8 → Prog)
  | read1 (b : List UInt8) (hb : b.length = 48) (p : Prog)
  | gen2 (p : Prog) | inf2 (p : Prog) | bin2 (o : BinP) (i j : Nat) (p : Prog) | un2 (o : UnP) (i : Nat) (p : Prog)
  | mul2 (o : MulP) (i k : Nat) (p : Prog) | out2 (i : Nat) (p : List UInt8 → Prog)
  | read2 (b : List UInt8) (hb : b.length = 96) (p : Prog)
  | pair (i j : Nat) (p : Prog) | pairs (l : List (Nat × Nat)) (p : Prog) | oneT (p : Prog) | mulT (i j : Nat) (p : Prog)
  | unT (o : UnT) (i : Nat) (p : Prog) | invT (i : Nat) (p : Prog) | expT (i k : Nat) (p : Prog)
  | test (t : Test) (p : Bool → Prog)

/-- The operations a program uses, on scalars `F`, points `A` and `B` and values `T`. `none` is a panic or a nil result. -/
structure Ops (F A B T : Type) where
  scalar : FRRepr → Option F
  binF : BinF → F → F → F
  unF : UnF → F → F
  invF : F → Option F
  outF : F → List UInt8
  eqF : F → F → Bool
  zeroF : F → Bool
  gen1 : A
  inf1 : A
  bin1 : BinP → A → A → A
  un1 : UnP → A → A
  mul1 : MulP → A → F → A
  out1 : A → List UInt8
  read1 : List UInt8 → Option A
  eq1 : A → A → Bool
  zero1 : A → Bool
  gen2 : B
  inf2 : B
  bin2 : BinP → B → B → B
  un2 : UnP → B → B
  mul2 : MulP → B → F → B
  out2 : B → List UInt8
  read2 : List UInt8 → Option B
  eq2 : B → B → Bool
  zero2 : B → Bool
  pairs : List (A × B) → Option T
  pair : A → B → Option T
  oneT : T
  mulT : T → T → T
  unT : UnT → T → T
  invT : T → Option T
  expT : T → F → T
  eqT : T → T → Bool
  compare : A → B → A → B → Option Bool

/-- The variables of a program, in the order they were made. -/
structure Vars (F A B T : Type) where
  sc : List F
  g1 : List A
  g2 : List B
  gt : List T

variable {F A B T : Type}

/-- A new scalar. -/
def Vars.pushF (v : Vars F A B T) (x : F) : Vars F A B T := { v with sc := v.sc ++ [x] }
/-- A new point. -/
def Vars.push1 (v : Vars F A B T) (x : A) : Vars F A B T := { v with g1 := v.g1 ++ [x] }
/-- A new point. -/
def Vars.push2 (v : Vars F A B T) (x : B) : Vars F A B T := { v with g2 := v.g2 ++ [x] }
/-- A new value of the pairing. -/
def Vars.pushT (v : Vars F A B T) (x : T) : Vars F A B T := { v with gt := v.gt ++ [x] }

/-- The points of a list of pairs of variables. -/
def Vars.points (v : Vars F A B T) : List (Nat × Nat) → Option (List (A × B))
  | [] => some []
  | (i, j) :: l => v.g1[i]?.bind fun a => v.g2[j]?.bind fun b => (v.points l).map fun t => (a, b) :: t

/-- The result of a comparison; `none` if it panics or uses a variable that does not exist. -/
def Test.run (G : Ops F A B T) (v : Vars F A B T) : Test → Option Bool
  | .eqF i j => v.sc[i]?.bind fun a => v.sc[j]?.map fun b => G.eqF a b
  | .zeroF i => v.sc[i]?.map G.zeroF
  | .eq1 i j => v.g1[i]?.bind fun a => v.g1[j]?.map fun b => G.eq1 a b
  | .zero1 i => v.g1[i]?.map G.zero1
  | .eq2 i j => v.g2[i]?.bind fun a => v.g2[j]?.map fun b => G.eq2 a b
  | .zero2 i => v.g2[i]?.map G.zero2
  | .eqT i j => v.gt[i]?.bind fun a => v.gt[j]?.map fun b => G.eqT a b
  | .compare i k j l => v.g1[i]?.bind fun a => v.g2[k]?.bind fun b => v.g1[j]?.bind fun c => v.g2[l]?.bind fun d =>
      G.compare a b c d

/-- Adds an observation to what a run gives. -/
def see {α : Type} (o : Obs) (x : Option (α × List Obs)) : Option (α × List Obs) := x.map fun y => (y.1, o :: y.2)

/-- Runs a program: the variables at the end and what was seen; `none` if a call panics or has a nil result, or uses a
variable that does not exist. -/
def Prog.run (G : Ops F A B T) : Prog → Vars F A B T → Option (Vars F A B T × List Obs)
  | .done, v => some (v, [])
  | .scalar k p, v => (G.scalar k).bind fun x => p.run G (v.pushF x)
  | .binF o i j p, v => v.sc[i]?.bind fun a => v.sc[j]?.bind fun b => p.run G (v.pushF (G.binF o a b))
  | .unF o i p, v => v.sc[i]?.bind fun a => p.run G (v.pushF (G.unF o a))
  | .invF i p, v => v.sc[i]?.bind fun a => (G.invF a).bind fun x => p.run G (v.pushF x)
  | .outF i p, v => v.sc[i]?.bind fun a => see (.bytes (G.outF a)) ((p (G.outF a)).run G v)
  | .gen1 p, v => p.run G (v.push1 G.gen1)
  | .inf1 p, v => p.run G (v.push1 G.inf1)
  | .bin1 o i j p, v => v.g1[i]?.bind fun a => v.g1[j]?.bind fun b => p.run G (v.push1 (G.bin1 o a b))
  | .un1 o i p, v => v.g1[i]?.bind fun a => p.run G (v.push1 (G.un1 o a))
  | .mul1 o i k p, v => v.g1[i]?.bind fun a => v.sc[k]?.bind fun b => p.run G (v.push1 (G.mul1 o a b))
  | .out1 i p, v => v.g1[i]?.bind fun a => see (.bytes (G.out1 a)) ((p (G.out1 a)).run G v)
  | .read1 b _ p, v => (G.read1 b).bind fun x => p.run G (v.push1 x)
  | .gen2 p, v => p.run G (v.push2 G.gen2)
  | .inf2 p, v => p.run G (v.push2 G.inf2)
  | .bin2 o i j p, v => v.g2[i]?.bind fun a => v.g2[j]?.bind fun b => p.run G (v.push2 (G.bin2 o a b))
  | .un2 o i p, v => v.g2[i]?.bind fun a => p.run G (v.push2 (G.un2 o a))
  | .mul2 o i k p, v => v.g2[i]?.bind fun a => v.sc[k]?.bind fun b => p.run G (v.push2 (G.mul2 o a b))
  | .out2 i p, v => v.g2[i]?.bind fun a => see (.bytes (G.out2 a)) ((p (G.out2 a)).run G v)
  | .read2 b _ p, v => (G.read2 b).bind fun x => p.run G (v.push2 x)
  | .pair i j p, v => v.g1[i]?.bind fun a => v.g2[j]?.bind fun b => (G.pair a b).bind fun x => p.run G (v.pushT x)
  | .pairs l p, v => (v.points l).bind fun t => (G.pairs t).bind fun x => p.run G (v.pushT x)
  | .oneT p, v => p.run G (v.pushT G.oneT)
  | .mulT i j p, v => v.gt[i]?.bind fun a => v.gt[j]?.bind fun b => p.run G (v.pushT (G.mulT a b))
  | .unT o i p, v => v.gt[i]?.bind fun a => p.run G (v.pushT (G.unT o a))
  | .invT i p, v => v.gt[i]?.bind fun a => (G.invT a).bind fun x => p.run G (v.pushT x)
  | .expT i k p, v => v.gt[i]?.bind fun a => v.sc[k]?.bind fun b => p.run G (v.pushT (G.expT a b))
  | .test t p, v => (t.run G v).bind fun b => see (.bool b) ((p b).run G v)

/-! ## With the library -/

/-- `MillerLoop` on the points in affine coordinates and prepared, then `FinalExponentiation`. -/
def pairAll (l : List (G1Projective × G2Projective)) : Option FQ12 :=
  (l.mapM fun (x : G1Projective × G2Projective) => x.2.toAffine.toPrepared.map fun t => (x.1.toAffine, t)).bind fun items =>
    (millerLoop items).bind finalExponentiation

/-- The library's functions. `G2Projective` has no `NegAssign`: the affine point is negated. -/
def library : Ops FR G1Projective G2Projective FQ12 where
  scalar := FR.ofRepr?
  binF | .add => FR.add | .sub => FR.sub | .mul => FR.mul
  unF | .neg => FR.neg | .double => FR.double | .square => FR.square
  invF a := a.inverse?.join
  outF := FR.bytes
  eqF := FR.equals
  zeroF := FR.isZero
  gen1 := G1Projective.one
  inf1 := G1Projective.zero
  bin1 | .add => G1Projective.add | .mixed => fun a b => a.addAffine b.toAffine
  un1 | .neg => G1Projective.neg | .double => G1Projective.double | .affine => fun a => a.toAffine.toProjective
  mul1 | .projective => fun a k => a.mulFR k.toRepr | .affine => fun a k => a.toAffine.mulFR k.toRepr
  out1 a := a.toAffine.compress
  read1 b := (G1Affine.decompress b).map G1Affine.toProjective
  eq1 := G1Projective.equal
  zero1 := G1Projective.isZero
  gen2 := G2Projective.one
  inf2 := G2Projective.zero
  bin2 | .add => G2Projective.add | .mixed => fun a b => a.addAffine b.toAffine
  un2 | .neg => fun a => a.toAffine.neg.toProjective | .double => G2Projective.double
      | .affine => fun a => a.toAffine.toProjective
  mul2 | .projective => fun a k => a.mulFR k.toRepr | .affine => fun a k => a.toAffine.mulFR k.toRepr
  out2 a := a.toAffine.compress
  read2 b := (G2Affine.decompress b).map G2Affine.toProjective
  eq2 := G2Projective.equals
  zero2 := G2Projective.isZero
  pairs := pairAll
  pair a b := (pairing a b).join
  oneT := FQ12.one
  mulT := FQ12.mul
  unT | .square => FQ12.square | .conjugate => FQ12.conjugate
  invT a := if a.inverse.2 then some a.inverse.1 else none
  expT a k := a.exp k.toRepr.toFQ
  eqT := FQ12.equals
  compare := compareTwoPairings

/-! ## On paper -/

/-- What the groups do not determine: the pairing, and how scalars and points are encoded. -/
structure Choice where
  e : E1 → E2 → Fq12
  encF : ZMod r → List UInt8
  enc1 : E1 → List UInt8
  enc2 : E2 → List UInt8
  dec1 : List UInt8 → Option E1
  dec2 : List UInt8 → Option E2

/-- A bilinear, non-degenerate map to the r-th roots of unity; encodings from which a scalar or a point can be read, those
of scalars being numbers of 32 bytes, and those of points of G1 being unique. -/
structure Choice.Lawful (c : Choice) : Prop where
  add_left : ∀ P P' Q, r • P = 0 → r • P' = 0 → r • Q = 0 → c.e (P + P') Q = c.e P Q * c.e P' Q
  add_right : ∀ P Q Q', r • P = 0 → r • Q = 0 → r • Q' = 0 → c.e P (Q + Q') = c.e P Q * c.e P Q'
  nondegenerate : ∀ P Q, r • P = 0 → r • Q = 0 → P ≠ 0 → Q ≠ 0 → c.e P Q ≠ 1
  root : ∀ P Q, r • P = 0 → r • Q = 0 → c.e P Q ^ r = 1
  encF : ∀ x : ZMod r, (c.encF x).length = 32 ∧ beNat (c.encF x) = x.val
  enc1 : ∀ P, (c.enc1 P).length = 48
  enc2 : ∀ P, (c.enc2 P).length = 96
  dec1 : ∀ b P, b.length = 48 → (c.dec1 b = some P ↔ r • P = 0 ∧ b = c.enc1 P)
  dec2 : ∀ P, r • P = 0 → c.dec2 (c.enc2 P) = some P
  order2 : ∀ b P, b.length = 96 → c.dec2 b = some P → r • P = 0

open Classical in
/-- The operations on paper, with the points `G` and `H` as generators. A pairing with infinity has no result. -/
noncomputable def paper (c : Choice) (G : E1) (H : E2) : Ops (ZMod r) E1 E2 Fq12 where
  scalar k := if k.toNat < r then some (k.toNat : ZMod r) else none
  binF | .add => (· + ·) | .sub => (· - ·) | .mul => (· * ·)
  unF | .neg => (- ·) | .double => fun x => x + x | .square => fun x => x * x
  invF x := if x = 0 then none else some x⁻¹
  outF := c.encF
  eqF x y := decide (x = y)
  zeroF x := decide (x = 0)
  gen1 := G
  inf1 := 0
  bin1 _ P Q := P + Q
  un1 | .neg => (- ·) | .double => fun P => P + P | .affine => id
  mul1 _ P k := k.val • P
  out1 := c.enc1
  read1 := c.dec1
  eq1 P Q := decide (P = Q)
  zero1 P := decide (P = 0)
  gen2 := H
  inf2 := 0
  bin2 _ P Q := P + Q
  un2 | .neg => (- ·) | .double => fun P => P + P | .affine => id
  mul2 _ P k := k.val • P
  out2 := c.enc2
  read2 := c.dec2
  eq2 P Q := decide (P = Q)
  zero2 P := decide (P = 0)
  pairs l := if ∃ x ∈ l, x.1 = 0 ∨ x.2 = 0 then none else some (l.map fun x => c.e x.1 x.2).prod
  pair P Q := if P = 0 ∨ Q = 0 then none else some (c.e P Q)
  oneT := 1
  mulT x y := x * y
  unT | .square => fun x => x * x | .conjugate => fun x => x⁻¹
  invT x := some x⁻¹
  expT x k := x ^ k.val
  eqT x y := decide (x = y)
  compare P Q P' Q' := if P = 0 ∨ Q = 0 ∨ P' = 0 ∨ Q' = 0 then none else some (decide (c.e P Q = c.e P' Q'))

/-- The library's variables denote scalars, points of order r (or infinity) and r-th roots of unity. -/
structure Denote (v : Vars FR G1Projective G2Projective FQ12) (w : Vars (ZMod r) E1 E2 Fq12) : Prop where
  sc : List.Forall₂ (fun a x => a.isValid = true ∧ (a.int : ZMod r) = x) v.sc w.sc
  g1 : List.Forall₂ (fun g P => g.Denotes P ∧ r • P = 0) v.g1 w.g1
  g2 : List.Forall₂ (fun g P => g.Denotes P ∧ r • P = 0) v.g2 w.g2
  gt : List.Forall₂ (fun a x => a.isValid = true ∧ a.fld = x ∧ x ^ r = 1) v.gt w.gt

end Bls.Groups
