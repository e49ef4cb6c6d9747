import Verif.Spec.Denote
import Verif.Spec.Params
/-
Programs on elements of the four fields FQ, FQ2, FQ6 and FQ12 and on points of both curves, of any order, run with the
library's functions and run on paper: in Fq, Fq2, Fq6, Fq12 and in the groups of the curves.
-/
namespace Bls.Calc

/-- The fields. -/
inductive Fld | q | q2 | q6 | q12
  deriving DecidableEq

/-- Kinds of variables: elements of a field, points of `y² = x³ + 4` and of `y² = x³ + 4(1+u)`. -/
inductive Kind | fld (k : Fld) | p1 | p2
  deriving DecidableEq

/-- Operations, with the kinds of their arguments and of their result. The methods that overwrite their receiver are applied
to a copy of it, so that it is none of the arguments. FQ6.Exp is missing (C19). -/
inductive Op : List Kind → Kind → Type
  | num (n : FQRepr) : Op [] (.fld .q)
  | zero (k : Fld) : Op [] (.fld k)
  | one (k : Fld) : Op [] (.fld k)
  | add (k : Fld) : Op [.fld k, .fld k] (.fld k)
  | sub (k : Fld) : Op [.fld k, .fld k] (.fld k)
  | mul (k : Fld) : Op [.fld k, .fld k] (.fld k)
  | neg (k : Fld) : Op [.fld k] (.fld k)
  | double (k : Fld) : Op [.fld k] (.fld k)
  | square (k : Fld) : Op [.fld k] (.fld k)
  | inverse (k : Fld) : Op [.fld k] (.fld k)
  | div : Op [.fld .q, .fld .q] (.fld .q)
  | div2 : Op [.fld .q2, .fld .q2] (.fld .q2)
  | exp (n : FQRepr) : Op [.fld .q] (.fld .q)
  | exp2 (n : FQRepr) : Op [.fld .q2] (.fld .q2)
  | exp12 (n : FQRepr) : Op [.fld .q12] (.fld .q12)
  | sqrt : Op [.fld .q] (.fld .q)
  | sqrt2 : Op [.fld .q2] (.fld .q2)
  | frobenius2 (i : UInt8) : Op [.fld .q2] (.fld .q2)
  | frobenius6 (i : UInt8) : Op [.fld .q6] (.fld .q6)
  | frobenius12 (i : UInt8) : Op [.fld .q12] (.fld .q12)
  | norm : Op [.fld .q2] (.fld .q)
  | mulBits (n : ℕ) : Op [.fld .q2] (.fld .q2)
  | nonresidue2 : Op [.fld .q2] (.fld .q2)
  | nonresidue6 : Op [.fld .q6] (.fld .q6)
  | mulBy1 : Op [.fld .q6, .fld .q2] (.fld .q6)
  | mulBy01 : Op [.fld .q6, .fld .q2, .fld .q2] (.fld .q6)
  | mulBy014 : Op [.fld .q12, .fld .q2, .fld .q2, .fld .q2] (.fld .q12)
  | conjugate : Op [.fld .q12] (.fld .q12)
  | new2 : Op [.fld .q, .fld .q] (.fld .q2)
  | new6 : Op [.fld .q2, .fld .q2, .fld .q2] (.fld .q6)
  | new12 : Op [.fld .q6, .fld .q6] (.fld .q12)
  /-- The coefficients of an element of FQ2, FQ6 and FQ12. -/
  | coeff2 (i : Fin 2) : Op [.fld .q2] (.fld .q)
  | coeff6 (i : Fin 3) : Op [.fld .q6] (.fld .q2)
  | coeff12 (i : Fin 2) : Op [.fld .q12] (.fld .q6)
  | generator1 : Op [] .p1
  | infinity1 : Op [] .p1
  | add1 : Op [.p1, .p1] .p1
  /-- Converts the second point to affine coordinates before. -/
  | mixed1 : Op [.p1, .p1] .p1
  | neg1 : Op [.p1] .p1
  | double1 : Op [.p1] .p1
  /-- Converts to affine coordinates and back. -/
  | affine1 : Op [.p1] .p1
  | mul1 (n : FQRepr) : Op [.p1] .p1
  | mulFR1 (n : FRRepr) : Op [.p1] .p1
  | mulAffine1 (n : FQRepr) : Op [.p1] .p1
  | mulAffineFR1 (n : FRRepr) : Op [.p1] .p1
  | cofactor1 : Op [.p1] .p1
  /-- The point with these coordinates, if it is on the curve. -/
  | point1 : Op [.fld .q, .fld .q] .p1
  | fromX1 (greatest : Bool) : Op [.fld .q] .p1
  /-- The coordinates of a point that is not infinity. -/
  | x1 : Op [.p1] (.fld .q)
  | y1 : Op [.p1] (.fld .q)
  | generator2 : Op [] .p2
  | infinity2 : Op [] .p2
  | add2 : Op [.p2, .p2] .p2
  | mixed2 : Op [.p2, .p2] .p2
  | neg2 : Op [.p2] .p2
  | double2 : Op [.p2] .p2
  | affine2 : Op [.p2] .p2
  | mul2 (n : FQRepr) : Op [.p2] .p2
  | mulFR2 (n : FRRepr) : Op [.p2] .p2
  | mulAffine2 (n : FQRepr) : Op [.p2] .p2
  | mulAffineFR2 (n : FRRepr) : Op [.p2] .p2
  | mulBig2 (n : ℕ) : Op [.p2] .p2
  | cofactor2 : Op [.p2] .p2
  | point2 : Op [.fld .q2, .fld .q2] .p2
  | fromX2 (greatest : Bool) : Op [.fld .q2] .p2
  | x2 : Op [.p2] (.fld .q2)
  | y2 : Op [.p2] (.fld .q2)

/-- What a program can look at. -/
inductive Look : List Kind → Type
  | equals (k : Fld) : Look [.fld k, .fld k]
  | isZero (k : Fld) : Look [.fld k]
  | toRepr : Look [.fld .q]
  | cmp : Look [.fld .q, .fld .q]
  | cmp2 : Look [.fld .q2, .fld .q2]
  | parity : Look [.fld .q]
  | parity2 : Look [.fld .q2]
  | legendre : Look [.fld .q]
  | legendre2 : Look [.fld .q2]
  | equals1 : Look [.p1, .p1]
  | isZero1 : Look [.p1]
  | subgroup1 : Look [.p1]
  | equals2 : Look [.p2, .p2]
  | isZero2 : Look [.p2]
  | subgroup2 : Look [.p2]

/-- What it sees. -/
inductive Obs | bool (b : Bool) | int (i : ℤ) | symbol (s : LegendreSymbol)

/-- A program: operations on variables, given by their numbers, each of which makes a new variable, and looks, on which the
rest of the program may depend in any way. -/
inductive Prog
  | done
  | call {d : List Kind} {s : Kind} (o : Op d s) (args : List ℕ) (p : Prog)
  | look {d : List Kind} (o : Look d) (args : List ℕ) (p : Obs → Prog)

/-- Values of the given kinds. -/
def Args (V : Kind → Type) : List Kind → Type
  | [] => Unit
  | s :: d => V s × Args V d

/-- A way to run programs. `none` is a result that does not exist: an inverse, a root, a point or a coordinate. -/
structure Machine (V : Kind → Type) where
  op : ∀ {d : List Kind} {s : Kind}, Op d s → Args V d → Option (V s)
  look : ∀ {d : List Kind}, Look d → Args V d → Obs

/-- The variables of each kind, in the order they were made. -/
abbrev Vars (V : Kind → Type) := ∀ s, List (V s)

variable {V : Kind → Type}

/-- A new variable. -/
def Vars.push (v : Vars V) (s : Kind) (x : V s) : Vars V := fun t => if h : s = t then v t ++ [h ▸ x] else v t

/-- The variables with the given numbers. -/
def Vars.get (v : Vars V) : (d : List Kind) → List ℕ → Option (Args V d)
  | [], [] => some ()
  | s :: d, i :: is => (v s)[i]?.bind fun x => (Vars.get v d is).map fun t => (x, t)
  | _, _ => none

/-- Adds an observation to what a run gives. -/
def see {α : Type} (o : Obs) (x : Option (α × List Obs)) : Option (α × List Obs) := x.map fun y => (y.1, o :: y.2)

/-- Runs a program: the variables at the end and what was seen; `none` if a result does not exist or if a variable does not
exist. -/
def Prog.run (M : Machine V) : Prog → Vars V → Option (Vars V × List Obs)
  | .done, v => some (v, [])
  | .call (d := d) (s := s) o args p, v => (v.get d args).bind fun a => (M.op o a).bind fun x => p.run M (v.push s x)
  | .look (d := d) o args p, v => (v.get d args).bind fun a => see (M.look o a) ((p (M.look o a)).run M v)

/-! ## With the library -/

/-- The library's types. Points are kept in projective coordinates. -/
def Lib : Kind → Type
  | .fld .q => FQ
  | .fld .q2 => FQ2
  | .fld .q6 => FQ6
  | .fld .q12 => FQ12
  | .p1 => G1Projective
  | .p2 => G2Projective

/-- A result with a flag that says whether it exists. -/
def flagged {α : Type} (x : α × Bool) : Option α := if x.2 then some x.1 else none

/-- The library's operations. -/
def libOp : {d : List Kind} → {s : Kind} → Op d s → Args Lib d → Option (Lib s)
  | _, _, .num n, _ => some (FQ.ofRepr n)
  | _, _, .zero .q, _ => some FQ.zero
  | _, _, .zero .q2, _ => some FQ2.zero
  | _, _, .zero .q6, _ => some FQ6.zero
  | _, _, .zero .q12, _ => some FQ12.zero
  | _, _, .one .q, _ => some FQ.one
  | _, _, .one .q2, _ => some FQ2.one
  | _, _, .one .q6, _ => some FQ6.one
  | _, _, .one .q12, _ => some FQ12.one
  | _, _, .add .q, (a, b, _) => some (FQ.add a b)
  | _, _, .add .q2, (a, b, _) => some (FQ2.add a b)
  | _, _, .add .q6, (a, b, _) => some (FQ6.add a b)
  | _, _, .add .q12, (a, b, _) => some (FQ12.add a b)
  | _, _, .sub .q, (a, b, _) => some (FQ.sub a b)
  | _, _, .sub .q2, (a, b, _) => some (FQ2.sub a b)
  | _, _, .sub .q6, (a, b, _) => some (FQ6.sub a b)
  | _, _, .sub .q12, (a, b, _) => some (FQ12.sub a b)
  | _, _, .mul .q, (a, b, _) => some (FQ.mul a b)
  | _, _, .mul .q2, (a, b, _) => some (FQ2.mul a b)
  | _, _, .mul .q6, (a, b, _) => some (FQ6.mul a b)
  | _, _, .mul .q12, (a, b, _) => some (FQ12.mul a b)
  | _, _, .neg .q, (a, _) => some (FQ.neg a)
  | _, _, .neg .q2, (a, _) => some (FQ2.neg a)
  | _, _, .neg .q6, (a, _) => some (FQ6.neg a)
  | _, _, .neg .q12, (a, _) => some (FQ12.neg a)
  | _, _, .double .q, (a, _) => some (FQ.double a)
  | _, _, .double .q2, (a, _) => some (FQ2.double a)
  | _, _, .double .q6, (a, _) => some (FQ6.double a)
  | _, _, .double .q12, (a, _) => some (FQ12.double a)
  | _, _, .square .q, (a, _) => some (FQ.square a)
  | _, _, .square .q2, (a, _) => some (FQ2.square a)
  | _, _, .square .q6, (a, _) => some (FQ6.square a)
  | _, _, .square .q12, (a, _) => some (FQ12.square a)
  | _, _, .inverse .q, (a, _) => (FQ.inverse? a).bind flagged
  | _, _, .inverse .q2, (a, _) => flagged (FQ2.inverse a)
  | _, _, .inverse .q6, (a, _) => flagged (FQ6.inverse a)
  | _, _, .inverse .q12, (a, _) => flagged (FQ12.inverse a)
  | _, _, .div, (a, b, _) => some (FQ.div a b)
  | _, _, .div2, (a, b, _) => some (FQ2.div a b)
  | _, _, .exp n, (a, _) => FQ.exp? a n
  | _, _, .exp2 n, (a, _) => FQ2.exp? a n
  | _, _, .exp12 n, (a, _) => FQ12.exp? a n
  | _, _, .sqrt, (a, _) => flagged (FQ.sqrt a)
  | _, _, .sqrt2, (a, _) => flagged (FQ2.sqrt a)
  | _, _, .frobenius2 i, (a, _) => some (FQ2.frobeniusMap a i)
  | _, _, .frobenius6 i, (a, _) => some (FQ6.frobeniusMap a i)
  | _, _, .frobenius12 i, (a, _) => some (FQ12.frobeniusMap a i)
  | _, _, .norm, (a, _) => some (FQ2.norm a)
  | _, _, .mulBits n, (a, _) => some (FQ2.mulBits a n)
  | _, _, .nonresidue2, (a, _) => some (FQ2.mulByNonresidue a)
  | _, _, .nonresidue6, (a, _) => some (FQ6.mulByNonresidue a)
  | _, _, .mulBy1, (a, b, _) => some (FQ6.mulBy1 a b)
  | _, _, .mulBy01, (a, b, c, _) => some (FQ6.mulBy01 a b c)
  | _, _, .mulBy014, (a, b, c, e, _) => some (FQ12.mulBy014 a b c e)
  | _, _, .conjugate, (a, _) => some (FQ12.conjugate a)
  | _, _, .new2, (a, b, _) => some (FQ2.mk a b)
  | _, _, .new6, (a, b, c, _) => some (FQ6.mk a b c)
  | _, _, .new12, (a, b, _) => some (FQ12.mk a b)
  | _, _, .coeff2 0, (a, _) => some (FQ2.c0 a)
  | _, _, .coeff2 1, (a, _) => some (FQ2.c1 a)
  | _, _, .coeff6 0, (a, _) => some (FQ6.c0 a)
  | _, _, .coeff6 1, (a, _) => some (FQ6.c1 a)
  | _, _, .coeff6 2, (a, _) => some (FQ6.c2 a)
  | _, _, .coeff12 0, (a, _) => some (FQ12.c0 a)
  | _, _, .coeff12 1, (a, _) => some (FQ12.c1 a)
  | _, _, .generator1, _ => some G1Projective.one
  | _, _, .infinity1, _ => some G1Projective.zero
  | _, _, .add1, (a, b, _) => some (G1Projective.add a b)
  | _, _, .mixed1, (a, b, _) => some (G1Projective.addAffine a (G1Projective.toAffine b))
  | _, _, .neg1, (a, _) => some (G1Projective.neg a)
  | _, _, .double1, (a, _) => some (G1Projective.double a)
  | _, _, .affine1, (a, _) => some (G1Projective.toAffine a).toProjective
  | _, _, .mul1 n, (a, _) => G1Projective.mul? a n
  | _, _, .mulFR1 n, (a, _) => G1Projective.mulFR? a n
  | _, _, .mulAffine1 n, (a, _) => (G1Projective.toAffine a).mul? n
  | _, _, .mulAffineFR1 n, (a, _) => (G1Projective.toAffine a).mulFR? n
  | _, _, .cofactor1, (a, _) => some (G1Projective.toAffine a).scaleByCofactor
  | _, _, .point1, (a, b, _) => if (G1Affine.new a b).isOnCurve then some (G1Affine.new a b).toProjective else none
  | _, _, .fromX1 g, (a, _) => (G1Affine.getPointFromX a g).map G1Affine.toProjective
  | _, _, .x1, (a, _) => if (G1Projective.toAffine a).isZero then none else some (G1Projective.toAffine a).x
  | _, _, .y1, (a, _) => if (G1Projective.toAffine a).isZero then none else some (G1Projective.toAffine a).y
  | _, _, .generator2, _ => some G2Projective.one
  | _, _, .infinity2, _ => some G2Projective.zero
  | _, _, .add2, (a, b, _) => some (G2Projective.add a b)
  | _, _, .mixed2, (a, b, _) => some (G2Projective.addAffine a (G2Projective.toAffine b))
  | _, _, .neg2, (a, _) => some (G2Projective.toAffine a).neg.toProjective
  | _, _, .double2, (a, _) => some (G2Projective.double a)
  | _, _, .affine2, (a, _) => some (G2Projective.toAffine a).toProjective
  | _, _, .mul2 n, (a, _) => G2Projective.mul? a n
  | _, _, .mulFR2 n, (a, _) => G2Projective.mulFR? a n
  | _, _, .mulAffine2 n, (a, _) => (G2Projective.toAffine a).mul? n
  | _, _, .mulAffineFR2 n, (a, _) => (G2Projective.toAffine a).mulFR? n
  | _, _, .mulBig2 n, (a, _) => (G2Projective.toAffine a).mulBig? n
  | _, _, .cofactor2, (a, _) => some (G2Projective.toAffine a).scaleByCofactor
  | _, _, .point2, (a, b, _) => if (G2Affine.new a b).isOnCurve then some (G2Affine.new a b).toProjective else none
  | _, _, .fromX2 g, (a, _) => (G2Affine.getPointFromX a g).map G2Affine.toProjective
  | _, _, .x2, (a, _) => if (G2Projective.toAffine a).isZero then none else some (G2Projective.toAffine a).x
  | _, _, .y2, (a, _) => if (G2Projective.toAffine a).isZero then none else some (G2Projective.toAffine a).y

/-- The library's comparisons. -/
def libLook : {d : List Kind} → Look d → Args Lib d → Obs
  | _, .equals .q, (a, b, _) => .bool (FQ.equals a b)
  | _, .equals .q2, (a, b, _) => .bool (FQ2.equals a b)
  | _, .equals .q6, (a, b, _) => .bool (FQ6.equals a b)
  | _, .equals .q12, (a, b, _) => .bool (FQ12.equals a b)
  | _, .isZero .q, (a, _) => .bool (FQ.isZero a)
  | _, .isZero .q2, (a, _) => .bool (FQ2.isZero a)
  | _, .isZero .q6, (a, _) => .bool (FQ6.isZero a)
  | _, .isZero .q12, (a, _) => .bool (FQ12.isZero a)
  | _, .toRepr, (a, _) => .int (FQ.toRepr a).toNat
  | _, .cmp, (a, b, _) => .int (FQ.cmp a b)
  | _, .cmp2, (a, b, _) => .int (FQ2.cmp a b)
  | _, .parity, (a, _) => .bool (FQ.parity a)
  | _, .parity2, (a, _) => .bool (FQ2.parity a)
  | _, .legendre, (a, _) => .symbol (FQ.legendre a)
  | _, .legendre2, (a, _) => .symbol (FQ2.legendre a)
  | _, .equals1, (a, b, _) => .bool (G1Projective.equal a b)
  | _, .isZero1, (a, _) => .bool (G1Projective.isZero a)
  | _, .subgroup1, (a, _) => .bool (G1Projective.toAffine a).isInCorrectSubgroup
  | _, .equals2, (a, b, _) => .bool (G2Projective.equals a b)
  | _, .isZero2, (a, _) => .bool (G2Projective.isZero a)
  | _, .subgroup2, (a, _) => .bool (G2Projective.toAffine a).isInCorrectSubgroup

/-- The library. -/
def library : Machine Lib := ⟨libOp, libLook⟩

/-! ## On paper -/

/-- Elements of the fields and points of the curves. -/
def Paper : Kind → Type
  | .fld .q => Fq
  | .fld .q2 => Fq2
  | .fld .q6 => Fq6
  | .fld .q12 => Fq12
  | .p1 => E1
  | .p2 => E2

noncomputable instance (k : Fld) : Field (Paper (.fld k)) :=
  match k with
  | .q => inferInstanceAs (Field Fq)
  | .q2 => inferInstanceAs (Field Fq2)
  | .q6 => inferInstanceAs (Field Fq6)
  | .q12 => inferInstanceAs (Field Fq12)

/-- What the fields and curves do not determine: which of two roots is taken, and the generators. -/
structure Choice where
  sqrt : Fq → Fq
  sqrt2 : Fq2 → Fq2
  G : E1
  H : E2

/-- Roots of squares, and points of order r. -/
structure Choice.Lawful (c : Choice) : Prop where
  sqrt : ∀ x, IsSquare x → c.sqrt x * c.sqrt x = x
  sqrt2 : ∀ x, IsSquare x → c.sqrt2 x * c.sqrt2 x = x
  G : c.G ≠ 0 ∧ r • c.G = 0
  H : c.H ≠ 0 ∧ r • c.H = 0

open Classical in
/-- The operations on paper. A quotient by 0 is 0. -/
noncomputable def paperOp (c : Choice) : {d : List Kind} → {s : Kind} → Op d s → Args Paper d → Option (Paper s)
  | _, _, .num n => fun _ => some ((if n.toNat < q then n.toNat else 0 : ℕ) : Fq)
  | _, _, .zero k => fun _ => some 0
  | _, _, .one k => fun _ => some 1
  | _, _, .add k => fun ((x, y, _) : Paper (.fld k) × Paper (.fld k) × Unit) => some (x + y)
  | _, _, .sub k => fun ((x, y, _) : Paper (.fld k) × Paper (.fld k) × Unit) => some (x - y)
  | _, _, .mul k => fun ((x, y, _) : Paper (.fld k) × Paper (.fld k) × Unit) => some (x * y)
  | _, _, .neg k => fun ((x, _) : Paper (.fld k) × Unit) => some (-x)
  | _, _, .double k => fun ((x, _) : Paper (.fld k) × Unit) => some (x + x)
  | _, _, .square k => fun ((x, _) : Paper (.fld k) × Unit) => some (x * x)
  | _, _, .inverse k => fun ((x, _) : Paper (.fld k) × Unit) => if x = 0 then none else some x⁻¹
  | _, _, .div => fun ((x, y, _) : Fq × Fq × Unit) => some (x / y : Fq)
  | _, _, .div2 => fun ((x, y, _) : Fq2 × Fq2 × Unit) => some (x / y : Fq2)
  | _, _, .exp n => fun ((x, _) : Fq × Unit) => some (x ^ n.toNat : Fq)
  | _, _, .exp2 n => fun ((x, _) : Fq2 × Unit) => some (x ^ n.toNat : Fq2)
  | _, _, .exp12 n => fun ((x, _) : Fq12 × Unit) => some (x ^ n.toNat : Fq12)
  | _, _, .sqrt => fun ((x, _) : Fq × Unit) => if IsSquare x then some (c.sqrt x) else none
  | _, _, .sqrt2 => fun ((x, _) : Fq2 × Unit) => if IsSquare x then some (c.sqrt2 x) else none
  | _, _, .frobenius2 i => fun ((x, _) : Fq2 × Unit) => some (x ^ q ^ i.toNat : Fq2)
  | _, _, .frobenius6 i => fun ((x, _) : Fq6 × Unit) => some (x ^ q ^ i.toNat : Fq6)
  | _, _, .frobenius12 i => fun ((x, _) : Fq12 × Unit) => some (x ^ q ^ i.toNat : Fq12)
  | _, _, .norm => fun ((x, _) : Fq2 × Unit) => some (x.c0 ^ 2 + x.c1 ^ 2 : Fq)
  | _, _, .mulBits n => fun ((x, _) : Fq2 × Unit) => some (n * x : Fq2)
  | _, _, .nonresidue2 => fun ((x, _) : Fq2 × Unit) => some ((1 + Fq2.u) * x : Fq2)
  | _, _, .nonresidue6 => fun ((x, _) : Fq6 × Unit) => some (Fq6.v * x : Fq6)
  | _, _, .mulBy1 => fun ((x, b, _) : Fq6 × Fq2 × Unit) => some (x * ⟨0, b, 0⟩ : Fq6)
  | _, _, .mulBy01 => fun ((x, a, b, _) : Fq6 × Fq2 × Fq2 × Unit) => some (x * ⟨a, b, 0⟩ : Fq6)
  | _, _, .mulBy014 => fun ((x, a, b, e, _) : Fq12 × Fq2 × Fq2 × Fq2 × Unit) => some (x * ⟨⟨a, b, 0⟩, ⟨0, e, 0⟩⟩ : Fq12)
  | _, _, .conjugate => fun ((x, _) : Fq12 × Unit) => some (⟨x.c0, -x.c1⟩ : Fq12)
  | _, _, .new2 => fun ((a, b, _) : Fq × Fq × Unit) => some (⟨a, b⟩ : Fq2)
  | _, _, .new6 => fun ((a, b, e, _) : Fq2 × Fq2 × Fq2 × Unit) => some (⟨a, b, e⟩ : Fq6)
  | _, _, .new12 => fun ((a, b, _) : Fq6 × Fq6 × Unit) => some (⟨a, b⟩ : Fq12)
  | _, _, .coeff2 0 => fun ((x, _) : Fq2 × Unit) => some x.c0
  | _, _, .coeff2 1 => fun ((x, _) : Fq2 × Unit) => some x.c1
  | _, _, .coeff6 0 => fun ((x, _) : Fq6 × Unit) => some x.c0
  | _, _, .coeff6 1 => fun ((x, _) : Fq6 × Unit) => some x.c1
  | _, _, .coeff6 2 => fun ((x, _) : Fq6 × Unit) => some x.c2
  | _, _, .coeff12 0 => fun ((x, _) : Fq12 × Unit) => some x.c0
  | _, _, .coeff12 1 => fun ((x, _) : Fq12 × Unit) => some x.c1
  | _, _, .generator1 => fun _ => some c.G
  | _, _, .infinity1 => fun _ => some (0 : E1)
  | _, _, .add1 => fun ((P, Q, _) : E1 × E1 × Unit) => some (P + Q : E1)
  | _, _, .mixed1 => fun ((P, Q, _) : E1 × E1 × Unit) => some (P + Q : E1)
  | _, _, .neg1 => fun ((P, _) : E1 × Unit) => some (-P : E1)
  | _, _, .double1 => fun ((P, _) : E1 × Unit) => some (P + P : E1)
  | _, _, .affine1 => fun ((P, _) : E1 × Unit) => some P
  | _, _, .mul1 n => fun ((P, _) : E1 × Unit) => some (n.toNat • P : E1)
  | _, _, .mulFR1 n => fun ((P, _) : E1 × Unit) => some (n.toNat • P : E1)
  | _, _, .mulAffine1 n => fun ((P, _) : E1 × Unit) => some (n.toNat • P : E1)
  | _, _, .mulAffineFR1 n => fun ((P, _) : E1 × Unit) => some (n.toNat • P : E1)
  | _, _, .cofactor1 => fun ((P, _) : E1 × Unit) => some (h1 • P : E1)
  | _, _, .point1 => fun ((x, y, _) : Fq × Fq × Unit) =>
    if h : ∃ P : E1, IsAt P x y then some h.choose else none
  | _, _, .fromX1 g => fun ((x, _) : Fq × Unit) =>
    if h : ∃ P : E1, ∃ y, IsAt P x y ∧ (g = true ↔ Fq.Greater y (-y)) then some h.choose else none
  | _, _, .x1 => fun ((P, _) : E1 × Unit) => if h : ∃ x y, IsAt P x y then some h.choose else none
  | _, _, .y1 => fun ((P, _) : E1 × Unit) => if h : ∃ y x, IsAt P x y then some h.choose else none
  | _, _, .generator2 => fun _ => some c.H
  | _, _, .infinity2 => fun _ => some (0 : E2)
  | _, _, .add2 => fun ((P, Q, _) : E2 × E2 × Unit) => some (P + Q : E2)
  | _, _, .mixed2 => fun ((P, Q, _) : E2 × E2 × Unit) => some (P + Q : E2)
  | _, _, .neg2 => fun ((P, _) : E2 × Unit) => some (-P : E2)
  | _, _, .double2 => fun ((P, _) : E2 × Unit) => some (P + P : E2)
  | _, _, .affine2 => fun ((P, _) : E2 × Unit) => some P
  | _, _, .mul2 n => fun ((P, _) : E2 × Unit) => some (n.toNat • P : E2)
  | _, _, .mulFR2 n => fun ((P, _) : E2 × Unit) => some (n.toNat • P : E2)
  | _, _, .mulAffine2 n => fun ((P, _) : E2 × Unit) => some (n.toNat • P : E2)
  | _, _, .mulAffineFR2 n => fun ((P, _) : E2 × Unit) => some (n.toNat • P : E2)
  | _, _, .mulBig2 n => fun ((P, _) : E2 × Unit) => some (n • P : E2)
  | _, _, .cofactor2 => fun ((P, _) : E2 × Unit) => some (h2 • P : E2)
  | _, _, .point2 => fun ((x, y, _) : Fq2 × Fq2 × Unit) =>
    if h : ∃ P : E2, IsAt P x y then some h.choose else none
  | _, _, .fromX2 g => fun ((x, _) : Fq2 × Unit) =>
    if h : ∃ P : E2, ∃ y, IsAt P x y ∧ (g = true ↔ Fq2.Greater y (-y)) then some h.choose else none
  | _, _, .x2 => fun ((P, _) : E2 × Unit) => if h : ∃ x y, IsAt P x y then some h.choose else none
  | _, _, .y2 => fun ((P, _) : E2 × Unit) => if h : ∃ y x, IsAt P x y then some h.choose else none

/-- -1, 0 or 1 as the first number is less than, equal to or greater than the second. -/
def sign (a b : ℕ) : ℤ := if a < b then -1 else if a = b then 0 else 1

open Classical in
/-- Zero, a square or not. -/
noncomputable def symbol {F : Type} [Field F] (x : F) : LegendreSymbol :=
  if x = 0 then .zero else if IsSquare x then .quadraticResidue else .quadraticNonResidue

open Classical in
/-- The comparisons on paper. Elements of Fq are compared as numbers below q; those of Fq2 by the coefficient of u first. -/
noncomputable def paperLook : {d : List Kind} → Look d → Args Paper d → Obs
  | _, .equals k => fun ((x, y, _) : Paper (.fld k) × Paper (.fld k) × Unit) => .bool (decide (x = y))
  | _, .isZero k => fun ((x, _) : Paper (.fld k) × Unit) => .bool (decide (x = 0))
  | _, .toRepr => fun ((x, _) : Fq × Unit) => .int x.val
  | _, .cmp => fun ((x, y, _) : Fq × Fq × Unit) => .int (sign x.val y.val)
  | _, .cmp2 => fun ((x, y, _) : Fq2 × Fq2 × Unit) => .int (if x.c1 = y.c1 then sign x.c0.val y.c0.val
      else sign x.c1.val y.c1.val)
  | _, .parity => fun ((x, _) : Fq × Unit) => .bool (decide (Fq.Greater x (-x : Fq)))
  | _, .parity2 => fun ((x, _) : Fq2 × Unit) => .bool (decide (Fq2.Greater x (-x : Fq2)))
  | _, .legendre => fun ((x, _) : Fq × Unit) => .symbol (symbol x)
  | _, .legendre2 => fun ((x, _) : Fq2 × Unit) => .symbol (symbol x)
  | _, .equals1 => fun ((P, Q, _) : E1 × E1 × Unit) => .bool (decide (P = Q))
  | _, .isZero1 => fun ((P, _) : E1 × Unit) => .bool (decide (P = 0))
  | _, .subgroup1 => fun ((P, _) : E1 × Unit) => .bool (decide (r • P = 0))
  | _, .equals2 => fun ((P, Q, _) : E2 × E2 × Unit) => .bool (decide (P = Q))
  | _, .isZero2 => fun ((P, _) : E2 × Unit) => .bool (decide (P = 0))
  | _, .subgroup2 => fun ((P, _) : E2 × Unit) => .bool (decide (r • P = 0))

/-- Paper. -/
noncomputable def paper (c : Choice) : Machine Paper := ⟨paperOp c, paperLook⟩

/-- A value of the library is canonical and denotes an element or a point. -/
def Denotes : (s : Kind) → Lib s → Paper s → Prop
  | .fld .q => fun (a : FQ) (x : Fq) => a.isValid = true ∧ (a.int : Fq) = x
  | .fld .q2 => fun (a : FQ2) (x : Fq2) => a.isValid = true ∧ a.fld = x
  | .fld .q6 => fun (a : FQ6) (x : Fq6) => a.isValid = true ∧ a.fld = x
  | .fld .q12 => fun (a : FQ12) (x : Fq12) => a.isValid = true ∧ a.fld = x
  | .p1 => fun (g : G1Projective) (P : E1) => g.Denotes P
  | .p2 => fun (g : G2Projective) (P : E2) => g.Denotes P

/-- All variables do. -/
def Denote (v : Vars Lib) (w : Vars Paper) : Prop := ∀ s, List.Forall₂ (Denotes s) (v s) (w s)

end Bls.Calc
