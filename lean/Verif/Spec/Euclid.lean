import Mathlib.Data.Nat.Notation
import Verif.Model.FQ
import Verif.Model.FR
import Verif.Model.G1
/-
The sequence of halvings and subtractions that an inversion makes, which determines its running time and what an observer of
the instruction cache sees, and what can be computed from it.
-/
namespace Bls

/-- One round of the outer loop: how often u is halved, how often v, and whether v is subtracted from u (or u from v). -/
structure Euclid.Round where
  halvedU : ℕ
  halvedV : ℕ
  fromU : Bool

/-- The rounds, and whether the loop ends with u = 1 (or with v = 1). -/
structure Euclid where
  rounds : List Euclid.Round
  endU : Bool

namespace Euclid

/-- One more round, before the others. -/
def cons (s : Round) (l : Euclid) : Euclid := ⟨s :: l.rounds, l.endU⟩

/-- The number of halvings. -/
def halvings (l : Euclid) : ℕ := (l.rounds.map fun s => s.halvedU + s.halvedV).sum

/-- u and v before the rounds as a + b·w and c + d·w, where w is the number that is not 1 at the end. -/
def forms (endU : Bool) : List Round → (ℕ × ℕ) × (ℕ × ℕ)
  | [] => if endU then ((1, 0), (0, 1)) else ((0, 1), (1, 0))
  | s :: l =>
    let o := forms endU l
    let u := if s.fromU then (o.1.1 + o.2.1, o.1.2 + o.2.2) else o.1
    let v := if s.fromU then o.2 else (o.1.1 + o.2.1, o.1.2 + o.2.2)
    ((2 ^ s.halvedU * u.1, 2 ^ s.halvedU * u.2), (2 ^ s.halvedV * v.1, 2 ^ s.halvedV * v.2))

/-- What an observer who knows m computes: m is c + d·w, and this gives w and so u. -/
def observed (m : ℕ) (l : Euclid) : ℕ :=
  let o := forms l.endU l.rounds
  o.1.1 + o.1.2 * ((m - o.2.1) / o.2.2)

end Euclid

namespace FQ

/-- An inner loop of `Inverse`, fq.go:224-266, and the number of its halvings (`halveLoop`). -/
def halveLogged : (fuel : ℕ) → (u b : FQRepr) → Option (FQRepr × FQRepr × ℕ)
  | 0, _, _ => none
  | fuel + 1, u, b =>
    if u.isEven then
      (halveLogged fuel u.div2 (if b.isEven then b.div2 else (b.addNoCarry qFieldModulus).div2)).map
        fun o => (o.1, o.2.1, o.2.2 + 1)
    else some (u, b, 0)

/-- The outer loop of `Inverse`, fq.go:224-266, with a log (`inverseLoop`). -/
def inverseLoopLogged : (fuel : ℕ) → (u v : FQRepr) → (b c : FQ) → Option (FQ × Euclid)
  | 0, _, _, _, _ => none
  | fuel + 1, u, v, b, c =>
    if u.cmp bigOne ≠ 0 ∧ v.cmp bigOne ≠ 0 then
      (halveLogged 385 u b.n).bind fun x => (halveLogged 385 v c.n).bind fun y =>
        if x.1.cmp y.1 ≥ 0 then
          (inverseLoopLogged fuel (x.1.subNoBorrow y.1) y.1 ((⟨x.2.1⟩ : FQ).sub ⟨y.2.1⟩) ⟨y.2.1⟩).map
            fun o => (o.1, o.2.cons ⟨x.2.2, y.2.2, true⟩)
        else (inverseLoopLogged fuel x.1 (y.1.subNoBorrow x.1) ⟨x.2.1⟩ ((⟨y.2.1⟩ : FQ).sub ⟨x.2.1⟩)).map
            fun o => (o.1, o.2.cons ⟨x.2.2, y.2.2, false⟩)
    else if u.cmp bigOne = 0 then some (b, ⟨[], true⟩)
    else some (c, ⟨[], false⟩)

/-- `Inverse`, fq.go:224-266, of an element other than zero, with a log. -/
def inverseLogged (f : FQ) : Option (FQ × Euclid) :=
  inverseLoopLogged 770 f.n qFieldModulus (ofReprRaw fqR2) zero

end FQ

namespace FR

/-- An inner loop of `Inverse`, fr.go:219-262, and the number of its halvings (`halveLoop`). -/
def halveLogged : (fuel : ℕ) → (u b : FRRepr) → Option (FRRepr × FRRepr × ℕ)
  | 0, _, _ => none
  | fuel + 1, u, b =>
    if u.isEven then
      (halveLogged fuel u.div2 (if b.isEven then b.div2 else (b.addNoCarry rFieldModulus).div2)).map
        fun o => (o.1, o.2.1, o.2.2 + 1)
    else some (u, b, 0)

/-- The outer loop of `Inverse`, fr.go:219-262, with a log (`inverseLoop`). -/
def inverseLoopLogged : (fuel : ℕ) → (u v : FRRepr) → (b c : FR) → Option (FR × Euclid)
  | 0, _, _, _, _ => none
  | fuel + 1, u, v, b, c =>
    if u.cmp (.new 1) ≠ 0 ∧ v.cmp (.new 1) ≠ 0 then
      (halveLogged 257 u b.n).bind fun x => (halveLogged 257 v c.n).bind fun y =>
        if x.1.cmp y.1 ≥ 0 then
          (inverseLoopLogged fuel (x.1.subNoBorrow y.1) y.1 ((⟨x.2.1⟩ : FR).sub ⟨y.2.1⟩) ⟨y.2.1⟩).map
            fun o => (o.1, o.2.cons ⟨x.2.2, y.2.2, true⟩)
        else (inverseLoopLogged fuel x.1 (y.1.subNoBorrow x.1) ⟨x.2.1⟩ ((⟨y.2.1⟩ : FR).sub ⟨x.2.1⟩)).map
            fun o => (o.1, o.2.cons ⟨x.2.2, y.2.2, false⟩)
    else if u.equals (.new 1) then some (b, ⟨[], true⟩)
    else some (c, ⟨[], false⟩)

/-- `Inverse`, fr.go:219-262, of an element other than zero, with a log. -/
def inverseLogged (f : FR) : Option (FR × Euclid) :=
  inverseLoopLogged 520 f.n rFieldModulus ⟨frR2⟩ zero

end FR

/-- `ToAffine`, g1.go:322-340, with the log of the inversion. -/
def G1Projective.toAffineLogged (g : G1Projective) : Option (G1Affine × Option Euclid) :=
  if g.isZero then some (G1Affine.zero, none)
  else if g.z.isZero then some (.new g.x g.y, none)
  else g.z.inverseLogged.map fun t => (.new (g.x.mul t.1.square) ((g.y.mul t.1.square).mul t.1), some t.2)

end Bls
