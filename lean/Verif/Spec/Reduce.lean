import Verif.Spec.Blind
import Verif.Spec.Keys
/-
Reductions: programs that turn a forger into a program that solves the Diffie-Hellman problem, using only functions of the
library. The problem: from k times the generator and a point Q, compute k times Q.
-/
namespace Bls

/-- A forger: a program that asks for hashes and for signatures of messages, which it chooses by the answers, and ends with
some output. `α` is the type of points, `ω` that of outputs. -/
inductive Forger (α ω : Type) where
  | hash (m : List UInt8) (next : α → Forger α ω)
  | sign (m : List UInt8) (next : List UInt8 → Forger α ω)
  | forge (o : ω)

/-- What comes of it: the messages it has had signed and its output. `none`: an answer was refused. -/
def Forger.run {α ω : Type} (hash : List UInt8 → Option α) (sign : List UInt8 → Option (List UInt8)) :
    Forger α ω → Option (List (List UInt8) × ω)
  | .hash m next => (hash m).bind fun h => (next h).run hash sign
  | .sign m next => (sign m).bind fun s => ((next s).run hash sign).map fun o => (m :: o.1, o.2)
  | .forge o => some ([], o)

/-- The output of a forger of a signature: a message and a signature, as bytes. -/
abbrev Forgery := List UInt8 × List UInt8

/-- The problem: `key` is k times the generator of the group of signatures, `point` is Q. -/
structure G1Pubs.Challenge where
  key : G2Affine
  point : G2Affine

/-- Answers to the forger made without the key: the hash of `m` is `e m` times the generator (`MulFR`), but that of the message `t`
is `e t` times Q. -/
def G1Pubs.Challenge.hash (c : G1Pubs.Challenge) (e : List UInt8 → FR) (t m : List UInt8) : Option G2Affine :=
  some (((if m = t then c.point else G2Affine.one).mulFR (e m).toRepr).toAffine)

/-- The signature of `m` is `e m` times k times the generator. `t` is not signed. -/
def G1Pubs.Challenge.sign (c : G1Pubs.Challenge) (e : List UInt8 → FR) (t m : List UInt8) : Option (List UInt8) :=
  if m = t then none else some (G1Pubs.newSignatureFromG2 (c.key.mulFR (e m).toRepr).toAffine).serialize

/-- The reduction: run the forger with these answers and, if it forges a signature of `t`, multiply that by the inverse of
`e t` (`Inverse`, `MulFR`). -/
def G1Pubs.Challenge.solve (c : G1Pubs.Challenge) (e : List UInt8 → FR) (t : List UInt8) (F : Forger G2Affine Forgery) :
    Option G2Affine :=
  (F.run (c.hash e t) (c.sign e t)).bind fun o => if o.2.1 = t then
    (G1Pubs.deserializeSignature o.2.2).bind fun s => (G1Pubs.unblind (e t) s.s.toAffine).map fun u => u.s.toAffine else none

/-- The reduction for common-message aggregates with proofs of possession: from the aggregate take away the proofs of
possession, each multiplied by the inverse of its scalar. -/
def G1Pubs.solveCommon (e : FR) (agg : G1Pubs.Signature) (proofs : List (FR × G1Pubs.Signature)) : Option G2Affine :=
  (G1Pubs.unblind e agg.s.toAffine).bind fun a => (proofs.mapM fun p => G1Pubs.unblind p.1 p.2.s.toAffine).map fun l =>
    (a.s.add (G1Pubs.aggregateSignatures l).s.toAffine.neg.toProjective).toAffine

/-- The problem: `key` is k times the generator of the group of signatures, `point` is Q. -/
structure G2Pubs.Challenge where
  key : G1Affine
  point : G1Affine

/-- Answers to the forger made without the key: the hash of `m` is `e m` times the generator (`MulFR`), but that of the message `t`
is `e t` times Q. -/
def G2Pubs.Challenge.hash (c : G2Pubs.Challenge) (e : List UInt8 → FR) (t m : List UInt8) : Option G1Affine :=
  some (((if m = t then c.point else G1Affine.one).mulFR (e m).toRepr).toAffine)

/-- The signature of `m` is `e m` times k times the generator. `t` is not signed. -/
def G2Pubs.Challenge.sign (c : G2Pubs.Challenge) (e : List UInt8 → FR) (t m : List UInt8) : Option (List UInt8) :=
  if m = t then none else some (G2Pubs.newSignatureFromG1 (c.key.mulFR (e m).toRepr).toAffine).serialize

/-- The reduction: run the forger with these answers and, if it forges a signature of `t`, multiply that by the inverse of
`e t` (`Inverse`, `MulFR`). -/
def G2Pubs.Challenge.solve (c : G2Pubs.Challenge) (e : List UInt8 → FR) (t : List UInt8) (F : Forger G1Affine Forgery) :
    Option G1Affine :=
  (F.run (c.hash e t) (c.sign e t)).bind fun o => if o.2.1 = t then
    (G2Pubs.deserializeSignature o.2.2).bind fun s => (G2Pubs.unblind (e t) s.s.toAffine).map fun u => u.s.toAffine else none

/-- The reduction for common-message aggregates with proofs of possession: from the aggregate take away the proofs of
possession, each multiplied by the inverse of its scalar. -/
def G2Pubs.solveCommon (e : FR) (agg : G2Pubs.Signature) (proofs : List (FR × G2Pubs.Signature)) : Option G1Affine :=
  (G2Pubs.unblind e agg.s.toAffine).bind fun a => (proofs.mapM fun p => G2Pubs.unblind p.1 p.2.s.toAffine).map fun l =>
    (a.s.add (G2Pubs.aggregateSignatures l).s.toAffine.neg.toProjective).toAffine

end Bls
