import Verif.Spec.Reduce
/-
Reductions for forgers of distinct-message aggregates, where every key but the attacked one comes with a proof of possession.
-/
namespace Bls

/-- What a forger of an aggregate says of another key, as bytes: the key, the message under it, and a signature of the message
`claim` under it (its proof of possession). -/
structure Claim where
  key : List UInt8
  msg : List UInt8
  claim : List UInt8
  proof : List UInt8

/-- The output of a forger of an aggregate: the keys before and after the attacked one, and the aggregate, as bytes. -/
structure AggForgery where
  before : List Claim
  after : List Claim
  sig : List UInt8

/-- The verifier: all proofs of possession are accepted by `Verify`, and the aggregate is by `VerifyAggregate`, for the attacked
key `pub` with the message `t` among the others. -/
def G1Pubs.AcceptsAggregate (sha : List UInt8 → List UInt8) (pub : G1Pubs.PublicKey) (t : List UInt8) (o : AggForgery) : Prop :=
  (∀ x ∈ o.before ++ o.after, (G1Pubs.deserializePublicKey x.key).bind (fun p =>
    (G1Pubs.deserializeSignature x.proof).bind (G1Pubs.verify sha x.claim p)) = some true) ∧
  ∃ ps ps' s, o.before.mapM (fun x => G1Pubs.deserializePublicKey x.key) = some ps ∧
    o.after.mapM (fun x => G1Pubs.deserializePublicKey x.key) = some ps' ∧ G1Pubs.deserializeSignature o.sig = some s ∧
    s.verifyAggregate sha (ps ++ pub :: ps') (o.before.map (fun x => x.msg) ++ t :: o.after.map fun x => x.msg) = some true

/-- The same in a domain. -/
def G1Pubs.AcceptsAggregateIn (sha : List UInt8 → List UInt8) (d : List UInt8) (pub : G1Pubs.PublicKey) (t : List UInt8)
    (o : AggForgery) : Prop :=
  (∀ x ∈ o.before ++ o.after, (G1Pubs.deserializePublicKey x.key).bind (fun p =>
    (G1Pubs.deserializeSignature x.proof).bind (fun s => G1Pubs.verifyWithDomain sha x.claim p s d)) = some true) ∧
  ∃ ps ps' s, o.before.mapM (fun x => G1Pubs.deserializePublicKey x.key) = some ps ∧
    o.after.mapM (fun x => G1Pubs.deserializePublicKey x.key) = some ps' ∧ G1Pubs.deserializeSignature o.sig = some s ∧
    s.verifyAggregateWithDomain sha (ps ++ pub :: ps') (o.before.map (fun x => x.msg) ++ t :: o.after.map fun x => x.msg) d =
      some true

/-- The part of another key in the aggregate, from its proof of possession: multiplied by the inverse of the scalar of the claim
and by the scalar of the message. -/
def G1Pubs.part (e : List UInt8 → FR) (x : Claim) : Option G1Pubs.Signature :=
  (G1Pubs.deserializeSignature x.proof).bind fun p => (G1Pubs.unblind (e x.claim) p.s.toAffine).map fun u =>
    G1Pubs.newSignatureFromG2 (u.s.toAffine.mulFR (e x.msg).toRepr).toAffine

/-- The reduction: run the forger with the answers made without the key, take the parts of the other keys away from the
aggregate and multiply by the inverse of the scalar of `t`. -/
def G1Pubs.Challenge.solveAggregate (c : G1Pubs.Challenge) (e : List UInt8 → FR) (t : List UInt8)
    (F : Forger G2Affine AggForgery) : Option G2Affine :=
  (F.run (c.hash e t) (c.sign e t)).bind fun o => (G1Pubs.deserializeSignature o.2.sig).bind fun s =>
    ((o.2.before ++ o.2.after).mapM (G1Pubs.part e)).bind fun l =>
      (G1Pubs.unblind (e t) (s.s.add (G1Pubs.aggregateSignatures l).s.toAffine.neg.toProjective).toAffine).map fun u =>
        u.s.toAffine

/-- The verifier: all proofs of possession are accepted by `Verify`, and the aggregate is by `VerifyAggregate`, for the attacked
key `pub` with the message `t` among the others. -/
def G2Pubs.AcceptsAggregate (sha : List UInt8 → List UInt8) (pub : G2Pubs.PublicKey) (t : List UInt8) (o : AggForgery) : Prop :=
  (∀ x ∈ o.before ++ o.after, (G2Pubs.deserializePublicKey x.key).bind (fun p =>
    (G2Pubs.deserializeSignature x.proof).bind (G2Pubs.verify sha x.claim p)) = some true) ∧
  ∃ ps ps' s, o.before.mapM (fun x => G2Pubs.deserializePublicKey x.key) = some ps ∧
    o.after.mapM (fun x => G2Pubs.deserializePublicKey x.key) = some ps' ∧ G2Pubs.deserializeSignature o.sig = some s ∧
    s.verifyAggregate sha (ps ++ pub :: ps') (o.before.map (fun x => x.msg) ++ t :: o.after.map fun x => x.msg) = some true

/-- The part of another key in the aggregate, from its proof of possession: multiplied by the inverse of the scalar of the claim
and by the scalar of the message. -/
def G2Pubs.part (e : List UInt8 → FR) (x : Claim) : Option G2Pubs.Signature :=
  (G2Pubs.deserializeSignature x.proof).bind fun p => (G2Pubs.unblind (e x.claim) p.s.toAffine).map fun u =>
    G2Pubs.newSignatureFromG1 (u.s.toAffine.mulFR (e x.msg).toRepr).toAffine

/-- The reduction: run the forger with the answers made without the key, take the parts of the other keys away from the
aggregate and multiply by the inverse of the scalar of `t`. -/
def G2Pubs.Challenge.solveAggregate (c : G2Pubs.Challenge) (e : List UInt8 → FR) (t : List UInt8)
    (F : Forger G1Affine AggForgery) : Option G1Affine :=
  (F.run (c.hash e t) (c.sign e t)).bind fun o => (G2Pubs.deserializeSignature o.2.sig).bind fun s =>
    ((o.2.before ++ o.2.after).mapM (G2Pubs.part e)).bind fun l =>
      (G2Pubs.unblind (e t) (s.s.add (G2Pubs.aggregateSignatures l).s.toAffine.neg.toProjective).toAffine).map fun u =>
        u.s.toAffine

end Bls
