import Verif.Spec.Reduce
/-
The reduction for forgers of common-message aggregates that may have messages signed by the attacked key, where every other key
comes with a proof of possession. The messages are divided: `T` holds of those that serve as claims of proofs of possession
and of the message of the forgery.
-/
namespace Bls

/-- What a forger says of another key, as bytes: the key and a signature of the message `claim` under it. -/
structure Possession where
  key : List UInt8
  claim : List UInt8
  proof : List UInt8

/-- The output of a forger of a common-message aggregate: the keys before and after the attacked one, the message and the
aggregate, as bytes. -/
structure CommonForgery where
  before : List Possession
  after : List Possession
  msg : List UInt8
  sig : List UInt8

/-- Answers to the forger made without the key: the hash of `m` is `e m` times Q if `T m`, else `e m` times the generator. -/
def G1Pubs.Challenge.hashOn (c : G1Pubs.Challenge) (e : List UInt8 → FR) (T : List UInt8 → Bool) (m : List UInt8) :
    Option G2Affine :=
  some (((if T m then c.point else G2Affine.one).mulFR (e m).toRepr).toAffine)

/-- The signature of `m` is `e m` times k times the generator. No messages with `T` are signed. -/
def G1Pubs.Challenge.signOn (c : G1Pubs.Challenge) (e : List UInt8 → FR) (T : List UInt8 → Bool) (m : List UInt8) :
    Option (List UInt8) :=
  if T m then none else some (G1Pubs.newSignatureFromG2 (c.key.mulFR (e m).toRepr).toAffine).serialize

/-- The verifier: all proofs of possession are accepted by `Verify`, and the aggregate is by `VerifyAggregateCommon` for the
attacked key `pub` among the others. -/
def G1Pubs.AcceptsCommon (sha : List UInt8 → List UInt8) (pub : G1Pubs.PublicKey) (o : CommonForgery) : Prop :=
  (∀ x ∈ o.before ++ o.after, (G1Pubs.deserializePublicKey x.key).bind (fun p =>
    (G1Pubs.deserializeSignature x.proof).bind (G1Pubs.verify sha x.claim p)) = some true) ∧
  ∃ ps ps' s, o.before.mapM (fun x => G1Pubs.deserializePublicKey x.key) = some ps ∧
    o.after.mapM (fun x => G1Pubs.deserializePublicKey x.key) = some ps' ∧ G1Pubs.deserializeSignature o.sig = some s ∧
    s.verifyAggregateCommon sha (ps ++ pub :: ps') o.msg = some true

/-- The same in a domain. -/
def G1Pubs.AcceptsCommonIn (sha : List UInt8 → List UInt8) (d : List UInt8) (pub : G1Pubs.PublicKey) (o : CommonForgery) : Prop :=
  (∀ x ∈ o.before ++ o.after, (G1Pubs.deserializePublicKey x.key).bind (fun p =>
    (G1Pubs.deserializeSignature x.proof).bind (fun s => G1Pubs.verifyWithDomain sha x.claim p s d)) = some true) ∧
  ∃ ps ps' s, o.before.mapM (fun x => G1Pubs.deserializePublicKey x.key) = some ps ∧
    o.after.mapM (fun x => G1Pubs.deserializePublicKey x.key) = some ps' ∧ G1Pubs.deserializeSignature o.sig = some s ∧
    s.verifyAggregateCommonWithDomain sha (ps ++ pub :: ps') o.msg d = some true

/-- The reduction: run the forger with these answers and use `solveCommon` on what it gives. -/
def G1Pubs.Challenge.solveForgedCommon (c : G1Pubs.Challenge) (e : List UInt8 → FR) (T : List UInt8 → Bool)
    (F : Forger G2Affine CommonForgery) : Option G2Affine :=
  (F.run (c.hashOn e T) (c.signOn e T)).bind fun o => (G1Pubs.deserializeSignature o.2.sig).bind fun s =>
    ((o.2.before ++ o.2.after).mapM fun x => (G1Pubs.deserializeSignature x.proof).map fun p => (e x.claim, p)).bind fun l =>
      G1Pubs.solveCommon (e o.2.msg) s l

/-- Answers to the forger made without the key: the hash of `m` is `e m` times Q if `T m`, else `e m` times the generator. -/
def G2Pubs.Challenge.hashOn (c : G2Pubs.Challenge) (e : List UInt8 → FR) (T : List UInt8 → Bool) (m : List UInt8) :
    Option G1Affine :=
  some (((if T m then c.point else G1Affine.one).mulFR (e m).toRepr).toAffine)

/-- The signature of `m` is `e m` times k times the generator. No messages with `T` are signed. -/
def G2Pubs.Challenge.signOn (c : G2Pubs.Challenge) (e : List UInt8 → FR) (T : List UInt8 → Bool) (m : List UInt8) :
    Option (List UInt8) :=
  if T m then none else some (G2Pubs.newSignatureFromG1 (c.key.mulFR (e m).toRepr).toAffine).serialize

/-- The verifier: all proofs of possession are accepted by `Verify`, and the aggregate is by `VerifyAggregateCommon` for the
attacked key `pub` among the others. -/
def G2Pubs.AcceptsCommon (sha : List UInt8 → List UInt8) (pub : G2Pubs.PublicKey) (o : CommonForgery) : Prop :=
  (∀ x ∈ o.before ++ o.after, (G2Pubs.deserializePublicKey x.key).bind (fun p =>
    (G2Pubs.deserializeSignature x.proof).bind (G2Pubs.verify sha x.claim p)) = some true) ∧
  ∃ ps ps' s, o.before.mapM (fun x => G2Pubs.deserializePublicKey x.key) = some ps ∧
    o.after.mapM (fun x => G2Pubs.deserializePublicKey x.key) = some ps' ∧ G2Pubs.deserializeSignature o.sig = some s ∧
    s.verifyAggregateCommon sha (ps ++ pub :: ps') o.msg = some true

/-- The reduction: run the forger with these answers and use `solveCommon` on what it gives. -/
def G2Pubs.Challenge.solveForgedCommon (c : G2Pubs.Challenge) (e : List UInt8 → FR) (T : List UInt8 → Bool)
    (F : Forger G1Affine CommonForgery) : Option G1Affine :=
  (F.run (c.hashOn e T) (c.signOn e T)).bind fun o => (G2Pubs.deserializeSignature o.2.sig).bind fun s =>
    ((o.2.before ++ o.2.after).mapM fun x => (G2Pubs.deserializeSignature x.proof).map fun p => (e x.claim, p)).bind fun l =>
      G2Pubs.solveCommon (e o.2.msg) s l

end Bls
