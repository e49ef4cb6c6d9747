import Verif.Spec.Threshold
/-
Verifiable sharing and distributed key generation as users of the library do them, on top of Verif/Spec/Threshold.lean.
-/
namespace Bls

/-- The sum of scalars (`AddAssign` of FR). -/
def sumScalars (l : List FR) : FR := l.foldl FR.add FR.zero

/-- The key of the party with the index `x` when several dealers share secrets: the sum of the shares it receives. A dealer
is a secret and the other coefficients of its polynomial. -/
def dealtKey (dealers : List (FR × List FR)) (x : FR) : FR := sumScalars (dealers.map fun d => shareAt x (d.1 :: d.2))

/-- The public key of the share of the party `x`, from the dealer's commitments alone: the public keys of the coefficients,
the secret's first (`MulFR` and `AggregatePublicKeys`, Horner's rule). -/
def G1Pubs.committedAt (x : FR) : List G1Pubs.PublicKey → G1Pubs.PublicKey
  | [] => G1Pubs.newAggregatePubkey
  | C :: Cs => G1Pubs.aggregatePublicKeys
      [G1Pubs.newPublicKeyFromG1 ((G1Pubs.committedAt x Cs).getPoint.mulFR x.toRepr).toAffine, C]

/-- The public key of the share of the party `x`, from the dealer's commitments alone: the public keys of the coefficients,
the secret's first (`MulFR` and `AggregatePublicKeys`, Horner's rule). -/
def G2Pubs.committedAt (x : FR) : List G2Pubs.PublicKey → G2Pubs.PublicKey
  | [] => G2Pubs.newAggregatePubkey
  | C :: Cs => G2Pubs.aggregatePublicKeys
      [G2Pubs.newPublicKeyFromG2 ((G2Pubs.committedAt x Cs).getPoint.mulFR x.toRepr).toAffine, C]

end Bls
