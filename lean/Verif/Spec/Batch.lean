import Verif.Spec.Threshold
import Verif.Spec.Denote
/-
Checking many signatures at once with random weights, as users of the library do it.
-/
namespace Bls

/-- The lists of `n` canonical scalars other than 0. -/
def weights (n : Nat) : Set (List FR) := {ws | ws.length = n ∧ ∀ w ∈ ws, w.isValid ∧ w.int ≠ 0}

/-- Signatures of different messages with a weight for each: keys and signatures are multiplied by the weights (`MulFR`),
the signatures are aggregated, and `VerifyAggregate` checks the result. -/
def G1Pubs.verifyWeighted (sha : List UInt8 → List UInt8)
    (batch : List (FR × G1Pubs.PublicKey × List UInt8 × G1Pubs.Signature)) : Option Bool :=
  (G1Pubs.aggregateSignatures (batch.map fun b =>
      G1Pubs.newSignatureFromG2 (b.2.2.2.getPoint.mulFR b.1.toRepr).toAffine)).verifyAggregate sha
    (batch.map fun b => G1Pubs.newPublicKeyFromG1 (b.2.1.getPoint.mulFR b.1.toRepr).toAffine)
    (batch.map fun b => b.2.2.1)

/-- Signatures of different messages with a weight for each: keys and signatures are multiplied by the weights (`MulFR`),
the signatures are aggregated, and `VerifyAggregate` checks the result. -/
def G2Pubs.verifyWeighted (sha : List UInt8 → List UInt8)
    (batch : List (FR × G2Pubs.PublicKey × List UInt8 × G2Pubs.Signature)) : Option Bool :=
  (G2Pubs.aggregateSignatures (batch.map fun b =>
      G2Pubs.newSignatureFromG1 (b.2.2.2.getPoint.mulFR b.1.toRepr).toAffine)).verifyAggregate sha
    (batch.map fun b => G2Pubs.newPublicKeyFromG2 (b.2.1.getPoint.mulFR b.1.toRepr).toAffine)
    (batch.map fun b => b.2.2.1)

/-- The same with a domain, by `VerifyAggregateWithDomain`. -/
def G1Pubs.verifyWeightedWithDomain (sha : List UInt8 → List UInt8)
    (batch : List (FR × G1Pubs.PublicKey × List UInt8 × G1Pubs.Signature)) (domain : List UInt8) : Option Bool :=
  (G1Pubs.aggregateSignatures (batch.map fun b =>
      G1Pubs.newSignatureFromG2 (b.2.2.2.getPoint.mulFR b.1.toRepr).toAffine)).verifyAggregateWithDomain sha
    (batch.map fun b => G1Pubs.newPublicKeyFromG1 (b.2.1.getPoint.mulFR b.1.toRepr).toAffine)
    (batch.map fun b => b.2.2.1) domain

end Bls
