import Verif.Model.G1Pubs
import Verif.Model.G2Pubs
import Verif.Spec.Denote
/-
Blind signatures as users of the library make them: the user multiplies the hash of the message by a random scalar, the
signer multiplies what they get by the key, and the user multiplies the answer by the inverse of the scalar.
-/
namespace Bls

/-- The blinding factors: canonical scalars other than 0. -/
def blindings : Set FR := {f | f.isValid ∧ f.int ≠ 0}

/-- What the user sends: `HashG2(m)` times the blinding factor (`MulFR`). `none`: the hash function panics. -/
def G1Pubs.blind (sha : List UInt8 → List UInt8) (m : List UInt8) (f : FR) : Option G2Affine :=
  (hashG2 sha m).map fun h => (h.mulFR f.toRepr).toAffine

/-- What the signer answers: the point times the key (`GetFRElement`, `MulFR`). -/
def G1Pubs.signBlind (sk : G1Pubs.SecretKey) (b : G2Affine) : Option G2Affine :=
  sk.getFRElement.map fun k => (b.mulFR k.toRepr).toAffine

/-- What the user makes of the answer: the answer times the inverse of the blinding factor (`Inverse`, `MulFR`) as a
signature. `none`: `Inverse` returned nil, or did not return. -/
def G1Pubs.unblind (f : FR) (s : G2Affine) : Option G1Pubs.Signature :=
  f.inverse?.join.map fun i => G1Pubs.newSignatureFromG2 (s.mulFR i.toRepr).toAffine

/-- What the user sends for a signature in a domain: `HashG2WithDomain(m, domain)` times the blinding factor. -/
def G1Pubs.blindWithDomain (sha : List UInt8 → List UInt8) (m : List UInt8) (f : FR) (domain : List UInt8) :
    Option G2Affine :=
  (hashG2WithDomain sha m domain).map fun h => (h.toAffine.mulFR f.toRepr).toAffine

/-- What the user sends: `HashG1(m)` times the blinding factor (`MulFR`). `none`: the hash function panics. -/
def G2Pubs.blind (sha : List UInt8 → List UInt8) (m : List UInt8) (f : FR) : Option G1Affine :=
  (hashG1 sha m).map fun h => (h.mulFR f.toRepr).toAffine

/-- What the signer answers: the point times the key (`GetFRElement`, `MulFR`). -/
def G2Pubs.signBlind (sk : G2Pubs.SecretKey) (b : G1Affine) : Option G1Affine :=
  sk.getFRElement.map fun k => (b.mulFR k.toRepr).toAffine

/-- What the user makes of the answer: the answer times the inverse of the blinding factor (`Inverse`, `MulFR`) as a
signature. `none`: `Inverse` returned nil, or did not return. -/
def G2Pubs.unblind (f : FR) (s : G1Affine) : Option G2Pubs.Signature :=
  f.inverse?.join.map fun i => G2Pubs.newSignatureFromG1 (s.mulFR i.toRepr).toAffine

end Bls
