import Verif.Model.G1Pubs
import Verif.Model.G2Pubs
/-
Key agreement with the library's keys: two parties multiply each other's public point by their own secret, three parties use
one pairing.
-/
namespace Bls

/-- The secret two parties share: the other's public point (`GetPoint`) times the own scalar (`GetFRElement`, `MulFR`),
as an affine point. `none`: the secret key has no scalar, the code panics. -/
def G1Pubs.agree (sk : G1Pubs.SecretKey) (pub : G1Pubs.PublicKey) : Option G1Affine :=
  sk.f.map fun f => (pub.getPoint.mulFR f.toRepr).toAffine

/-- The secret two parties share: the other's public point (`GetPoint`) times the own scalar (`GetFRElement`, `MulFR`),
as an affine point. `none`: the secret key has no scalar, the code panics. -/
def G2Pubs.agree (sk : G2Pubs.SecretKey) (pub : G2Pubs.PublicKey) : Option G2Affine :=
  sk.f.map fun f => (pub.getPoint.mulFR f.toRepr).toAffine

/-- The secret three parties share: the pairing of the public points of the two others, in either group, to the own scalar.
Outer `none`: a panic; inner `none`: a nil result. -/
def agree3 (f : FR) (p : G1Projective) (s : G2Projective) : Option (Option FQ12) :=
  (pairing p s).map fun e => e.map fun e => e.exp f.toRepr.toFQ

/-- The public points of a scalar, in both groups. -/
def publicPoints (f : FR) : G1Projective × G2Projective :=
  (G1Affine.one.mulFR f.toRepr, G2Affine.one.mulFR f.toRepr)

end Bls
