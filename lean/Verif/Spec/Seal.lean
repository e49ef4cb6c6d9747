import Verif.Model.G1Pubs
import Verif.Model.G2Pubs
import Verif.Spec.Blind
/-
Encryption that the signature of a message opens (identity-based or timelock encryption), as users of the library make it:
the sender derives a mask from the key and the message with a random scalar and sends the scalar times the generator; who
has the signature computes the mask from what was sent.
-/
namespace Bls

/-- What the sender sends: the generator times the scalar (`MulFR`). -/
def G1Pubs.sealPoint (f : FR) : G1Projective := G1Affine.one.mulFR f.toRepr

/-- The mask, by `MulFR` of the key and `Pairing`. Outer `none`: a panic; inner `none`: a nil result. -/
def G1Pubs.sealMask (sha : List UInt8 → List UInt8) (pub : G1Pubs.PublicKey) (m : List UInt8) (f : FR) : Option (Option FQ12) :=
  (hashG2 sha m).bind fun h => pairing (pub.getPoint.mulFR f.toRepr) h.toProjective

/-- The mask, by `Pairing` and `Exp`. -/
def G1Pubs.sealMaskExp (sha : List UInt8 → List UInt8) (pub : G1Pubs.PublicKey) (m : List UInt8) (f : FR) :
    Option (Option FQ12) :=
  (hashG2 sha m).bind fun h => (pairing pub.getPoint h.toProjective).map fun e => e.map fun e => e.exp f.toRepr.toFQ

/-- The mask from what was sent and a signature, by `Pairing`. -/
def G1Pubs.openMask (u : G1Projective) (sig : G1Pubs.Signature) : Option (Option FQ12) := pairing u sig.getPoint

/-- The mask for a message in a domain, by `MulFR` of the key and `Pairing`. -/
def G1Pubs.sealMaskWithDomain (sha : List UInt8 → List UInt8) (pub : G1Pubs.PublicKey) (m d : List UInt8) (f : FR) :
    Option (Option FQ12) :=
  (hashG2WithDomain sha m d).bind fun h => pairing (pub.getPoint.mulFR f.toRepr) h

/-- The mask for a message in a domain, by `Pairing` and `Exp`. -/
def G1Pubs.sealMaskExpWithDomain (sha : List UInt8 → List UInt8) (pub : G1Pubs.PublicKey) (m d : List UInt8) (f : FR) :
    Option (Option FQ12) :=
  (hashG2WithDomain sha m d).bind fun h => (pairing pub.getPoint h).map fun e => e.map fun e => e.exp f.toRepr.toFQ

/-- What the sender sends: the generator times the scalar (`MulFR`). -/
def G2Pubs.sealPoint (f : FR) : G2Projective := G2Affine.one.mulFR f.toRepr

/-- The mask, by `MulFR` of the key and `Pairing`. Outer `none`: a panic; inner `none`: a nil result. -/
def G2Pubs.sealMask (sha : List UInt8 → List UInt8) (pub : G2Pubs.PublicKey) (m : List UInt8) (f : FR) : Option (Option FQ12) :=
  (hashG1 sha m).bind fun h => pairing h.toProjective (pub.getPoint.mulFR f.toRepr)

/-- The mask, by `Pairing` and `Exp`. -/
def G2Pubs.sealMaskExp (sha : List UInt8 → List UInt8) (pub : G2Pubs.PublicKey) (m : List UInt8) (f : FR) :
    Option (Option FQ12) :=
  (hashG1 sha m).bind fun h => (pairing h.toProjective pub.getPoint).map fun e => e.map fun e => e.exp f.toRepr.toFQ

/-- The mask from what was sent and a signature, by `Pairing`. -/
def G2Pubs.openMask (u : G2Projective) (sig : G2Pubs.Signature) : Option (Option FQ12) := pairing sig.getPoint u

end Bls
