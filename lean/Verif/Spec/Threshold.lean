import Verif.Model.G1Pubs
import Verif.Model.G2Pubs
import Mathlib.Data.Set.Defs
/-
Threshold signing as users of the library do it: a dealer shares a secret key with a polynomial over the scalars, the
parties sign with their shares, and anybody combines the signatures or public keys of enough parties.
-/
namespace Bls

/-- The lists of `n` canonical scalars. -/
def coefficients (n : Nat) : Set (List FR) := {cs | cs.length = n ∧ ∀ d ∈ cs, d.isValid}

/-- The share of the party with the index `x` (`MulAssign` and `AddAssign` of FR, Horner's rule): the value at `x` of
the polynomial with these coefficients, the secret first. -/
def shareAt (x : FR) : List FR → FR
  | [] => FR.zero
  | c :: cs => ((shareAt x cs).mul x).add c

/-- The weight of the party `x` among the parties in the list (`Equals`, `SubAssign`, `Inverse` and `MulAssign` of FR):
the product of `o / (o - x)` over the other parties `o`. `none`: `Inverse` returned nil, or did not return. -/
def lagrangeWeight (x : FR) : List FR → Option FR
  | [] => some FR.one
  | o :: os =>
    if o.equals x then lagrangeWeight x os
    else (o.sub x).inverse?.join.bind fun d => (lagrangeWeight x os).map fun w => (w.mul o).mul d

/-- The secret from the parties' indices and shares. -/
def combineShares (parts : List (FR × FR)) : Option FR :=
  (parts.mapM fun p => (lagrangeWeight p.1 (parts.map Prod.fst)).map fun w => w.mul p.2).map fun l =>
    l.foldl FR.add FR.zero

/-- A scalar as a secret key. -/
def G1Pubs.keyOf (f : FR) : G1Pubs.SecretKey := G1Pubs.keyFromFQRepr f.toRepr

/-- A signature from the parties' indices and signatures. -/
def G1Pubs.combineSignatures (parts : List (FR × G1Pubs.Signature)) : Option G1Pubs.Signature :=
  (parts.mapM fun p => (lagrangeWeight p.1 (parts.map Prod.fst)).map fun w =>
    G1Pubs.newSignatureFromG2 (p.2.getPoint.mulFR w.toRepr).toAffine).map G1Pubs.aggregateSignatures

/-- A public key from the parties' indices and public keys. -/
def G1Pubs.combineKeys (parts : List (FR × G1Pubs.PublicKey)) : Option G1Pubs.PublicKey :=
  (parts.mapM fun p => (lagrangeWeight p.1 (parts.map Prod.fst)).map fun w =>
    G1Pubs.newPublicKeyFromG1 (p.2.getPoint.mulFR w.toRepr).toAffine).map G1Pubs.aggregatePublicKeys

/-- A scalar as a secret key. -/
def G2Pubs.keyOf (f : FR) : G2Pubs.SecretKey := G2Pubs.keyFromFQRepr f.toRepr

/-- A signature from the parties' indices and signatures. -/
def G2Pubs.combineSignatures (parts : List (FR × G2Pubs.Signature)) : Option G2Pubs.Signature :=
  (parts.mapM fun p => (lagrangeWeight p.1 (parts.map Prod.fst)).map fun w =>
    G2Pubs.newSignatureFromG1 (p.2.getPoint.mulFR w.toRepr).toAffine).map G2Pubs.aggregateSignatures

/-- A public key from the parties' indices and public keys. -/
def G2Pubs.combineKeys (parts : List (FR × G2Pubs.PublicKey)) : Option G2Pubs.PublicKey :=
  (parts.mapM fun p => (lagrangeWeight p.1 (parts.map Prod.fst)).map fun w =>
    G2Pubs.newPublicKeyFromG2 (p.2.getPoint.mulFR w.toRepr).toAffine).map G2Pubs.aggregatePublicKeys

end Bls
