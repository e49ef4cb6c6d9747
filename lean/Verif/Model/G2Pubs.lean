import Verif.Model.Hash
import Verif.Model.Pairing
import Verif.Model.SortBytes
/-
Model of g2pubs/bls.go: keys in G2, signatures in G1. SHA-256 is the parameter `sha`. `none` is a panic, unless
said otherwise. Receivers changed in place are returned (aliasing is in Verif/Model/Heap.lean). Not modelled:
`concatAppend` (unused, g2pubs/bls.go:76-82).
-/
namespace Bls.G2Pubs

/-- `Signature`, g2pubs/bls.go:13-15. -/
structure Signature where
  s : G1Projective

/-- `PublicKey`, g2pubs/bls.go:53-55. -/
structure PublicKey where
  p : G2Projective

/-- `SecretKey`, g2pubs/bls.go:101-103; `none` is a nil pointer. -/
structure SecretKey where
  f : Option FR

/-- `Serialize`, g2pubs/bls.go:18-20. -/
def Signature.serialize (s : Signature) : List UInt8 := s.s.toAffine.compress

/-- `NewSignatureFromG1`, g2pubs/bls.go:28-30. -/
def newSignatureFromG1 (g1 : G1Affine) : Signature := ⟨g1.toProjective⟩

/-- `DeserializeSignature`, g2pubs/bls.go:33-40; `none` is a returned error. -/
def deserializeSignature (b : List UInt8) : Option Signature :=
  (G1Affine.decompress b).map fun a => ⟨a.toProjective⟩

/-- `Copy`, g2pubs/bls.go:43-45. -/
def Signature.copy (s : Signature) : Signature := s

/-- `GetPoint`, g2pubs/bls.go:48-50. -/
def Signature.getPoint (s : Signature) : G1Projective := s.s

/-- `GetPoint`, g2pubs/bls.go:58-60. -/
def PublicKey.getPoint (p : PublicKey) : G2Projective := p.p

/-- `Serialize`, g2pubs/bls.go:67-69. -/
def PublicKey.serialize (p : PublicKey) : List UInt8 := p.p.toAffine.compress

/-- `NewPublicKeyFromG2`, g2pubs/bls.go:72-74. -/
def newPublicKeyFromG2 (g2 : G2Affine) : PublicKey := ⟨g2.toProjective⟩

/-- `Equals`, g2pubs/bls.go:85-87. -/
def PublicKey.equals (p other : PublicKey) : Bool := p.p.equals other.p

/-- `DeserializePublicKey`, g2pubs/bls.go:91-98; `none` is a returned error. -/
def deserializePublicKey (b : List UInt8) : Option PublicKey :=
  (G2Affine.decompress b).map fun a => ⟨a.toProjective⟩

/-- `GetFRElement`, g2pubs/bls.go:106-108. -/
def SecretKey.getFRElement (s : SecretKey) : Option FR := s.f

/-- `Serialize`, g2pubs/bls.go:115-117. -/
def SecretKey.serialize (s : SecretKey) : Option (List UInt8) := s.f.map FR.bytes

/-- `DeserializeSecretKey`, g2pubs/bls.go:121-123. -/
def deserializeSecretKey (b : List UInt8) : SecretKey := ⟨FR.ofRepr? (FRRepr.fromBytes b)⟩

/-- `DeriveSecretKey`, g2pubs/bls.go:127-129. -/
def deriveSecretKey (sha : List UInt8 → List UInt8) (b : List UInt8) : Option SecretKey :=
  (hashSecretKey sha b).map fun f => ⟨f⟩

/-- `Sign`, g2pubs/bls.go:132-135. -/
def sign (sha : List UInt8 → List UInt8) (message : List UInt8) (key : SecretKey) : Option Signature :=
  (hashG1 sha message).bind fun h => key.f.map fun f => ⟨h.mulFR f.toRepr⟩

/-- `PrivToPub`, g2pubs/bls.go:138-140. -/
def privToPub (k : SecretKey) : Option PublicKey := k.f.map fun f => ⟨G2Affine.one.mulFR f.toRepr⟩

/-- `KeyFromFQRepr`, g2pubs/bls.go:154-156. -/
def keyFromFQRepr (i : FRRepr) : SecretKey := ⟨FR.ofRepr? i⟩

/-- `Verify`, g2pubs/bls.go:159-162. -/
def verify (sha : List UInt8 → List UInt8) (m : List UInt8) (pub : PublicKey) (sig : Signature) : Option Bool :=
  (hashG1 sha m).bind fun h => compareTwoPairings sig.s G2Projective.one h.toProjective pub.p

/-- `NewAggregateSignature`, g2pubs/bls.go:200-202. -/
def newAggregateSignature : Signature := ⟨G1Projective.zero⟩

/-- `NewAggregatePubkey`, g2pubs/bls.go:205-207. -/
def newAggregatePubkey : PublicKey := ⟨G2Projective.zero⟩

/-- `Aggregate`, g2pubs/bls.go:174-177: the receiver after the call. -/
def Signature.aggregate (s other : Signature) : Signature := ⟨s.s.add other.s⟩

/-- `AggregateSignatures`, g2pubs/bls.go:165-171. -/
def aggregateSignatures (s : List Signature) : Signature := s.foldl Signature.aggregate ⟨G1Projective.zero⟩

/-- `Aggregate`, g2pubs/bls.go:189-192: the receiver after the call. -/
def PublicKey.aggregate (p other : PublicKey) : PublicKey := ⟨p.p.add other.p⟩

/-- `AggregatePublicKeys`, g2pubs/bls.go:180-186. -/
def aggregatePublicKeys (p : List PublicKey) : PublicKey := p.foldl PublicKey.aggregate ⟨G2Projective.zero⟩

/-- `Copy`, g2pubs/bls.go:195-197. -/
def PublicKey.copy (p : PublicKey) : PublicKey := p

/-- The product loop of `VerifyAggregate`, g2pubs/bls.go:264-268. `Pairing` returning nil makes `MulAssign` panic. -/
def pairingProduct (sha : List UInt8 → List UInt8) : List PublicKey → List (List UInt8) → FQ12 → Option FQ12
  | pk :: pks, m :: ms, rhs =>
    (hashG1 sha m).bind fun h =>
    (pairing h.toProjective pk.p).join.bind fun e => pairingProduct sha pks ms (rhs.mul e)
  | _, _, rhs => some rhs

/-- `VerifyAggregate`, g2pubs/bls.go:240-270. -/
def Signature.verifyAggregate (sha : List UInt8 → List UInt8) (s : Signature) (pubKeys : List PublicKey)
    (msgs : List (List UInt8)) : Option Bool :=
  if pubKeys.length != msgs.length then some false
  else if !noRepeat [] (sortByteArrays msgs) then some false
  else
    (pairing s.s G2Projective.one).bind fun lhs =>
    (pairingProduct sha pubKeys msgs FQ12.one).bind fun rhs => lhs.map fun l => l.equals rhs

/-- `VerifyAggregateCommon`, g2pubs/bls.go:275-278. -/
def Signature.verifyAggregateCommon (sha : List UInt8 → List UInt8) (s : Signature) (pubKeys : List PublicKey)
    (msg : List UInt8) : Option Bool := verify sha msg (aggregatePublicKeys pubKeys) s

end Bls.G2Pubs
