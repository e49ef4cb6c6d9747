import Verif.Model.Hash
import Verif.Model.Pairing
import Verif.Model.SortBytes
/-
Model of g1pubs/bls.go: keys in G1, signatures in G2. SHA-256 is the parameter `sha`. `none` is a panic, unless
said otherwise. Receivers changed in place are returned (aliasing is in Verif/Model/Heap.lean). Not modelled:
`concatAppend` (unused, g1pubs/bls.go:76-82).
-/
namespace Bls.G1Pubs

/-- `Signature`, g1pubs/bls.go:13-15. -/
structure Signature where
  s : G2Projective

/-- `PublicKey`, g1pubs/bls.go:53-55. -/
structure PublicKey where
  p : G1Projective

/-- `SecretKey`, g1pubs/bls.go:101-103; `none` is a nil pointer. -/
structure SecretKey where
  f : Option FR

/-- `Serialize`, g1pubs/bls.go:18-20. -/
def Signature.serialize (s : Signature) : List UInt8 := s.s.toAffine.compress

/-- `GetPoint`, g1pubs/bls.go:27-29. -/
def Signature.getPoint (s : Signature) : G2Projective := s.s

/-- `NewSignatureFromG2`, g1pubs/bls.go:33-35. -/
def newSignatureFromG2 (g2 : G2Affine) : Signature := ⟨g2.toProjective⟩

/-- `DeserializeSignature`, g1pubs/bls.go:38-45; `none` is a returned error. -/
def deserializeSignature (b : List UInt8) : Option Signature :=
  (G2Affine.decompress b).map fun a => ⟨a.toProjective⟩

/-- `Copy`, g1pubs/bls.go:48-50. -/
def Signature.copy (s : Signature) : Signature := s

/-- `GetPoint`, g1pubs/bls.go:62-64. -/
def PublicKey.getPoint (p : PublicKey) : G1Projective := p.p

/-- `Serialize`, g1pubs/bls.go:67-69. -/
def PublicKey.serialize (p : PublicKey) : List UInt8 := p.p.toAffine.compress

/-- `NewPublicKeyFromG1`, g1pubs/bls.go:72-74. -/
def newPublicKeyFromG1 (g1 : G1Affine) : PublicKey := ⟨g1.toProjective⟩

/-- `Equals`, g1pubs/bls.go:85-87. -/
def PublicKey.equals (p other : PublicKey) : Bool := p.p.equal other.p

/-- `DeserializePublicKey`, g1pubs/bls.go:91-98; `none` is a returned error. -/
def deserializePublicKey (b : List UInt8) : Option PublicKey :=
  (G1Affine.decompress b).map fun a => ⟨a.toProjective⟩

/-- `GetFRElement`, g1pubs/bls.go:106-108. -/
def SecretKey.getFRElement (s : SecretKey) : Option FR := s.f

/-- `Serialize`, g1pubs/bls.go:115-117. -/
def SecretKey.serialize (s : SecretKey) : Option (List UInt8) := s.f.map FR.bytes

/-- `DeserializeSecretKey`, g1pubs/bls.go:121-123. -/
def deserializeSecretKey (b : List UInt8) : SecretKey := ⟨FR.ofRepr? (FRRepr.fromBytes b)⟩

/-- `DeriveSecretKey`, g1pubs/bls.go:127-129. -/
def deriveSecretKey (sha : List UInt8 → List UInt8) (b : List UInt8) : Option SecretKey :=
  (hashSecretKey sha b).map fun f => ⟨f⟩

/-- `Sign`, g1pubs/bls.go:132-135. -/
def sign (sha : List UInt8 → List UInt8) (message : List UInt8) (key : SecretKey) : Option Signature :=
  (hashG2 sha message).bind fun h => key.f.map fun f => ⟨h.mulFR f.toRepr⟩

/-- `SignWithDomain`, g1pubs/bls.go:138-141. -/
def signWithDomain (sha : List UInt8 → List UInt8) (message : List UInt8) (key : SecretKey) (domain : List UInt8) :
    Option Signature :=
  (hashG2WithDomain sha message domain).bind fun h => key.f.map fun f => ⟨h.mulFR f.toRepr⟩

/-- `PrivToPub`, g1pubs/bls.go:144-146. -/
def privToPub (k : SecretKey) : Option PublicKey := k.f.map fun f => ⟨G1Affine.one.mulFR f.toRepr⟩

/-- `KeyFromFQRepr`, g1pubs/bls.go:160-162. -/
def keyFromFQRepr (i : FRRepr) : SecretKey := ⟨FR.ofRepr? i⟩

/-- `Verify`, g1pubs/bls.go:165-168. -/
def verify (sha : List UInt8 → List UInt8) (m : List UInt8) (pub : PublicKey) (sig : Signature) : Option Bool :=
  (hashG2 sha m).bind fun h => compareTwoPairings G1Projective.one sig.s pub.p h.toProjective

/-- `VerifyWithDomain`, g1pubs/bls.go:171-174. -/
def verifyWithDomain (sha : List UInt8 → List UInt8) (m : List UInt8) (pub : PublicKey) (sig : Signature)
    (domain : List UInt8) : Option Bool :=
  (hashG2WithDomain sha m domain).bind fun h =>
    compareTwoPairings G1Projective.one sig.s pub.p h.toAffine.toProjective

/-- `NewAggregateSignature`, g1pubs/bls.go:212-214. -/
def newAggregateSignature : Signature := ⟨G2Projective.zero⟩

/-- `NewAggregatePubkey`, g1pubs/bls.go:217-219. -/
def newAggregatePubkey : PublicKey := ⟨G1Projective.zero⟩

/-- `Aggregate`, g1pubs/bls.go:186-189: the receiver after the call. -/
def Signature.aggregate (s other : Signature) : Signature := ⟨s.s.add other.s⟩

/-- `AggregateSignatures`, g1pubs/bls.go:177-183. -/
def aggregateSignatures (s : List Signature) : Signature := s.foldl Signature.aggregate ⟨G2Projective.zero⟩

/-- `Aggregate`, g1pubs/bls.go:201-204: the receiver after the call. -/
def PublicKey.aggregate (p other : PublicKey) : PublicKey := ⟨p.p.add other.p⟩

/-- `AggregatePublicKeys`, g1pubs/bls.go:192-198. -/
def aggregatePublicKeys (p : List PublicKey) : PublicKey := p.foldl PublicKey.aggregate ⟨G1Projective.zero⟩

/-- `Copy`, g1pubs/bls.go:207-209. -/
def PublicKey.copy (p : PublicKey) : PublicKey := p

/-- The product loop of `VerifyAggregate`, g1pubs/bls.go:276-280. `Pairing` returning nil makes `MulAssign` panic. -/
def pairingProduct (sha : List UInt8 → List UInt8) : List PublicKey → List (List UInt8) → FQ12 → Option FQ12
  | pk :: pks, m :: ms, rhs =>
    (hashG2 sha m).bind fun h =>
    (pairing pk.p h.toProjective).join.bind fun e => pairingProduct sha pks ms (rhs.mul e)
  | _, _, rhs => some rhs

/-- `VerifyAggregate`, g1pubs/bls.go:252-282. -/
def Signature.verifyAggregate (sha : List UInt8 → List UInt8) (s : Signature) (pubKeys : List PublicKey)
    (msgs : List (List UInt8)) : Option Bool :=
  if pubKeys.length != msgs.length then some false
  else if !noRepeat [] (sortByteArrays msgs) then some false
  else
    (pairing G1Projective.one s.s).bind fun lhs =>
    (pairingProduct sha pubKeys msgs FQ12.one).bind fun rhs => lhs.map fun l => l.equals rhs

/-- `VerifyAggregateCommon`, g1pubs/bls.go:287-290. -/
def Signature.verifyAggregateCommon (sha : List UInt8 → List UInt8) (s : Signature) (pubKeys : List PublicKey)
    (msg : List UInt8) : Option Bool := verify sha msg (aggregatePublicKeys pubKeys) s

/-- `VerifyAggregateCommonWithDomain`, g1pubs/bls.go:294-297. -/
def Signature.verifyAggregateCommonWithDomain (sha : List UInt8 → List UInt8) (s : Signature)
    (pubKeys : List PublicKey) (msg domain : List UInt8) : Option Bool :=
  verifyWithDomain sha msg (aggregatePublicKeys pubKeys) s domain

/-- The product loop of `VerifyAggregateWithDomain`, g1pubs/bls.go:305-309. -/
def pairingProductWithDomain (sha : List UInt8 → List UInt8) (domain : List UInt8) :
    List PublicKey → List (List UInt8) → FQ12 → Option FQ12
  | pk :: pks, m :: ms, rhs =>
    (hashG2WithDomain sha m domain).bind fun h =>
    (pairing pk.p h.toAffine.toProjective).join.bind fun e => pairingProductWithDomain sha domain pks ms (rhs.mul e)
  | _, _, rhs => some rhs

/-- `VerifyAggregateWithDomain`, g1pubs/bls.go:300-311. -/
def Signature.verifyAggregateWithDomain (sha : List UInt8 → List UInt8) (s : Signature) (pubKeys : List PublicKey)
    (msgs : List (List UInt8)) (domain : List UInt8) : Option Bool :=
  if pubKeys.length != msgs.length then some false
  else
    (pairing G1Projective.one s.s).bind fun lhs =>
    (pairingProductWithDomain sha domain pubKeys msgs FQ12.one).bind fun rhs => lhs.map fun l => l.equals rhs

end Bls.G1Pubs
