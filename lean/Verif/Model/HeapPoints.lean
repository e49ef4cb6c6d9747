import Verif.Model.G1Pubs
import Verif.Model.G2Pubs
/-
g1.go, g2.go, pairing.go, g1pubs/bls.go and g2pubs/bls.go with memory. The exported types of points,
keys and signatures are used through pointers: `NegAssign`, `SetRawBytes` and `Aggregate` change what
a pointer points at, and the package variables are pointers too. Here every object has an address.
Coordinates are arrays inside the struct (fq.go, fqrepr.go), so a point is one object; a key or a
signature is an object that holds the address of a point.

Simplified: what a method computes is taken from the models on values (Verif/Model/G1.lean, …); points
that a method makes for itself and drops have no address, except where the code changes such a point
(`CompareTwoPairings`, `AggregateSignatures`, `AggregatePublicKeys`, the sorted copy in
`VerifyAggregate`) or passes it on. The package variables are read from memory in `Copy`, `ToAffine`,
`ToProjective`, `AddAffine`, `Mul`, `MulFR`, `MulBig`, `ScaleByCofactor`, the decoding of infinity,
`PrivToPub`, `Verify*` and the `New*` calls; inside the subgroup checks and hash functions they have
their initial value. A scalar (`FR`, `FRRepr`) is a value: Verif/Model/Heap.lean has their memory.
-/
namespace Bls.HeapPoints

/-- An object: the structs of g1.go:10-14, g1.go:252-256, g2.go:12-16, g2.go:298-302; `Signature` and
`PublicKey` of g1pubs/bls.go:13-15, g1pubs/bls.go:53-55 (`sig1`, `pub1`) and g2pubs/bls.go:13-15,
g2pubs/bls.go:53-55 (`sig2`, `pub2`); and a caller's `[][]byte`, whose elements are only read. -/
inductive Obj
  | g1a (v : G1Affine) | g1p (v : G1Projective) | g2a (v : G2Affine) | g2p (v : G2Projective)
  | sig1 (s : Nat) | pub1 (p : Nat) | sig2 (s : Nat) | pub2 (p : Nat)
  | msgs (v : List (List UInt8))

/-- The memory: the object at address `p` is `m[p]`; objects are never freed. -/
abbrev Mem := List Obj

/-- A call that returns an `α`: it returns or panics, or accesses one object (reads it, overwrites it,
or makes a new one) and goes on. -/
inductive M (α : Type) : Type
  | ret (a : α)
  | panic
  | read (p : Nat) (k : Obj → M α)
  | write (p : Nat) (o : Obj) (k : M α)
  | alloc (o : Obj) (k : Nat → M α)

/-- Running a call on its own: the result and the memory after it (`none`: it panics). -/
def M.run {α : Type} : M α → Mem → Option (α × Mem)
  | .ret a, m => some (a, m)
  | .panic, _ => none
  | .read p k, m => match m[p]? with | some o => (k o).run m | none => none
  | .write p o k, m => k.run (m.set p o)
  | .alloc o k, m => (k m.length).run (m ++ [o])

/-- Sequencing. -/
def M.bind {α β : Type} : M α → (α → M β) → M β
  | .ret a, f => f a
  | .panic, _ => .panic
  | .read p k, f => .read p fun o => (k o).bind f
  | .write p o k, f => .write p o (k.bind f)
  | .alloc o k, f => .alloc o fun p => (k p).bind f

instance : Monad M where
  pure := .ret
  bind := .bind

instance {α : Type} : CoeFun (M α) fun _ => Mem → Option (α × Mem) := ⟨M.run⟩

/-- `&T{…}`. -/
def alloc (o : Obj) : M Nat := .alloc o .ret

/-- `*p = o`. -/
def write (p : Nat) (o : Obj) : M Unit := .write p o (.ret ())

/-- The `G1Affine` at `p` (there is no other kind of object where Go has a `*G1Affine`). -/
def g1a (p : Nat) : M G1Affine := .read p fun | .g1a v => .ret v | _ => .panic
/-- The `G1Projective` at `p`. -/
def g1p (p : Nat) : M G1Projective := .read p fun | .g1p v => .ret v | _ => .panic
/-- The `G2Affine` at `p`. -/
def g2a (p : Nat) : M G2Affine := .read p fun | .g2a v => .ret v | _ => .panic
/-- The `G2Projective` at `p`. -/
def g2p (p : Nat) : M G2Projective := .read p fun | .g2p v => .ret v | _ => .panic
/-- `p.s`, g1pubs/bls.go:14. -/
def sig1S (p : Nat) : M Nat := .read p fun | .sig1 s => .ret s | _ => .panic
/-- `p.p`, g1pubs/bls.go:54. -/
def pub1P (p : Nat) : M Nat := .read p fun | .pub1 s => .ret s | _ => .panic
/-- `p.s`, g2pubs/bls.go:14. -/
def sig2S (p : Nat) : M Nat := .read p fun | .sig2 s => .ret s | _ => .panic
/-- `p.p`, g2pubs/bls.go:54. -/
def pub2P (p : Nat) : M Nat := .read p fun | .pub2 s => .ret s | _ => .panic
/-- The `[][]byte` at `p`. -/
def msgs (p : Nat) : M (List (List UInt8)) := .read p fun | .msgs v => .ret v | _ => .panic

/-- `o`, or a panic. -/
def lift {α : Type} : Option α → M α
  | some a => .ret a
  | none => .panic

/-- The variable `G1AffineZero`, g1.go:22. -/
def aG1AffineZero : Nat := 0
/-- The variable `G1AffineOne`, g1.go:32. -/
def aG1AffineOne : Nat := 1
/-- The variable `G1ProjectiveZero`, g1.go:269. -/
def aG1ProjectiveZero : Nat := 2
/-- The variable `G1ProjectiveOne`, g1.go:272. -/
def aG1ProjectiveOne : Nat := 3
/-- The variable `G2AffineZero`, g2.go:24. -/
def aG2AffineZero : Nat := 4
/-- The variable `G2AffineOne`, g2.go:35-43. -/
def aG2AffineOne : Nat := 5
/-- The variable `G2ProjectiveZero`, g2.go:310. -/
def aG2ProjectiveZero : Nat := 6
/-- The variable `G2ProjectiveOne`, g2.go:313. -/
def aG2ProjectiveOne : Nat := 7

/-- The memory after initialisation, g1.go:22, g1.go:32, g1.go:269, g1.go:272, g2.go:24, g2.go:35-43, g2.go:310,
g2.go:313. -/
def init : Mem :=
  [.g1a .zero, .g1a .one, .g1p .zero, .g1p .one, .g2a .zero, .g2a .one, .g2p .zero, .g2p .one]

/-! ## g1.go -/

/-- `Copy`, g1.go:42-44. -/
def g1aCopy (g : Nat) : M Nat := do alloc (.g1a (← g1a g))

/-- `Copy`, g1.go:282-284. -/
def g1pCopy (g : Nat) : M Nat := do alloc (.g1p (← g1p g))

/-- `NegAssign`, g1.go:52-56. -/
def g1aNeg (g : Nat) : M Unit := do
  let v ← g1a g
  if v.isZero then pure () else write g (.g1a v.neg)

/-- `NegAssign`, g1.go:259-261. -/
def g1pNeg (g : Nat) : M Unit := do write g (.g1p (← g1p g).neg)

/-- `SetRawBytes`, g1.go:170-181. -/
def g1aSetRawBytes (g : Nat) (b : List UInt8) : M Unit := do write g (.g1a ((← g1a g).setRawBytes b))

/-- `ToProjective`, g1.go:59-64. -/
def g1aToProjective (g : Nat) : M Nat := do
  let v ← g1a g
  if v.isZero then g1pCopy aG1ProjectiveZero
  else alloc (.g1p ⟨v.x, v.y, FQ.one⟩)

/-- `ToAffine`, g1.go:322-340. -/
def g1pToAffine (g : Nat) : M Nat := do
  let v ← g1p g
  if v.isZero then g1aCopy aG1AffineZero
  else alloc (.g1a v.toAffine)

/-- `Double`, g1.go:343-397: a new point in all cases. -/
def g1pDouble (g : Nat) : M Nat := do alloc (.g1p (← g1p g).double)

/-- `Add`, g1.go:400-482: a new point in all cases. -/
def g1pAdd (g other : Nat) : M Nat := do
  let v ← g1p g
  alloc (.g1p (v.add (← g1p other)))

/-- The value of `AddAffine`, g1.go:485-559, if `G1ProjectiveZero` has the value `z`. -/
def g1AddAffineWith (z g : G1Projective) (other : G1Affine) : G1Projective :=
  if g.isZero && other.isZero then z else g.addAffine other

/-- `AddAffine`, g1.go:485-559. -/
def g1pAddAffine (g other : Nat) : M Nat := do
  let v ← g1p g
  let w ← g1a other
  alloc (.g1p (g1AddAffineWith (← g1p aG1ProjectiveZero) v w))

/-- `Mul`, g1.go:67-77; `MulFR`, g1.go:80-90. -/
def g1aMul (g : Nat) (bit : Nat → Option Bool) (bitLen : Nat) : M Nat := do
  let v ← g1a g
  let z ← g1p aG1ProjectiveZero
  alloc (.g1p (← lift (scalarLoop G1Projective.double (fun res => g1AddAffineWith z res v) bit bitLen bitLen 0 z)))

/-- `Mul`, g1.go:562-572; `MulFR`, g1.go:575-585. -/
def g1pMul (g : Nat) (bit : Nat → Option Bool) (bitLen : Nat) : M Nat := do
  let v ← g1p g
  let z ← g1p aG1ProjectiveZero
  alloc (.g1p (← lift (scalarLoop G1Projective.double (fun res => res.add v) bit bitLen bitLen 0 z)))

/-- `ScaleByCofactor`, g1.go:147-149. -/
def g1aScaleByCofactor (g : Nat) : M Nat := g1aMul g G1Affine.cofactor.bit G1Affine.cofactor.bitLen

/-- A point returned by `DecompressG1Unchecked`, g1.go:199-227, or `DecompressG1`, g1.go:185-195: infinity is a copy of
`G1AffineZero`. -/
def g1aReturn (v : G1Affine) : M Nat :=
  if v.infinity then g1aCopy aG1AffineZero else alloc (.g1a v)

/-- A returned point, or nil with an error. -/
def orNil {α : Type} (f : α → M Nat) : Option α → M (Option Nat)
  | none => pure none
  | some v => do pure (some (← f v))

/-- `DecompressG1Unchecked`, g1.go:199-227. -/
def decompressG1Unchecked (b : List UInt8) : M (Option Nat) := orNil g1aReturn (G1Affine.decompressUnchecked b)

/-- `DecompressG1`, g1.go:185-195. -/
def decompressG1 (b : List UInt8) : M (Option Nat) := orNil g1aReturn (G1Affine.decompress b)

/-- `GetG1PointFromX`, g1.go:111-131. -/
def getG1PointFromX (x : FQ) (greatest : Bool) : M (Option Nat) :=
  orNil (fun v => alloc (.g1a v)) (G1Affine.getPointFromX x greatest)

/-! ## g2.go -/

/-- `Copy`, g2.go:53-55. -/
def g2aCopy (g : Nat) : M Nat := do alloc (.g2a (← g2a g))

/-- `Copy`, g2.go:323-325. -/
def g2pCopy (g : Nat) : M Nat := do alloc (.g2p (← g2p g))

/-- `NegAssign`, g2.go:63-67. -/
def g2aNeg (g : Nat) : M Unit := do
  let v ← g2a g
  if v.isZero then pure () else write g (.g2a v.neg)

/-- `SetRawBytes`, g2.go:189-215. -/
def g2aSetRawBytes (g : Nat) (b : List UInt8) : M Unit := do write g (.g2a ((← g2a g).setRawBytes b))

/-- `ToProjective`, g2.go:70-76. -/
def g2aToProjective (g : Nat) : M Nat := do
  let v ← g2a g
  if v.isZero then g2pCopy aG2ProjectiveZero
  else alloc (.g2p ⟨v.x, v.y, FQ2.one⟩)

/-- `ToAffine`, g2.go:365-386: infinity is the package variable itself, not a copy. -/
def g2pToAffine (g : Nat) : M Nat := do
  let v ← g2p g
  if v.isZero then pure aG2AffineZero
  else alloc (.g2a v.toAffine)

/-- `Double`, g2.go:389-443: a new point in all cases. -/
def g2pDouble (g : Nat) : M Nat := do alloc (.g2p (← g2p g).double)

/-- `Add`, g2.go:446-529: a new point in all cases. -/
def g2pAdd (g other : Nat) : M Nat := do
  let v ← g2p g
  alloc (.g2p (v.add (← g2p other)))

/-- The value of `AddAffine`, g2.go:532-606, if `G2ProjectiveZero` has the value `z`. -/
def g2AddAffineWith (z g : G2Projective) (other : G2Affine) : G2Projective :=
  if g.isZero && other.isZero then z else g.addAffine other

/-- `AddAffine`, g2.go:532-606. -/
def g2pAddAffine (g other : Nat) : M Nat := do
  let v ← g2p g
  let w ← g2a other
  alloc (.g2p (g2AddAffineWith (← g2p aG2ProjectiveZero) v w))

/-- `Mul`, g2.go:79-89; `MulFR`, g2.go:92-102; `MulBig`, g2.go:105-115. -/
def g2aMul (g : Nat) (bit : Nat → Option Bool) (bitLen : Nat) : M Nat := do
  let v ← g2a g
  let z ← g2p aG2ProjectiveZero
  alloc (.g2p (← lift (scalarLoop G2Projective.double (fun res => g2AddAffineWith z res v) bit bitLen bitLen 0 z)))

/-- `Mul`, g2.go:609-619; `MulFR`, g2.go:622-632. -/
def g2pMul (g : Nat) (bit : Nat → Option Bool) (bitLen : Nat) : M Nat := do
  let v ← g2p g
  let z ← g2p aG2ProjectiveZero
  alloc (.g2p (← lift (scalarLoop G2Projective.double (fun res => res.add v) bit bitLen bitLen 0 z)))

/-- `MulBig`, g2.go:105-115, for a non-negative `big.Int`. -/
def g2aMulBig (g b : Nat) : M Nat :=
  g2aMul g (fun n => some (b.testBit n)) (if b = 0 then 0 else Nat.log2 b + 1)

/-- `ScaleByCofactor`, g2.go:136-138. -/
def g2aScaleByCofactor (g : Nat) : M Nat := g2aMulBig g G2Affine.cofactor

/-- A point returned by `DecompressG2Unchecked`, g2.go:232-265, or `DecompressG2`, g2.go:219-229, or `SWEncodeG2`,
g2.go:836-881: infinity is a copy of `G2AffineZero`. -/
def g2aReturn (v : G2Affine) : M Nat :=
  if v.infinity then g2aCopy aG2AffineZero else alloc (.g2a v)

/-- `DecompressG2Unchecked`, g2.go:232-265. -/
def decompressG2Unchecked (b : List UInt8) : M (Option Nat) := orNil g2aReturn (G2Affine.decompressUnchecked b)

/-- `DecompressG2`, g2.go:219-229. -/
def decompressG2 (b : List UInt8) : M (Option Nat) := orNil g2aReturn (G2Affine.decompress b)

/-- `GetG2PointFromX`, g2.go:149-169. -/
def getG2PointFromX (x : FQ2) (greatest : Bool) : M (Option Nat) :=
  orNil (fun v => alloc (.g2a v)) (G2Affine.getPointFromX x greatest)

/-- `SWEncodeG2`, g2.go:836-881. -/
def swEncodeG2 (t : FQ2) : M (Option Nat) := orNil g2aReturn (Bls.swEncodeG2 t)

/-- `HashG2WithDomain`, g2.go:1041-1085. -/
def hashG2WithDomain (sha : List UInt8 → List UInt8) (m domain : List UInt8) : M Nat := do
  alloc (.g2p (← lift (Bls.hashG2WithDomain sha m domain)))

/-! ## hash.go, pairing.go -/

/-- `HashG1`, hash.go:326-331. `ClearH` (hash.go:306-309) returns what `ToAffine` returns. -/
def hashG1 (sha : List UInt8 → List UInt8) (m : List UInt8) : M Nat := do g1aReturn (← lift (Bls.hashG1 sha m))

/-- `HashG2`, hash.go:405-411. `clearH2` (hash.go:368-389) returns what `ToAffine` returns, so infinity is the package
variable itself. -/
def hashG2 (sha : List UInt8 → List UInt8) (m : List UInt8) : M Nat := do
  let v ← lift (Bls.hashG2 sha m)
  if v.infinity then pure aG2AffineZero else alloc (.g2a v)

/-- `Pairing`, pairing.go:132-136: the value of the result (see Verif/Model/Heap12.lean for its memory); `none` is
nil. -/
def pairing (p q : Nat) : M (Option FQ12) := do
  let a ← g1a (← g1pToAffine p)
  let b ← g2a (← g2pToAffine q)
  let f ← lift (b.toPrepared.bind fun prep => millerLoop [(a, prep)])
  pure (finalExponentiation f)

/-- `CompareTwoPairings`, pairing.go:140-147. -/
def compareTwoPairings (p1 q1 p2 q2 : Nat) : M Bool := do
  let negP2 ← g1pCopy p2
  g1pNeg negP2
  let a1 ← g1a (← g1pToAffine p1)
  let prep1 ← lift (← g2a (← g2pToAffine q1)).toPrepared
  let a2 ← g1a (← g1pToAffine negP2)
  let prep2 ← lift (← g2a (← g2pToAffine q2)).toPrepared
  let f ← lift (millerLoop [(a1, prep1), (a2, prep2)])
  lift ((finalExponentiation f).map fun g => g.equals FQ12.one)

/-! ## g1pubs/bls.go -/
namespace G1Pubs

/-- `Serialize`, g1pubs/bls.go:18-20. -/
def sigSerialize (s : Nat) : M (List UInt8) := do pure (← g2a (← g2pToAffine (← sig1S s))).compress

/-- `GetPoint`, g1pubs/bls.go:27-29. -/
def sigGetPoint (s : Nat) : M Nat := do g2pCopy (← sig1S s)

/-- `NewSignatureFromG2`, g1pubs/bls.go:33-35. -/
def newSignatureFromG2 (g2 : Nat) : M Nat := do alloc (.sig1 (← g2aToProjective g2))

/-- `DeserializeSignature`, g1pubs/bls.go:38-45. -/
def deserializeSignature (b : List UInt8) : M (Option Nat) := do
  match ← decompressG2 b with
  | none => pure none
  | some a => pure (some (← newSignatureFromG2 a))

/-- `Copy`, g1pubs/bls.go:48-50. -/
def sigCopy (s : Nat) : M Nat := do alloc (.sig1 (← g2pCopy (← sig1S s)))

/-- `GetPoint`, g1pubs/bls.go:62-64. -/
def pubGetPoint (p : Nat) : M Nat := do g1pCopy (← pub1P p)

/-- `Serialize`, g1pubs/bls.go:67-69. -/
def pubSerialize (p : Nat) : M (List UInt8) := do pure (← g1a (← g1pToAffine (← pub1P p))).compress

/-- `NewPublicKeyFromG1`, g1pubs/bls.go:72-74. -/
def newPublicKeyFromG1 (g1 : Nat) : M Nat := do alloc (.pub1 (← g1aToProjective g1))

/-- `Equals`, g1pubs/bls.go:85-87. -/
def pubEquals (p other : Nat) : M Bool := do
  let a ← g1p (← pub1P p)
  pure (a.equal (← g1p (← pub1P other)))

/-- `DeserializePublicKey`, g1pubs/bls.go:91-98. -/
def deserializePublicKey (b : List UInt8) : M (Option Nat) := do
  match ← decompressG1 b with
  | none => pure none
  | some a => pure (some (← newPublicKeyFromG1 a))

/-- `Sign`, g1pubs/bls.go:132-135. -/
def sign (sha : List UInt8 → List UInt8) (message : List UInt8) (f : FR) : M Nat := do
  alloc (.sig1 (← g2aMul (← hashG2 sha message) f.toRepr.bit f.toRepr.bitLen))

/-- `SignWithDomain`, g1pubs/bls.go:138-141. -/
def signWithDomain (sha : List UInt8 → List UInt8) (message : List UInt8) (f : FR) (domain : List UInt8) : M Nat := do
  alloc (.sig1 (← g2pMul (← hashG2WithDomain sha message domain) f.toRepr.bit f.toRepr.bitLen))

/-- `PrivToPub`, g1pubs/bls.go:144-146. -/
def privToPub (f : FR) : M Nat := do alloc (.pub1 (← g1aMul aG1AffineOne f.toRepr.bit f.toRepr.bitLen))

/-- `Verify`, g1pubs/bls.go:165-168. -/
def verify (sha : List UInt8 → List UInt8) (m : List UInt8) (pub sig : Nat) : M Bool := do
  let h ← hashG2 sha m
  let s ← sig1S sig
  let p ← pub1P pub
  compareTwoPairings aG1ProjectiveOne s p (← g2aToProjective h)

/-- `VerifyWithDomain`, g1pubs/bls.go:171-174. -/
def verifyWithDomain (sha : List UInt8 → List UInt8) (m : List UInt8) (pub sig : Nat) (domain : List UInt8) :
    M Bool := do
  let h ← hashG2WithDomain sha m domain
  let s ← sig1S sig
  let p ← pub1P pub
  compareTwoPairings aG1ProjectiveOne s p (← g2aToProjective (← g2pToAffine h))

/-- `NewAggregateSignature`, g1pubs/bls.go:212-214. -/
def newAggregateSignature : M Nat := do alloc (.sig1 (← g2pCopy aG2ProjectiveZero))

/-- `NewAggregatePubkey`, g1pubs/bls.go:217-219. -/
def newAggregatePubkey : M Nat := do alloc (.pub1 (← g1pCopy aG1ProjectiveZero))

/-- `Aggregate`, g1pubs/bls.go:186-189. -/
def sigAggregate (s other : Nat) : M Unit := do
  let a ← sig1S s
  write s (.sig1 (← g2pAdd a (← sig1S other)))

/-- The loop of `AggregateSignatures`, g1pubs/bls.go:179-181. -/
def aggregateSignaturesLoop (newSig : Nat) : List Nat → M Unit
  | [] => pure ()
  | s :: ss => do sigAggregate newSig s; aggregateSignaturesLoop newSig ss

/-- `AggregateSignatures`, g1pubs/bls.go:177-183. -/
def aggregateSignatures (s : List Nat) : M Nat := do
  let newSig ← newAggregateSignature
  aggregateSignaturesLoop newSig s
  pure newSig

/-- `Aggregate`, g1pubs/bls.go:201-204. -/
def pubAggregate (p other : Nat) : M Unit := do
  let a ← pub1P p
  write p (.pub1 (← g1pAdd a (← pub1P other)))

/-- The loop of `AggregatePublicKeys`, g1pubs/bls.go:194-196. -/
def aggregatePublicKeysLoop (newPub : Nat) : List Nat → M Unit
  | [] => pure ()
  | p :: ps => do pubAggregate newPub p; aggregatePublicKeysLoop newPub ps

/-- `AggregatePublicKeys`, g1pubs/bls.go:192-198. -/
def aggregatePublicKeys (p : List Nat) : M Nat := do
  let newPub ← newAggregatePubkey
  aggregatePublicKeysLoop newPub p
  pure newPub

/-- `Copy`, g1pubs/bls.go:207-209. -/
def pubCopy (p : Nat) : M Nat := do alloc (.pub1 (← g1pCopy (← pub1P p)))

/-- The product loop of `VerifyAggregate`, g1pubs/bls.go:276-280, of as many keys as messages; the product is a value
(Verif/Model/Heap12.lean). -/
def pairingProduct (sha : List UInt8 → List UInt8) : List Nat → List (List UInt8) → FQ12 → M FQ12
  | pk :: pks, m :: ms, rhs => do
    let h ← hashG2 sha m
    let p ← pub1P pk
    let e ← lift (← pairing p (← g2aToProjective h))
    pairingProduct sha pks ms (rhs.mul e)
  | _, _, rhs => pure rhs

/-- `sort.Sort(sorted)` in `sortByteArrays`, g1pubs/bls.go:245-249: the array is sorted in place. -/
def sortInPlace (a : Nat) : M Unit := do write a (.msgs (sortByteArrays (← msgs a)))

/-- `VerifyAggregate`, g1pubs/bls.go:252-282; `ms` is the address of the caller's slice. -/
def verifyAggregate (sha : List UInt8 → List UInt8) (s : Nat) (pubKeys : List Nat) (ms : Nat) : M Bool := do
  if pubKeys.length != (← msgs ms).length then pure false
  else
    let msgsCopy ← alloc (.msgs (← msgs ms))
    sortInPlace msgsCopy
    if !noRepeat [] (← msgs msgsCopy) then pure false
    else
      let lhs ← pairing aG1ProjectiveOne (← sig1S s)
      let rhs ← pairingProduct sha pubKeys (← msgs ms) FQ12.one
      lift (lhs.map fun l => l.equals rhs)

/-- `VerifyAggregateCommon`, g1pubs/bls.go:287-290. -/
def verifyAggregateCommon (sha : List UInt8 → List UInt8) (s : Nat) (pubKeys : List Nat) (msg : List UInt8) :
    M Bool := do
  let aggPub ← aggregatePublicKeys pubKeys
  verify sha msg aggPub s

/-- `VerifyAggregateCommonWithDomain`, g1pubs/bls.go:294-297. -/
def verifyAggregateCommonWithDomain (sha : List UInt8 → List UInt8) (s : Nat) (pubKeys : List Nat)
    (msg domain : List UInt8) : M Bool := do
  let aggPub ← aggregatePublicKeys pubKeys
  verifyWithDomain sha msg aggPub s domain

/-- The product loop of `VerifyAggregateWithDomain`, g1pubs/bls.go:305-309. -/
def pairingProductWithDomain (sha : List UInt8 → List UInt8) (domain : List UInt8) :
    List Nat → List (List UInt8) → FQ12 → M FQ12
  | pk :: pks, m :: ms, rhs => do
    let h ← hashG2WithDomain sha m domain
    let p ← pub1P pk
    let e ← lift (← pairing p (← g2aToProjective (← g2pToAffine h)))
    pairingProductWithDomain sha domain pks ms (rhs.mul e)
  | _, _, rhs => pure rhs

/-- `VerifyAggregateWithDomain`, g1pubs/bls.go:300-311. -/
def verifyAggregateWithDomain (sha : List UInt8 → List UInt8) (s : Nat) (pubKeys : List Nat) (ms : Nat)
    (domain : List UInt8) : M Bool := do
  if pubKeys.length != (← msgs ms).length then pure false
  else
    let lhs ← pairing aG1ProjectiveOne (← sig1S s)
    let rhs ← pairingProductWithDomain sha domain pubKeys (← msgs ms) FQ12.one
    lift (lhs.map fun l => l.equals rhs)

end G1Pubs

/-! ## g2pubs/bls.go -/
namespace G2Pubs

/-- `Serialize`, g2pubs/bls.go:18-20. -/
def sigSerialize (s : Nat) : M (List UInt8) := do pure (← g1a (← g1pToAffine (← sig2S s))).compress

/-- `NewSignatureFromG1`, g2pubs/bls.go:28-30. -/
def newSignatureFromG1 (g1 : Nat) : M Nat := do alloc (.sig2 (← g1aToProjective g1))

/-- `DeserializeSignature`, g2pubs/bls.go:33-40. -/
def deserializeSignature (b : List UInt8) : M (Option Nat) := do
  match ← decompressG1 b with
  | none => pure none
  | some a => pure (some (← newSignatureFromG1 a))

/-- `Copy`, g2pubs/bls.go:43-45. -/
def sigCopy (s : Nat) : M Nat := do alloc (.sig2 (← g1pCopy (← sig2S s)))

/-- `GetPoint`, g2pubs/bls.go:48-50. -/
def sigGetPoint (s : Nat) : M Nat := do g1pCopy (← sig2S s)

/-- `GetPoint`, g2pubs/bls.go:58-60. -/
def pubGetPoint (p : Nat) : M Nat := do g2pCopy (← pub2P p)

/-- `Serialize`, g2pubs/bls.go:67-69. -/
def pubSerialize (p : Nat) : M (List UInt8) := do pure (← g2a (← g2pToAffine (← pub2P p))).compress

/-- `NewPublicKeyFromG2`, g2pubs/bls.go:72-74. -/
def newPublicKeyFromG2 (g2 : Nat) : M Nat := do alloc (.pub2 (← g2aToProjective g2))

/-- `Equals`, g2pubs/bls.go:85-87. -/
def pubEquals (p other : Nat) : M Bool := do
  let a ← g2p (← pub2P p)
  pure (a.equals (← g2p (← pub2P other)))

/-- `DeserializePublicKey`, g2pubs/bls.go:91-98. -/
def deserializePublicKey (b : List UInt8) : M (Option Nat) := do
  match ← decompressG2 b with
  | none => pure none
  | some a => pure (some (← newPublicKeyFromG2 a))

/-- `Sign`, g2pubs/bls.go:132-135. -/
def sign (sha : List UInt8 → List UInt8) (message : List UInt8) (f : FR) : M Nat := do
  alloc (.sig2 (← g1aMul (← hashG1 sha message) f.toRepr.bit f.toRepr.bitLen))

/-- `PrivToPub`, g2pubs/bls.go:138-140. -/
def privToPub (f : FR) : M Nat := do alloc (.pub2 (← g2aMul aG2AffineOne f.toRepr.bit f.toRepr.bitLen))

/-- `Verify`, g2pubs/bls.go:159-162. -/
def verify (sha : List UInt8 → List UInt8) (m : List UInt8) (pub sig : Nat) : M Bool := do
  let h ← hashG1 sha m
  let s ← sig2S sig
  let hp ← g1aToProjective h
  compareTwoPairings s aG2ProjectiveOne hp (← pub2P pub)

/-- `NewAggregateSignature`, g2pubs/bls.go:200-202. -/
def newAggregateSignature : M Nat := do alloc (.sig2 (← g1pCopy aG1ProjectiveZero))

/-- `NewAggregatePubkey`, g2pubs/bls.go:205-207. -/
def newAggregatePubkey : M Nat := do alloc (.pub2 (← g2pCopy aG2ProjectiveZero))

/-- `Aggregate`, g2pubs/bls.go:174-177. -/
def sigAggregate (s other : Nat) : M Unit := do
  let a ← sig2S s
  write s (.sig2 (← g1pAdd a (← sig2S other)))

/-- The loop of `AggregateSignatures`, g2pubs/bls.go:167-169. -/
def aggregateSignaturesLoop (newSig : Nat) : List Nat → M Unit
  | [] => pure ()
  | s :: ss => do sigAggregate newSig s; aggregateSignaturesLoop newSig ss

/-- `AggregateSignatures`, g2pubs/bls.go:165-171. -/
def aggregateSignatures (s : List Nat) : M Nat := do
  let newSig ← newAggregateSignature
  aggregateSignaturesLoop newSig s
  pure newSig

/-- `Aggregate`, g2pubs/bls.go:189-192. -/
def pubAggregate (p other : Nat) : M Unit := do
  let a ← pub2P p
  write p (.pub2 (← g2pAdd a (← pub2P other)))

/-- The loop of `AggregatePublicKeys`, g2pubs/bls.go:182-184. -/
def aggregatePublicKeysLoop (newPub : Nat) : List Nat → M Unit
  | [] => pure ()
  | p :: ps => do pubAggregate newPub p; aggregatePublicKeysLoop newPub ps

/-- `AggregatePublicKeys`, g2pubs/bls.go:180-186. -/
def aggregatePublicKeys (p : List Nat) : M Nat := do
  let newPub ← newAggregatePubkey
  aggregatePublicKeysLoop newPub p
  pure newPub

/-- `Copy`, g2pubs/bls.go:195-197. -/
def pubCopy (p : Nat) : M Nat := do alloc (.pub2 (← g2pCopy (← pub2P p)))

/-- The product loop of `VerifyAggregate`, g2pubs/bls.go:264-268. -/
def pairingProduct (sha : List UInt8 → List UInt8) : List Nat → List (List UInt8) → FQ12 → M FQ12
  | pk :: pks, m :: ms, rhs => do
    let h ← hashG1 sha m
    let hp ← g1aToProjective h
    let e ← lift (← pairing hp (← pub2P pk))
    pairingProduct sha pks ms (rhs.mul e)
  | _, _, rhs => pure rhs

/-- `VerifyAggregate`, g2pubs/bls.go:240-270 (`sortByteArrays`, g2pubs/bls.go:233-237, sorts in place). -/
def verifyAggregate (sha : List UInt8 → List UInt8) (s : Nat) (pubKeys : List Nat) (ms : Nat) : M Bool := do
  if pubKeys.length != (← msgs ms).length then pure false
  else
    let msgsCopy ← alloc (.msgs (← msgs ms))
    G1Pubs.sortInPlace msgsCopy
    if !noRepeat [] (← msgs msgsCopy) then pure false
    else
      let lhs ← pairing (← sig2S s) aG2ProjectiveOne
      let rhs ← pairingProduct sha pubKeys (← msgs ms) FQ12.one
      lift (lhs.map fun l => l.equals rhs)

/-- `VerifyAggregateCommon`, g2pubs/bls.go:275-278. -/
def verifyAggregateCommon (sha : List UInt8 → List UInt8) (s : Nat) (pubKeys : List Nat) (msg : List UInt8) :
    M Bool := do
  let aggPub ← aggregatePublicKeys pubKeys
  verify sha msg aggPub s

end G2Pubs

end Bls.HeapPoints
