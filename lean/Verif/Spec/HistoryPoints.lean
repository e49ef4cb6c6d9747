import Verif.Model.HeapPoints
/-
Programs that use points, keys and signatures. A program is a list of calls; the `i`-th object it
holds is variable `i`, with variables 0 to 7 the package variables `G1AffineZero`, `G1AffineOne`,
`G1ProjectiveZero`, `G1ProjectiveOne`, `G2AffineZero`, `G2AffineOne`, `G2ProjectiveZero`,
`G2ProjectiveOne`. `Op.effect` says what a call does when points, keys and signatures are plain
values; `Op.onMemory` runs the same call in the memory of Verif/Model/HeapPoints.lean, where a
variable is a pointer. Which of the methods with a name is meant follows from the type of the
variable. Neither lets a program change the package variables in place: such a call is no program here
(`none`).
-/
namespace Bls.HeapPoints

/-- A value: a point, a `g1pubs` (1) or `g2pubs` (2) signature or key, a list of messages. -/
inductive Val
  | g1a (v : G1Affine) | g1p (v : G1Projective) | g2a (v : G2Affine) | g2p (v : G2Projective)
  | sig1 (v : Bls.G1Pubs.Signature) | pub1 (v : Bls.G1Pubs.PublicKey)
  | sig2 (v : Bls.G2Pubs.Signature) | pub2 (v : Bls.G2Pubs.PublicKey)
  | msgs (v : List (List UInt8))

/-- What a call returns, other than a pointer: `err` is nil, with an
error except from `SWEncodeG2`. -/
inductive Out
  | bool (b : Bool) | bytes (b : List UInt8) | err

/-- The two packages. -/
inductive Pkg
  | g1pubs | g2pubs

/-- A call. `i` is the receiver (or the only argument), `j`, … the arguments. -/
inductive Op
  -- `NewG1Affine`, `NewG1Projective`, `NewG2Affine`, `NewG2Projective`, and making a `[][]byte`
  | newG1Affine (x y : FQ) | newG1Projective (x y z : FQ) | newG2Affine (x y : FQ2) | newG2Projective (x y z : FQ2)
  | newMsgs (ms : List (List UInt8))
  -- in place
  | neg (i : Nat) | setRawBytes (i : Nat) (b : List UInt8) | aggregate (i j : Nat)
  -- returning a pointer
  | copy (i : Nat) | toProjective (i : Nat) | toAffine (i : Nat) | double (i : Nat) | add (i j : Nat)
  | addAffine (i j : Nat) | mul (i : Nat) (b : FQRepr) | mulFR (i : Nat) (b : FRRepr) | mulBig (i : Nat) (b : Nat)
  | scaleByCofactor (i : Nat)
  | getG1PointFromX (x : FQ) (greatest : Bool) | getG2PointFromX (x : FQ2) (greatest : Bool)
  | decompressG1 (b : List UInt8) | decompressG1Unchecked (b : List UInt8)
  | decompressG2 (b : List UInt8) | decompressG2Unchecked (b : List UInt8)
  | swEncodeG2 (t : FQ2) | hashG1 (m : List UInt8) | hashG2 (m : List UInt8) | hashG2WithDomain (m d : List UInt8)
  | newSignature (pkg : Pkg) (i : Nat) | newPublicKey (pkg : Pkg) (i : Nat)
  | deserializeSignature (pkg : Pkg) (b : List UInt8) | deserializePublicKey (pkg : Pkg) (b : List UInt8)
  | getPoint (i : Nat)
  | sign (pkg : Pkg) (m : List UInt8) (f : FR) | signWithDomain (m : List UInt8) (f : FR) (d : List UInt8)
  | privToPub (pkg : Pkg) (f : FR)
  | newAggregateSignature (pkg : Pkg) | newAggregatePubkey (pkg : Pkg)
  | aggregateSignatures (pkg : Pkg) (is : List Nat) | aggregatePublicKeys (pkg : Pkg) (is : List Nat)
  -- returning something else
  | isZero (i : Nat) | isOnCurve (i : Nat) | isInCorrectSubgroup (i : Nat) | equals (i j : Nat)
  | serialize (i : Nat) | compress (i : Nat)
  | compareTwoPairings (i j k l : Nat)
  | verify (pkg : Pkg) (m : List UInt8) (pub sig : Nat) | verifyWithDomain (m : List UInt8) (pub sig : Nat) (d : List UInt8)
  | verifyAggregate (pkg : Pkg) (sig : Nat) (pubs : List Nat) (ms : Nat)
  | verifyAggregateCommon (pkg : Pkg) (sig : Nat) (pubs : List Nat) (m : List UInt8)
  | verifyAggregateCommonWithDomain (sig : Nat) (pubs : List Nat) (m d : List UInt8)
  | verifyAggregateWithDomain (sig : Nat) (pubs : List Nat) (ms : Nat) (d : List UInt8)

/-- What a call does to a program's variables: a new variable, a new value of a variable, or only a returned value. -/
inductive Effect (α : Type)
  | new (v : α) | change (i : Nat) (v : α) | out (o : Out)

/-- The variables after a call. -/
def Effect.apply {α : Type} (s : List α) : Effect α → List α
  | .new v => s ++ [v]
  | .change i v => s.set i v
  | .out _ => s

/-- What a call returned. -/
def Effect.outs {α : Type} : Effect α → List Out
  | .out o => [o]
  | _ => []

/-- A new variable, or an error. -/
def Effect.newOr {α : Type} : Option α → Effect α
  | some v => .new v
  | none => .out .err

/-- The variable, if a program may change it in place. -/
def own {α : Type} (s : List α) (i : Nat) : Option α := if 8 ≤ i then s[i]? else none

/-- The value as a `g1pubs` signature, … -/
def Val.asSig1 : Val → Option Bls.G1Pubs.Signature | .sig1 v => some v | _ => none
/-- The value as a `g1pubs` public key. -/
def Val.asPub1 : Val → Option Bls.G1Pubs.PublicKey | .pub1 v => some v | _ => none
/-- The value as a `g2pubs` signature. -/
def Val.asSig2 : Val → Option Bls.G2Pubs.Signature | .sig2 v => some v | _ => none
/-- The value as a `g2pubs` public key. -/
def Val.asPub2 : Val → Option Bls.G2Pubs.PublicKey | .pub2 v => some v | _ => none
/-- The value as a list of messages. -/
def Val.asMsgs : Val → Option (List (List UInt8)) | .msgs v => some v | _ => none

/-- The variables `is`, all of the same type. -/
def args {α β : Type} (as : α → Option β) (s : List α) (is : List Nat) : Option (List β) :=
  is.mapM fun i => s[i]?.bind as

/-- What the calls do, on values (`none`: a panic, or a variable of a wrong type). -/
def Op.effect (sha : List UInt8 → List UInt8) (s : List Val) : Op → Option (Effect Val)
  | .newG1Affine x y => some (.new (.g1a (.new x y)))
  | .newG1Projective x y z => some (.new (.g1p ⟨x, y, z⟩))
  | .newG2Affine x y => some (.new (.g2a (.new x y)))
  | .newG2Projective x y z => some (.new (.g2p ⟨x, y, z⟩))
  | .newMsgs ms => some (.new (.msgs ms))
  | .neg i => (own s i).bind fun
    | .g1a v => some (.change i (.g1a v.neg))
    | .g1p v => some (.change i (.g1p v.neg))
    | .g2a v => some (.change i (.g2a v.neg))
    | _ => none
  | .setRawBytes i b => (own s i).bind fun
    | .g1a v => some (.change i (.g1a (v.setRawBytes b)))
    | .g2a v => some (.change i (.g2a (v.setRawBytes b)))
    | _ => none
  | .aggregate i j => (own s i).bind fun v => s[j]?.bind fun w => match v, w with
    | .sig1 v, .sig1 w => some (.change i (.sig1 (v.aggregate w)))
    | .pub1 v, .pub1 w => some (.change i (.pub1 (v.aggregate w)))
    | .sig2 v, .sig2 w => some (.change i (.sig2 (v.aggregate w)))
    | .pub2 v, .pub2 w => some (.change i (.pub2 (v.aggregate w)))
    | _, _ => none
  | .copy i => s[i]?.bind fun
    | .msgs _ => none
    | v => some (.new v)
  | .toProjective i => s[i]?.bind fun
    | .g1a v => some (.new (.g1p v.toProjective))
    | .g2a v => some (.new (.g2p v.toProjective))
    | _ => none
  | .toAffine i => s[i]?.bind fun
    | .g1p v => some (.new (.g1a v.toAffine))
    | .g2p v => some (.new (.g2a v.toAffine))
    | _ => none
  | .double i => s[i]?.bind fun
    | .g1p v => some (.new (.g1p v.double))
    | .g2p v => some (.new (.g2p v.double))
    | _ => none
  | .add i j => s[i]?.bind fun v => s[j]?.bind fun w => match v, w with
    | .g1p v, .g1p w => some (.new (.g1p (v.add w)))
    | .g2p v, .g2p w => some (.new (.g2p (v.add w)))
    | _, _ => none
  | .addAffine i j => s[i]?.bind fun v => s[j]?.bind fun w => match v, w with
    | .g1p v, .g1a w => some (.new (.g1p (v.addAffine w)))
    | .g2p v, .g2a w => some (.new (.g2p (v.addAffine w)))
    | _, _ => none
  | .mul i b => s[i]?.bind fun
    | .g1a v => some (.new (.g1p (v.mul b)))
    | .g1p v => some (.new (.g1p (v.mul b)))
    | .g2a v => some (.new (.g2p (v.mul b)))
    | .g2p v => some (.new (.g2p (v.mul b)))
    | _ => none
  | .mulFR i b => s[i]?.bind fun
    | .g1a v => some (.new (.g1p (v.mulFR b)))
    | .g1p v => some (.new (.g1p (v.mulFR b)))
    | .g2a v => some (.new (.g2p (v.mulFR b)))
    | .g2p v => some (.new (.g2p (v.mulFR b)))
    | _ => none
  | .mulBig i b => s[i]?.bind fun
    | .g2a v => some (.new (.g2p (v.mulBig b)))
    | _ => none
  | .scaleByCofactor i => s[i]?.bind fun
    | .g1a v => some (.new (.g1p v.scaleByCofactor))
    | .g2a v => some (.new (.g2p v.scaleByCofactor))
    | _ => none
  | .getG1PointFromX x g => some (.newOr ((G1Affine.getPointFromX x g).map .g1a))
  | .getG2PointFromX x g => some (.newOr ((G2Affine.getPointFromX x g).map .g2a))
  | .decompressG1 b => some (.newOr ((G1Affine.decompress b).map .g1a))
  | .decompressG1Unchecked b => some (.newOr ((G1Affine.decompressUnchecked b).map .g1a))
  | .decompressG2 b => some (.newOr ((G2Affine.decompress b).map .g2a))
  | .decompressG2Unchecked b => some (.newOr ((G2Affine.decompressUnchecked b).map .g2a))
  | .swEncodeG2 t => some (.newOr ((Bls.swEncodeG2 t).map .g2a))
  | .hashG1 m => (Bls.hashG1 sha m).map fun v => .new (.g1a v)
  | .hashG2 m => (Bls.hashG2 sha m).map fun v => .new (.g2a v)
  | .hashG2WithDomain m d => (Bls.hashG2WithDomain sha m d).map fun v => .new (.g2p v)
  | .newSignature pkg i => s[i]?.bind fun v => match pkg, v with
    | .g1pubs, .g2a v => some (.new (.sig1 (Bls.G1Pubs.newSignatureFromG2 v)))
    | .g2pubs, .g1a v => some (.new (.sig2 (Bls.G2Pubs.newSignatureFromG1 v)))
    | _, _ => none
  | .newPublicKey pkg i => s[i]?.bind fun v => match pkg, v with
    | .g1pubs, .g1a v => some (.new (.pub1 (Bls.G1Pubs.newPublicKeyFromG1 v)))
    | .g2pubs, .g2a v => some (.new (.pub2 (Bls.G2Pubs.newPublicKeyFromG2 v)))
    | _, _ => none
  | .deserializeSignature .g1pubs b => some (.newOr ((Bls.G1Pubs.deserializeSignature b).map .sig1))
  | .deserializeSignature .g2pubs b => some (.newOr ((Bls.G2Pubs.deserializeSignature b).map .sig2))
  | .deserializePublicKey .g1pubs b => some (.newOr ((Bls.G1Pubs.deserializePublicKey b).map .pub1))
  | .deserializePublicKey .g2pubs b => some (.newOr ((Bls.G2Pubs.deserializePublicKey b).map .pub2))
  | .getPoint i => s[i]?.bind fun
    | .sig1 v => some (.new (.g2p v.getPoint))
    | .pub1 v => some (.new (.g1p v.getPoint))
    | .sig2 v => some (.new (.g1p v.getPoint))
    | .pub2 v => some (.new (.g2p v.getPoint))
    | _ => none
  | .sign .g1pubs m f => (Bls.G1Pubs.sign sha m ⟨some f⟩).map fun v => .new (.sig1 v)
  | .sign .g2pubs m f => (Bls.G2Pubs.sign sha m ⟨some f⟩).map fun v => .new (.sig2 v)
  | .signWithDomain m f d => (Bls.G1Pubs.signWithDomain sha m ⟨some f⟩ d).map fun v => .new (.sig1 v)
  | .privToPub .g1pubs f => (Bls.G1Pubs.privToPub ⟨some f⟩).map fun v => .new (.pub1 v)
  | .privToPub .g2pubs f => (Bls.G2Pubs.privToPub ⟨some f⟩).map fun v => .new (.pub2 v)
  | .newAggregateSignature .g1pubs => some (.new (.sig1 Bls.G1Pubs.newAggregateSignature))
  | .newAggregateSignature .g2pubs => some (.new (.sig2 Bls.G2Pubs.newAggregateSignature))
  | .newAggregatePubkey .g1pubs => some (.new (.pub1 Bls.G1Pubs.newAggregatePubkey))
  | .newAggregatePubkey .g2pubs => some (.new (.pub2 Bls.G2Pubs.newAggregatePubkey))
  | .aggregateSignatures .g1pubs is =>
    (args Val.asSig1 s is).map fun l => .new (.sig1 (Bls.G1Pubs.aggregateSignatures l))
  | .aggregateSignatures .g2pubs is =>
    (args Val.asSig2 s is).map fun l => .new (.sig2 (Bls.G2Pubs.aggregateSignatures l))
  | .aggregatePublicKeys .g1pubs is =>
    (args Val.asPub1 s is).map fun l => .new (.pub1 (Bls.G1Pubs.aggregatePublicKeys l))
  | .aggregatePublicKeys .g2pubs is =>
    (args Val.asPub2 s is).map fun l => .new (.pub2 (Bls.G2Pubs.aggregatePublicKeys l))
  | .isZero i => s[i]?.bind fun
    | .g1a v => some (.out (.bool v.isZero))
    | .g1p v => some (.out (.bool v.isZero))
    | .g2a v => some (.out (.bool v.isZero))
    | .g2p v => some (.out (.bool v.isZero))
    | _ => none
  | .isOnCurve i => s[i]?.bind fun
    | .g1a v => some (.out (.bool v.isOnCurve))
    | .g2a v => some (.out (.bool v.isOnCurve))
    | _ => none
  | .isInCorrectSubgroup i => s[i]?.bind fun
    | .g1a v => some (.out (.bool v.isInCorrectSubgroup))
    | .g2a v => some (.out (.bool v.isInCorrectSubgroup))
    | _ => none
  | .equals i j => s[i]?.bind fun v => s[j]?.bind fun w => match v, w with
    | .g1a v, .g1a w => some (.out (.bool (v.equals w)))
    | .g1p v, .g1p w => some (.out (.bool (v.equal w)))
    | .g2a v, .g2a w => some (.out (.bool (v.equals w)))
    | .g2p v, .g2p w => some (.out (.bool (v.equals w)))
    | .pub1 v, .pub1 w => some (.out (.bool (v.equals w)))
    | .pub2 v, .pub2 w => some (.out (.bool (v.equals w)))
    | _, _ => none
  | .serialize i => s[i]?.bind fun
    | .g1a v => some (.out (.bytes v.serializeBytes))
    | .g2a v => some (.out (.bytes v.serializeBytes))
    | .sig1 v => some (.out (.bytes v.serialize))
    | .pub1 v => some (.out (.bytes v.serialize))
    | .sig2 v => some (.out (.bytes v.serialize))
    | .pub2 v => some (.out (.bytes v.serialize))
    | _ => none
  | .compress i => s[i]?.bind fun
    | .g1a v => some (.out (.bytes v.compress))
    | .g2a v => some (.out (.bytes v.compress))
    | _ => none
  | .compareTwoPairings i j k l =>
    s[i]?.bind fun p1 => s[j]?.bind fun q1 => s[k]?.bind fun p2 => s[l]?.bind fun q2 => match p1, q1, p2, q2 with
    | .g1p p1, .g2p q1, .g1p p2, .g2p q2 => (Bls.compareTwoPairings p1 q1 p2 q2).map fun b => .out (.bool b)
    | _, _, _, _ => none
  | .verify .g1pubs m p g => (s[p]?.bind Val.asPub1).bind fun p => (s[g]?.bind Val.asSig1).bind fun g =>
    (Bls.G1Pubs.verify sha m p g).map fun b => .out (.bool b)
  | .verify .g2pubs m p g => (s[p]?.bind Val.asPub2).bind fun p => (s[g]?.bind Val.asSig2).bind fun g =>
    (Bls.G2Pubs.verify sha m p g).map fun b => .out (.bool b)
  | .verifyWithDomain m p g d => (s[p]?.bind Val.asPub1).bind fun p => (s[g]?.bind Val.asSig1).bind fun g =>
    (Bls.G1Pubs.verifyWithDomain sha m p g d).map fun b => .out (.bool b)
  | .verifyAggregate .g1pubs g is ms => (s[g]?.bind Val.asSig1).bind fun g => (args Val.asPub1 s is).bind fun ps =>
    (s[ms]?.bind Val.asMsgs).bind fun ms => (g.verifyAggregate sha ps ms).map fun b => .out (.bool b)
  | .verifyAggregate .g2pubs g is ms => (s[g]?.bind Val.asSig2).bind fun g => (args Val.asPub2 s is).bind fun ps =>
    (s[ms]?.bind Val.asMsgs).bind fun ms => (g.verifyAggregate sha ps ms).map fun b => .out (.bool b)
  | .verifyAggregateCommon .g1pubs g is m => (s[g]?.bind Val.asSig1).bind fun g =>
    (args Val.asPub1 s is).bind fun ps => (g.verifyAggregateCommon sha ps m).map fun b => .out (.bool b)
  | .verifyAggregateCommon .g2pubs g is m => (s[g]?.bind Val.asSig2).bind fun g =>
    (args Val.asPub2 s is).bind fun ps => (g.verifyAggregateCommon sha ps m).map fun b => .out (.bool b)
  | .verifyAggregateCommonWithDomain g is m d => (s[g]?.bind Val.asSig1).bind fun g =>
    (args Val.asPub1 s is).bind fun ps => (g.verifyAggregateCommonWithDomain sha ps m d).map fun b => .out (.bool b)
  | .verifyAggregateWithDomain g is ms d => (s[g]?.bind Val.asSig1).bind fun g => (args Val.asPub1 s is).bind fun ps =>
    (s[ms]?.bind Val.asMsgs).bind fun ms => (g.verifyAggregateWithDomain sha ps ms d).map fun b => .out (.bool b)

/-- The pointer in variable `i`, with the object it points at: its type selects the method. -/
def arg (e : List Nat) (i : Nat) : M (Nat × Obj) :=
  match e[i]? with
  | some p => .read p fun o => .ret (p, o)
  | none => .panic

/-- The same, if a program may change it in place. -/
def ownArg (e : List Nat) (i : Nat) : M (Nat × Obj) := if 8 ≤ i then arg e i else lift none

/-- The object is a `g1pubs` signature, … -/
def Obj.isSig1 : Obj → Bool | .sig1 _ => true | _ => false
/-- The object is a `g1pubs` public key. -/
def Obj.isPub1 : Obj → Bool | .pub1 _ => true | _ => false
/-- The object is a `g2pubs` signature. -/
def Obj.isSig2 : Obj → Bool | .sig2 _ => true | _ => false
/-- The object is a `g2pubs` public key. -/
def Obj.isPub2 : Obj → Bool | .pub2 _ => true | _ => false
/-- The object is a list of messages. -/
def Obj.isMsgs : Obj → Bool | .msgs _ => true | _ => false

/-- The pointer in variable `i`, of the type `is` (calls with another type do not compile). -/
def argOf (is : Obj → Bool) (e : List Nat) (i : Nat) : M Nat := do
  let t ← arg e i
  if is t.2 then pure t.1 else lift none

/-- The pointers in several variables. -/
def argsOf (is : Obj → Bool) (e : List Nat) : List Nat → M (List Nat)
  | [] => pure []
  | i :: l => do
    let p ← argOf is e i
    pure (p :: (← argsOf is e l))

/-- The call returns this pointer. -/
def ret (x : M Nat) : M (Effect Nat) := do pure (.new (← x))
/-- The call returns this pointer, or nil with an error. -/
def retOr (x : M (Option Nat)) : M (Effect Nat) := do pure (.newOr (← x))
/-- The call changes what `p`, in variable `i`, points at. -/
def act (i p : Nat) (x : M Unit) : M (Effect Nat) := do x; pure (.change i p)
/-- The call returns this boolean. -/
def retBool (x : M Bool) : M (Effect Nat) := do pure (.out (.bool (← x)))
/-- The call returns these bytes. -/
def retBytes (x : M (List UInt8)) : M (Effect Nat) := do pure (.out (.bytes (← x)))

/-- The calls in memory. -/
def Op.onMemory (sha : List UInt8 → List UInt8) (e : List Nat) : Op → M (Effect Nat)
  | .newG1Affine x y => ret (alloc (.g1a (.new x y)))
  | .newG1Projective x y z => ret (alloc (.g1p ⟨x, y, z⟩))
  | .newG2Affine x y => ret (alloc (.g2a (.new x y)))
  | .newG2Projective x y z => ret (alloc (.g2p ⟨x, y, z⟩))
  | .newMsgs ms => ret (alloc (.msgs ms))
  | .neg i => do match ← ownArg e i with
    | (p, .g1a _) => act i p (g1aNeg p)
    | (p, .g1p _) => act i p (g1pNeg p)
    | (p, .g2a _) => act i p (g2aNeg p)
    | _ => lift none
  | .setRawBytes i b => do match ← ownArg e i with
    | (p, .g1a _) => act i p (g1aSetRawBytes p b)
    | (p, .g2a _) => act i p (g2aSetRawBytes p b)
    | _ => lift none
  | .aggregate i j => do match ← ownArg e i, ← arg e j with
    | (p, .sig1 _), (q, .sig1 _) => act i p (G1Pubs.sigAggregate p q)
    | (p, .pub1 _), (q, .pub1 _) => act i p (G1Pubs.pubAggregate p q)
    | (p, .sig2 _), (q, .sig2 _) => act i p (G2Pubs.sigAggregate p q)
    | (p, .pub2 _), (q, .pub2 _) => act i p (G2Pubs.pubAggregate p q)
    | _, _ => lift none
  | .copy i => do match ← arg e i with
    | (p, .g1a _) => ret (g1aCopy p)
    | (p, .g1p _) => ret (g1pCopy p)
    | (p, .g2a _) => ret (g2aCopy p)
    | (p, .g2p _) => ret (g2pCopy p)
    | (p, .sig1 _) => ret (G1Pubs.sigCopy p)
    | (p, .pub1 _) => ret (G1Pubs.pubCopy p)
    | (p, .sig2 _) => ret (G2Pubs.sigCopy p)
    | (p, .pub2 _) => ret (G2Pubs.pubCopy p)
    | _ => lift none
  | .toProjective i => do match ← arg e i with
    | (p, .g1a _) => ret (g1aToProjective p)
    | (p, .g2a _) => ret (g2aToProjective p)
    | _ => lift none
  | .toAffine i => do match ← arg e i with
    | (p, .g1p _) => ret (g1pToAffine p)
    | (p, .g2p _) => ret (g2pToAffine p)
    | _ => lift none
  | .double i => do match ← arg e i with
    | (p, .g1p _) => ret (g1pDouble p)
    | (p, .g2p _) => ret (g2pDouble p)
    | _ => lift none
  | .add i j => do match ← arg e i, ← arg e j with
    | (p, .g1p _), (q, .g1p _) => ret (g1pAdd p q)
    | (p, .g2p _), (q, .g2p _) => ret (g2pAdd p q)
    | _, _ => lift none
  | .addAffine i j => do match ← arg e i, ← arg e j with
    | (p, .g1p _), (q, .g1a _) => ret (g1pAddAffine p q)
    | (p, .g2p _), (q, .g2a _) => ret (g2pAddAffine p q)
    | _, _ => lift none
  | .mul i b => do match ← arg e i with
    | (p, .g1a _) => ret (g1aMul p b.bit b.bitLen)
    | (p, .g1p _) => ret (g1pMul p b.bit b.bitLen)
    | (p, .g2a _) => ret (g2aMul p b.bit b.bitLen)
    | (p, .g2p _) => ret (g2pMul p b.bit b.bitLen)
    | _ => lift none
  | .mulFR i b => do match ← arg e i with
    | (p, .g1a _) => ret (g1aMul p b.bit b.bitLen)
    | (p, .g1p _) => ret (g1pMul p b.bit b.bitLen)
    | (p, .g2a _) => ret (g2aMul p b.bit b.bitLen)
    | (p, .g2p _) => ret (g2pMul p b.bit b.bitLen)
    | _ => lift none
  | .mulBig i b => do match ← arg e i with
    | (p, .g2a _) => ret (g2aMulBig p b)
    | _ => lift none
  | .scaleByCofactor i => do match ← arg e i with
    | (p, .g1a _) => ret (g1aScaleByCofactor p)
    | (p, .g2a _) => ret (g2aScaleByCofactor p)
    | _ => lift none
  | .getG1PointFromX x g => retOr (HeapPoints.getG1PointFromX x g)
  | .getG2PointFromX x g => retOr (HeapPoints.getG2PointFromX x g)
  | .decompressG1 b => retOr (HeapPoints.decompressG1 b)
  | .decompressG1Unchecked b => retOr (HeapPoints.decompressG1Unchecked b)
  | .decompressG2 b => retOr (HeapPoints.decompressG2 b)
  | .decompressG2Unchecked b => retOr (HeapPoints.decompressG2Unchecked b)
  | .swEncodeG2 t => retOr (HeapPoints.swEncodeG2 t)
  | .hashG1 m => ret (HeapPoints.hashG1 sha m)
  | .hashG2 m => ret (HeapPoints.hashG2 sha m)
  | .hashG2WithDomain m d => ret (HeapPoints.hashG2WithDomain sha m d)
  | .newSignature pkg i => do match pkg, ← arg e i with
    | .g1pubs, (p, .g2a _) => ret (G1Pubs.newSignatureFromG2 p)
    | .g2pubs, (p, .g1a _) => ret (G2Pubs.newSignatureFromG1 p)
    | _, _ => lift none
  | .newPublicKey pkg i => do match pkg, ← arg e i with
    | .g1pubs, (p, .g1a _) => ret (G1Pubs.newPublicKeyFromG1 p)
    | .g2pubs, (p, .g2a _) => ret (G2Pubs.newPublicKeyFromG2 p)
    | _, _ => lift none
  | .deserializeSignature .g1pubs b => retOr (G1Pubs.deserializeSignature b)
  | .deserializeSignature .g2pubs b => retOr (G2Pubs.deserializeSignature b)
  | .deserializePublicKey .g1pubs b => retOr (G1Pubs.deserializePublicKey b)
  | .deserializePublicKey .g2pubs b => retOr (G2Pubs.deserializePublicKey b)
  | .getPoint i => do match ← arg e i with
    | (p, .sig1 _) => ret (G1Pubs.sigGetPoint p)
    | (p, .pub1 _) => ret (G1Pubs.pubGetPoint p)
    | (p, .sig2 _) => ret (G2Pubs.sigGetPoint p)
    | (p, .pub2 _) => ret (G2Pubs.pubGetPoint p)
    | _ => lift none
  | .sign .g1pubs m f => ret (G1Pubs.sign sha m f)
  | .sign .g2pubs m f => ret (G2Pubs.sign sha m f)
  | .signWithDomain m f d => ret (G1Pubs.signWithDomain sha m f d)
  | .privToPub .g1pubs f => ret (G1Pubs.privToPub f)
  | .privToPub .g2pubs f => ret (G2Pubs.privToPub f)
  | .newAggregateSignature .g1pubs => ret G1Pubs.newAggregateSignature
  | .newAggregateSignature .g2pubs => ret G2Pubs.newAggregateSignature
  | .newAggregatePubkey .g1pubs => ret G1Pubs.newAggregatePubkey
  | .newAggregatePubkey .g2pubs => ret G2Pubs.newAggregatePubkey
  | .aggregateSignatures .g1pubs is => do ret (G1Pubs.aggregateSignatures (← argsOf Obj.isSig1 e is))
  | .aggregateSignatures .g2pubs is => do ret (G2Pubs.aggregateSignatures (← argsOf Obj.isSig2 e is))
  | .aggregatePublicKeys .g1pubs is => do ret (G1Pubs.aggregatePublicKeys (← argsOf Obj.isPub1 e is))
  | .aggregatePublicKeys .g2pubs is => do ret (G2Pubs.aggregatePublicKeys (← argsOf Obj.isPub2 e is))
  | .isZero i => do match ← arg e i with
    | (p, .g1a _) => retBool (do pure (← g1a p).isZero)
    | (p, .g1p _) => retBool (do pure (← g1p p).isZero)
    | (p, .g2a _) => retBool (do pure (← g2a p).isZero)
    | (p, .g2p _) => retBool (do pure (← g2p p).isZero)
    | _ => lift none
  | .isOnCurve i => do match ← arg e i with
    | (p, .g1a _) => retBool (do pure (← g1a p).isOnCurve)
    | (p, .g2a _) => retBool (do pure (← g2a p).isOnCurve)
    | _ => lift none
  | .isInCorrectSubgroup i => do match ← arg e i with
    | (p, .g1a _) => retBool (do pure (← g1a p).isInCorrectSubgroup)
    | (p, .g2a _) => retBool (do pure (← g2a p).isInCorrectSubgroup)
    | _ => lift none
  | .equals i j => do match ← arg e i, ← arg e j with
    | (p, .g1a _), (q, .g1a _) => retBool (do let v ← g1a p; pure (v.equals (← g1a q)))
    | (p, .g1p _), (q, .g1p _) => retBool (do let v ← g1p p; pure (v.equal (← g1p q)))
    | (p, .g2a _), (q, .g2a _) => retBool (do let v ← g2a p; pure (v.equals (← g2a q)))
    | (p, .g2p _), (q, .g2p _) => retBool (do let v ← g2p p; pure (v.equals (← g2p q)))
    | (p, .pub1 _), (q, .pub1 _) => retBool (G1Pubs.pubEquals p q)
    | (p, .pub2 _), (q, .pub2 _) => retBool (G2Pubs.pubEquals p q)
    | _, _ => lift none
  | .serialize i => do match ← arg e i with
    | (p, .g1a _) => retBytes (do pure (← g1a p).serializeBytes)
    | (p, .g2a _) => retBytes (do pure (← g2a p).serializeBytes)
    | (p, .sig1 _) => retBytes (G1Pubs.sigSerialize p)
    | (p, .pub1 _) => retBytes (G1Pubs.pubSerialize p)
    | (p, .sig2 _) => retBytes (G2Pubs.sigSerialize p)
    | (p, .pub2 _) => retBytes (G2Pubs.pubSerialize p)
    | _ => lift none
  | .compress i => do match ← arg e i with
    | (p, .g1a _) => retBytes (do pure (← g1a p).compress)
    | (p, .g2a _) => retBytes (do pure (← g2a p).compress)
    | _ => lift none
  | .compareTwoPairings i j k l => do match ← arg e i, ← arg e j, ← arg e k, ← arg e l with
    | (p1, .g1p _), (q1, .g2p _), (p2, .g1p _), (q2, .g2p _) => retBool (HeapPoints.compareTwoPairings p1 q1 p2 q2)
    | _, _, _, _ => lift none
  | .verify .g1pubs m p g => do
    let p ← argOf Obj.isPub1 e p
    let g ← argOf Obj.isSig1 e g
    retBool (G1Pubs.verify sha m p g)
  | .verify .g2pubs m p g => do
    let p ← argOf Obj.isPub2 e p
    let g ← argOf Obj.isSig2 e g
    retBool (G2Pubs.verify sha m p g)
  | .verifyWithDomain m p g d => do
    let p ← argOf Obj.isPub1 e p
    let g ← argOf Obj.isSig1 e g
    retBool (G1Pubs.verifyWithDomain sha m p g d)
  | .verifyAggregate .g1pubs g is ms => do
    let g ← argOf Obj.isSig1 e g
    let ps ← argsOf Obj.isPub1 e is
    let ms ← argOf Obj.isMsgs e ms
    retBool (G1Pubs.verifyAggregate sha g ps ms)
  | .verifyAggregate .g2pubs g is ms => do
    let g ← argOf Obj.isSig2 e g
    let ps ← argsOf Obj.isPub2 e is
    let ms ← argOf Obj.isMsgs e ms
    retBool (G2Pubs.verifyAggregate sha g ps ms)
  | .verifyAggregateCommon .g1pubs g is m => do
    let g ← argOf Obj.isSig1 e g
    let ps ← argsOf Obj.isPub1 e is
    retBool (G1Pubs.verifyAggregateCommon sha g ps m)
  | .verifyAggregateCommon .g2pubs g is m => do
    let g ← argOf Obj.isSig2 e g
    let ps ← argsOf Obj.isPub2 e is
    retBool (G2Pubs.verifyAggregateCommon sha g ps m)
  | .verifyAggregateCommonWithDomain g is m d => do
    let g ← argOf Obj.isSig1 e g
    let ps ← argsOf Obj.isPub1 e is
    retBool (G1Pubs.verifyAggregateCommonWithDomain sha g ps m d)
  | .verifyAggregateWithDomain g is ms d => do
    let g ← argOf Obj.isSig1 e g
    let ps ← argsOf Obj.isPub1 e is
    let ms ← argOf Obj.isMsgs e ms
    retBool (G1Pubs.verifyAggregateWithDomain sha g ps ms d)

/-- The calls of a program one after the other, on values; the returned values in order. -/
def valuesRun (sha : List UInt8 → List UInt8) : List Op → List Val → Option (List Val × List Out)
  | [], s => some (s, [])
  | op :: ops, s => (op.effect sha s).bind fun f =>
    (valuesRun sha ops (f.apply s)).map fun u => (u.1, f.outs ++ u.2)

/-- The calls of a program one after the other, in memory. -/
def memoryRun (sha : List UInt8 → List UInt8) : List Op → List Nat → M (List Nat × List Out)
  | [], e => pure (e, [])
  | op :: ops, e => do
    let f ← op.onMemory sha e
    let u ← memoryRun sha ops (f.apply e)
    pure (u.1, f.outs ++ u.2)

/-- What a pointer points at. -/
def Mem.view (m : Mem) (p : Nat) : Option Val :=
  match m[p]? with
  | some (.g1a v) => some (.g1a v)
  | some (.g1p v) => some (.g1p v)
  | some (.g2a v) => some (.g2a v)
  | some (.g2p v) => some (.g2p v)
  | some (.msgs v) => some (.msgs v)
  | some (.sig1 q) => match m[q]? with | some (.g2p v) => some (.sig1 ⟨v⟩) | _ => none
  | some (.pub1 q) => match m[q]? with | some (.g1p v) => some (.pub1 ⟨v⟩) | _ => none
  | some (.sig2 q) => match m[q]? with | some (.g1p v) => some (.sig2 ⟨v⟩) | _ => none
  | some (.pub2 q) => match m[q]? with | some (.g2p v) => some (.pub2 ⟨v⟩) | _ => none
  | none => none

/-- The values of the package variables. -/
def packageVals : List Val :=
  [.g1a .zero, .g1a .one, .g1p .zero, .g1p .one, .g2a .zero, .g2a .one, .g2p .zero, .g2p .one]

/-- A program on values. -/
def meaning (sha : List UInt8 → List UInt8) (ops : List Op) : Option (List Val × List Out) :=
  valuesRun sha ops packageVals

/-- A program run in a fresh process: what each variable points at in the end, and the returned values. -/
def execute (sha : List UInt8 → List UInt8) (ops : List Op) : Option (List (Option Val) × List Out) :=
  (memoryRun sha ops [0, 1, 2, 3, 4, 5, 6, 7] init).map fun t => (t.1.1.map t.2.view, t.1.2)

/-- The variable that a call changes in place. -/
def Op.receiver : Op → Option Nat
  | .neg i | .setRawBytes i _ | .aggregate i _ => some i
  | _ => none

/-- The call does not use `SetRawBytes` on a `G2Affine` that is infinity. -/
def Op.Safe (s : List Val) : Op → Prop
  | .setRawBytes i _ => ∀ v, s[i]? = some (.g2a v) → v.infinity = false
  | _ => True

/-- No call of the program uses `SetRawBytes` on a `G2Affine` that is infinity. -/
def Safe (sha : List UInt8 → List UInt8) : List Op → List Val → Prop
  | [], _ => True
  | op :: ops, s => op.Safe s ∧ ∀ f, op.effect sha s = some f → Safe sha ops (f.apply s)

end Bls.HeapPoints
