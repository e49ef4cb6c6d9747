import Verif.Spec.Keys
import Verif.Spec.Bytes
import Verif.Spec.Hash
/-
Everything a program can do with the packages g1pubs and g2pubs, and the ideal signature scheme: a public key is its secret
scalar x, the signature of a message is x times the message's point, and a signature is accepted if it is that point.
-/
namespace Bls.Uses

/-- What a program can see: results of verifications and comparisons, whether bytes were rejected, and encodings. -/
inductive Obs | bool (b : Bool) | bytes (b : List UInt8)

/-- The messages (and pairs of domain and message) a program may use, whether there are functions with domains, and the lengths of encoded public keys and signatures. -/
structure Setting where
  msg : List UInt8 → Prop
  msgIn : List UInt8 → List UInt8 → Prop
  domains : Prop
  pubLength : ℕ
  sigLength : ℕ

/-- A program: calls, each of which makes a new key or signature from earlier ones, given by their numbers, and calls whose
results the rest of the program may depend on in any way. -/
inductive Prog (s : Setting)
  | done
  | readKey (b : List UInt8) (hb : b.length = 32) (p : Prog s)
  | derive (seed : List UInt8) (p : Prog s)
  | writeKey (i : Nat) (p : List UInt8 → Prog s)
  | privToPub (i : Nat) (p : Prog s)
  | readPub (b : List UInt8) (hb : b.length = s.pubLength) (p err : Prog s)
  | writePub (i : Nat) (p : List UInt8 → Prog s)
  | equalPub (i j : Nat) (p : Bool → Prog s)
  | newPub (p : Prog s)
  | addPub (i j : Nat) (p : Prog s)
  | sumPub (l : List Nat) (p : Prog s)
  | readSig (b : List UInt8) (hb : b.length = s.sigLength) (p err : Prog s)
  | writeSig (i : Nat) (p : List UInt8 → Prog s)
  | newSig (p : Prog s)
  | addSig (i j : Nat) (p : Prog s)
  | sumSig (l : List Nat) (p : Prog s)
  | sign (m : List UInt8) (hm : s.msg m) (i : Nat) (p : Prog s)
  | verify (m : List UInt8) (hm : s.msg m) (i j : Nat) (p : Bool → Prog s)
  | verifyCommon (m : List UInt8) (hm : s.msg m) (l : List Nat) (j : Nat) (p : Bool → Prog s)
  | verifyAggregate (ms : List (List UInt8)) (hm : ∀ m ∈ ms, s.msg m) (l : List Nat) (j : Nat) (p : Bool → Prog s)
  | signIn (d m : List UInt8) (hm : s.msgIn d m) (i : Nat) (p : Prog s)
  | verifyIn (d m : List UInt8) (hm : s.msgIn d m) (i j : Nat) (p : Bool → Prog s)
  | verifyCommonIn (d m : List UInt8) (hm : s.msgIn d m) (l : List Nat) (j : Nat) (p : Bool → Prog s)
  | verifyAggregateIn (hd : s.domains) (d : List UInt8) (ms : List (List UInt8)) (hm : ∀ m ∈ ms, s.msgIn d m)
      (l : List Nat) (j : Nat) (p : Bool → Prog s)

/-- The functions of a package, on secret keys `K`, public keys `P` and signatures `S`. `none` is a panic, except for
`readPub` and `readSig`, where it is a returned error. The methods Aggregate, which overwrite their receiver, give a new key or
signature here; what overwriting does to other variables is in C61. -/
structure Package (K P S : Type) where
  readKey : List UInt8 → K
  derive : List UInt8 → Option K
  writeKey : K → Option (List UInt8)
  privToPub : K → Option P
  readPub : List UInt8 → Option P
  writePub : P → List UInt8
  equalPub : P → P → Bool
  newPub : P
  addPub : P → P → P
  sumPub : List P → P
  readSig : List UInt8 → Option S
  writeSig : S → List UInt8
  newSig : S
  addSig : S → S → S
  sumSig : List S → S
  sign : List UInt8 → K → Option S
  verify : List UInt8 → P → S → Option Bool
  verifyCommon : List UInt8 → List P → S → Option Bool
  verifyAggregate : List (List UInt8) → List P → S → Option Bool
  signIn : List UInt8 → List UInt8 → K → Option S
  verifyIn : List UInt8 → List UInt8 → P → S → Option Bool
  verifyCommonIn : List UInt8 → List UInt8 → List P → S → Option Bool
  verifyAggregateIn : List UInt8 → List (List UInt8) → List P → S → Option Bool

/-- The keys and signatures of a program, in the order they were made. -/
structure Vars (K P S : Type) where
  keys : List K
  pubs : List P
  sigs : List S

variable {K P S : Type} {s : Setting}

/-- A new secret key. -/
def Vars.pushK (v : Vars K P S) (x : K) : Vars K P S := { v with keys := v.keys ++ [x] }
/-- A new public key. -/
def Vars.pushP (v : Vars K P S) (x : P) : Vars K P S := { v with pubs := v.pubs ++ [x] }
/-- A new signature. -/
def Vars.pushS (v : Vars K P S) (x : S) : Vars K P S := { v with sigs := v.sigs ++ [x] }

/-- The items with the given numbers. -/
def pick {α : Type} (l : List α) : List Nat → Option (List α)
  | [] => some []
  | i :: is => l[i]?.bind fun x => (pick l is).map fun t => x :: t

/-- Adds an observation to what a run gives. -/
def see {α : Type} (o : Obs) (x : Option (α × List Obs)) : Option (α × List Obs) := x.map fun y => (y.1, o :: y.2)

/-- Runs a program: the variables at the end and what was seen; `none` if a call panics or uses a variable that does not
exist. -/
def Prog.run (G : Package K P S) : Prog s → Vars K P S → Option (Vars K P S × List Obs)
  | .done, v => some (v, [])
  | .readKey b _ p, v => p.run G (v.pushK (G.readKey b))
  | .derive b p, v => (G.derive b).bind fun k => p.run G (v.pushK k)
  | .writeKey i p, v => v.keys[i]?.bind fun k => (G.writeKey k).bind fun b => see (.bytes b) ((p b).run G v)
  | .privToPub i p, v => v.keys[i]?.bind fun k => (G.privToPub k).bind fun x => p.run G (v.pushP x)
  | .readPub b _ p err, v =>
    match G.readPub b with
    | some x => see (.bool true) (p.run G (v.pushP x))
    | none => see (.bool false) (err.run G v)
  | .writePub i p, v => v.pubs[i]?.bind fun x => see (.bytes (G.writePub x)) ((p (G.writePub x)).run G v)
  | .equalPub i j p, v => v.pubs[i]?.bind fun x => v.pubs[j]?.bind fun y =>
      see (.bool (G.equalPub x y)) ((p (G.equalPub x y)).run G v)
  | .newPub p, v => p.run G (v.pushP G.newPub)
  | .addPub i j p, v => v.pubs[i]?.bind fun x => v.pubs[j]?.bind fun y => p.run G (v.pushP (G.addPub x y))
  | .sumPub l p, v => (pick v.pubs l).bind fun t => p.run G (v.pushP (G.sumPub t))
  | .readSig b _ p err, v =>
    match G.readSig b with
    | some x => see (.bool true) (p.run G (v.pushS x))
    | none => see (.bool false) (err.run G v)
  | .writeSig i p, v => v.sigs[i]?.bind fun x => see (.bytes (G.writeSig x)) ((p (G.writeSig x)).run G v)
  | .newSig p, v => p.run G (v.pushS G.newSig)
  | .addSig i j p, v => v.sigs[i]?.bind fun x => v.sigs[j]?.bind fun y => p.run G (v.pushS (G.addSig x y))
  | .sumSig l p, v => (pick v.sigs l).bind fun t => p.run G (v.pushS (G.sumSig t))
  | .sign m _ i p, v => v.keys[i]?.bind fun k => (G.sign m k).bind fun x => p.run G (v.pushS x)
  | .verify m _ i j p, v => v.pubs[i]?.bind fun x => v.sigs[j]?.bind fun y => (G.verify m x y).bind fun b =>
      see (.bool b) ((p b).run G v)
  | .verifyCommon m _ l j p, v => (pick v.pubs l).bind fun t => v.sigs[j]?.bind fun y => (G.verifyCommon m t y).bind fun b =>
      see (.bool b) ((p b).run G v)
  | .verifyAggregate ms _ l j p, v => (pick v.pubs l).bind fun t => v.sigs[j]?.bind fun y =>
      (G.verifyAggregate ms t y).bind fun b => see (.bool b) ((p b).run G v)
  | .signIn d m _ i p, v => v.keys[i]?.bind fun k => (G.signIn d m k).bind fun x => p.run G (v.pushS x)
  | .verifyIn d m _ i j p, v => v.pubs[i]?.bind fun x => v.sigs[j]?.bind fun y => (G.verifyIn d m x y).bind fun b =>
      see (.bool b) ((p b).run G v)
  | .verifyCommonIn d m _ l j p, v => (pick v.pubs l).bind fun t => v.sigs[j]?.bind fun y =>
      (G.verifyCommonIn d m t y).bind fun b => see (.bool b) ((p b).run G v)
  | .verifyAggregateIn _ d ms _ l j p, v => (pick v.pubs l).bind fun t => v.sigs[j]?.bind fun y =>
      (G.verifyAggregateIn d ms t y).bind fun b => see (.bool b) ((p b).run G v)

/-! ## The packages -/

/-- The package g1pubs with `sha` for SHA-256. -/
def g1pubs (sha : List UInt8 → List UInt8) : Package G1Pubs.SecretKey G1Pubs.PublicKey G1Pubs.Signature where
  readKey := G1Pubs.deserializeSecretKey
  derive := G1Pubs.deriveSecretKey sha
  writeKey := G1Pubs.SecretKey.serialize
  privToPub := G1Pubs.privToPub
  readPub := G1Pubs.deserializePublicKey
  writePub := G1Pubs.PublicKey.serialize
  equalPub := G1Pubs.PublicKey.equals
  newPub := G1Pubs.newAggregatePubkey
  addPub := G1Pubs.PublicKey.aggregate
  sumPub := G1Pubs.aggregatePublicKeys
  readSig := G1Pubs.deserializeSignature
  writeSig := G1Pubs.Signature.serialize
  newSig := G1Pubs.newAggregateSignature
  addSig := G1Pubs.Signature.aggregate
  sumSig := G1Pubs.aggregateSignatures
  sign := G1Pubs.sign sha
  verify := G1Pubs.verify sha
  verifyCommon m l g := g.verifyAggregateCommon sha l m
  verifyAggregate ms l g := g.verifyAggregate sha l ms
  signIn d m k := G1Pubs.signWithDomain sha m k d
  verifyIn d m p g := G1Pubs.verifyWithDomain sha m p g d
  verifyCommonIn d m l g := g.verifyAggregateCommonWithDomain sha l m d
  verifyAggregateIn d ms l g := g.verifyAggregateWithDomain sha l ms d

/-- Programs that use messages whose hash is a point of order r. -/
def setting1 (sha : List UInt8 → List UInt8) : Setting where
  msg m := ∃ H, G1Pubs.HashesTo sha m H
  msgIn d m := ∃ H, G1Pubs.HashesToIn sha d m H
  domains := True
  pubLength := 48
  sigLength := 96

/-- The package g2pubs with `sha` for SHA-256. It has no functions with domains. -/
def g2pubs (sha : List UInt8 → List UInt8) : Package G2Pubs.SecretKey G2Pubs.PublicKey G2Pubs.Signature where
  readKey := G2Pubs.deserializeSecretKey
  derive := G2Pubs.deriveSecretKey sha
  writeKey := G2Pubs.SecretKey.serialize
  privToPub := G2Pubs.privToPub
  readPub := G2Pubs.deserializePublicKey
  writePub := G2Pubs.PublicKey.serialize
  equalPub := G2Pubs.PublicKey.equals
  newPub := G2Pubs.newAggregatePubkey
  addPub := G2Pubs.PublicKey.aggregate
  sumPub := G2Pubs.aggregatePublicKeys
  readSig := G2Pubs.deserializeSignature
  writeSig := G2Pubs.Signature.serialize
  newSig := G2Pubs.newAggregateSignature
  addSig := G2Pubs.Signature.aggregate
  sumSig := G2Pubs.aggregateSignatures
  sign := G2Pubs.sign sha
  verify := G2Pubs.verify sha
  verifyCommon m l g := g.verifyAggregateCommon sha l m
  verifyAggregate ms l g := g.verifyAggregate sha l ms
  signIn _ _ _ := none
  verifyIn _ _ _ _ := none
  verifyCommonIn _ _ _ _ := none
  verifyAggregateIn _ _ _ _ := none

/-- Programs that use messages whose hash is a point of order r, and no domains. -/
def setting2 (sha : List UInt8 → List UInt8) : Setting where
  msg m := ∃ H, G2Pubs.HashesTo sha m H
  msgIn _ _ := False
  domains := False
  pubLength := 96
  sigLength := 48

/-! ## The ideal scheme -/

/-- What the ideal scheme takes as given: the point of each message, in a group in which signatures are, and how public keys
and signatures are encoded. -/
structure Choice (A : Type) where
  hash : List UInt8 → A
  hashIn : List UInt8 → List UInt8 → A
  encKey : ZMod r → List UInt8
  encPub : ZMod r → List UInt8
  encSig : A → List UInt8
  decPub : List UInt8 → Option (ZMod r)
  decSig : List UInt8 → Option A

variable {A : Type}

/-- The points are those of the hash function, infinity or of order r, like every signature that can be read; a secret key is
written as a number of 32 bytes; public keys and signatures can be read from their encodings. -/
structure Choice.Lawful [AddCommGroup A] (c : Choice A) (s : Setting) (Hash : List UInt8 → A → Prop)
    (HashIn : List UInt8 → List UInt8 → A → Prop) : Prop where
  hash : ∀ m, s.msg m → Hash m (c.hash m)
  hashIn : ∀ d m, s.msgIn d m → HashIn d m (c.hashIn d m)
  encKey : ∀ x, (c.encKey x).length = 32 ∧ beNat (c.encKey x) = x.val
  encPub : ∀ x, (c.encPub x).length = s.pubLength ∧ c.decPub (c.encPub x) = some x
  encSig : ∀ S, r • S = 0 → (c.encSig S).length = s.sigLength ∧ c.decSig (c.encSig S) = some S
  decSig : ∀ b S, b.length = s.sigLength → c.decSig b = some S → r • S = 0

/-- The sum of x·(point of m) for the keys x and messages m of two lists. -/
def total [AddCommGroup A] (h : List UInt8 → A) : List (List UInt8) → List (ZMod r) → A
  | m :: ms, x :: xs => x.val • h m + total h ms xs
  | _, _ => 0

open Classical in
/-- The ideal scheme. A secret key is a scalar, or nil if it was read from bytes that are not a number below r; using it then
panics. A public key is the scalar too. Verification panics if the public key (or one of the keys, or the sum of the keys,
whichever is used) is 0 or the signature is infinity, except if the numbers of keys and messages differ, or messages must be
different and not empty but are not: then it rejects. -/
noncomputable def ideal [AddCommGroup A] (sha : List UInt8 → List UInt8) (c : Choice A) :
    Package (Option (ZMod r)) (ZMod r) A where
  readKey b := if beNat b < r then some (beNat b : ZMod r) else none
  derive seed := some (some (hashToField sha seed 0 1 : ZMod r))
  writeKey k := k.map c.encKey
  privToPub k := k
  readPub := c.decPub
  writePub := c.encPub
  equalPub x y := decide (x = y)
  newPub := 0
  addPub x y := x + y
  sumPub l := l.sum
  readSig := c.decSig
  writeSig := c.encSig
  newSig := 0
  addSig S T := S + T
  sumSig l := l.sum
  sign m k := k.map fun x => x.val • c.hash m
  verify m x S := if x = 0 ∨ S = 0 then none else some (decide (S = x.val • c.hash m))
  verifyCommon m l S := if l.sum = 0 ∨ S = 0 then none else some (decide (S = l.sum.val • c.hash m))
  verifyAggregate ms l S :=
    if l.length ≠ ms.length ∨ ¬ ms.Nodup ∨ [] ∈ ms then some false
    else if 0 ∈ l ∨ S = 0 then none else some (decide (S = total c.hash ms l))
  signIn d m k := k.map fun x => x.val • c.hashIn d m
  verifyIn d m x S := if x = 0 ∨ S = 0 then none else some (decide (S = x.val • c.hashIn d m))
  verifyCommonIn d m l S := if l.sum = 0 ∨ S = 0 then none else some (decide (S = l.sum.val • c.hashIn d m))
  verifyAggregateIn d ms l S :=
    if l.length ≠ ms.length then some false
    else if 0 ∈ l ∨ S = 0 then none else some (decide (S = total (c.hashIn d) ms l))

/-- A secret key of g1pubs holds the scalar, or is nil. -/
def Key1 (k : G1Pubs.SecretKey) : Option (ZMod r) → Prop
  | some x => k.Holds x.val
  | none => k.f = none
/-- A public key of g1pubs is x times the generator `G`. -/
def Pub1 (G : E1) (p : G1Pubs.PublicKey) (x : ZMod r) : Prop := p.p.Denotes (x.val • G)
/-- A signature of g1pubs is the point `S`, infinity or of order r. -/
def Sig1 (g : G1Pubs.Signature) (S : E2) : Prop := g.s.Denotes S ∧ r • S = 0

/-- A secret key of g2pubs holds the scalar, or is nil. -/
def Key2 (k : G2Pubs.SecretKey) : Option (ZMod r) → Prop
  | some x => k.Holds x.val
  | none => k.f = none
/-- A public key of g2pubs is x times the generator `G`. -/
def Pub2 (G : E2) (p : G2Pubs.PublicKey) (x : ZMod r) : Prop := p.p.Denotes (x.val • G)
/-- A signature of g2pubs is the point `S`, infinity or of order r. -/
def Sig2 (g : G2Pubs.Signature) (S : E1) : Prop := g.s.Denotes S ∧ r • S = 0

/-- The keys and signatures of two programs correspond. -/
structure Match {K' P' S' : Type} (RK : K → K' → Prop) (RP : P → P' → Prop) (RS : S → S' → Prop)
    (v : Vars K P S) (w : Vars K' P' S') : Prop where
  keys : List.Forall₂ RK v.keys w.keys
  pubs : List.Forall₂ RP v.pubs w.pubs
  sigs : List.Forall₂ RS v.sigs w.sigs

end Bls.Uses
