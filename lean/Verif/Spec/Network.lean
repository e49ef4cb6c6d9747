import Verif.Model.G1Pubs
import Verif.Model.G2Pubs
import Mathlib.Data.List.Defs
/-
Networks of aggregators. Everybody sends byte strings only: signers send what they made themselves,
aggregators read any number of strings they received, from signers or from other aggregators, aggregate them
and send the result.
-/
namespace Bls

/-- `Collected own read combine write l b`: the string `b` can occur in such a network as the contribution of the
list `l` of sources. -/
inductive Collected {α β : Type} (own : α → List UInt8 → Prop) (read : List UInt8 → Option β) (combine : List β → β)
    (write : β → List UInt8) : List α → List UInt8 → Prop
  /-- what a source sends -/
  | sent (a : α) (b : List UInt8) : own a b → Collected own read combine write [a] b
  /-- what an aggregator sends that could read all the strings it received -/
  | gathered (ins : List (List α × List UInt8)) (xs : List β) :
      (∀ i ∈ ins, Collected own read combine write i.1 i.2) →
      List.Forall₂ (fun i x => read i.2 = some x) ins xs →
      Collected own read combine write (ins.map Prod.fst).flatten (write (combine xs))

/-- A signer: the bytes of the secret key, and the message. -/
structure Signer where
  key : List UInt8
  msg : List UInt8

/-- The signer's signature as sent. -/
def G1Pubs.SendsSignature (sha : List UInt8 → List UInt8) (p : Signer) (b : List UInt8) : Prop :=
  ∃ s, G1Pubs.sign sha p.msg (G1Pubs.deserializeSecretKey p.key) = some s ∧ b = s.serialize

/-- The signer's public key as sent. -/
def G1Pubs.SendsKey (p : Signer) (b : List UInt8) : Prop :=
  ∃ k, G1Pubs.privToPub (G1Pubs.deserializeSecretKey p.key) = some k ∧ b = k.serialize

/-- Signatures collected from the signers `l`. -/
def G1Pubs.CollectedSignatures (sha : List UInt8 → List UInt8) : List Signer → List UInt8 → Prop :=
  Collected (G1Pubs.SendsSignature sha) G1Pubs.deserializeSignature G1Pubs.aggregateSignatures
    G1Pubs.Signature.serialize

/-- Public keys collected from the signers `l`. -/
def G1Pubs.CollectedKeys : List Signer → List UInt8 → Prop :=
  Collected G1Pubs.SendsKey G1Pubs.deserializePublicKey G1Pubs.aggregatePublicKeys G1Pubs.PublicKey.serialize

/-- The signer's signature as sent. -/
def G2Pubs.SendsSignature (sha : List UInt8 → List UInt8) (p : Signer) (b : List UInt8) : Prop :=
  ∃ s, G2Pubs.sign sha p.msg (G2Pubs.deserializeSecretKey p.key) = some s ∧ b = s.serialize

/-- The signer's public key as sent. -/
def G2Pubs.SendsKey (p : Signer) (b : List UInt8) : Prop :=
  ∃ k, G2Pubs.privToPub (G2Pubs.deserializeSecretKey p.key) = some k ∧ b = k.serialize

/-- Signatures collected from the signers `l`. -/
def G2Pubs.CollectedSignatures (sha : List UInt8 → List UInt8) : List Signer → List UInt8 → Prop :=
  Collected (G2Pubs.SendsSignature sha) G2Pubs.deserializeSignature G2Pubs.aggregateSignatures
    G2Pubs.Signature.serialize

/-- Public keys collected from the signers `l`. -/
def G2Pubs.CollectedKeys : List Signer → List UInt8 → Prop :=
  Collected G2Pubs.SendsKey G2Pubs.deserializePublicKey G2Pubs.aggregatePublicKeys G2Pubs.PublicKey.serialize

end Bls
