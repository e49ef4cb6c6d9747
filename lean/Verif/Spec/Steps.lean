import Verif.Model.G1Pubs
import Verif.Model.G2Pubs
import Mathlib.Data.Nat.Bits
/-
The sequence of point operations of a multiplication, which determines its running time and what an observer of the
instruction cache sees. Recording instantiates the loop of the model itself (`scalarLoop`, Verif/Model/G1.lean) with a
state that carries a log.
-/
namespace Bls

/-- The two statements of the loop body. -/
inductive Step where
  | double
  | add
deriving DecidableEq, Repr

/-- A statement that also writes to the log. -/
def logged {α : Type} (s : Step) (f : α → α) (a : α × List Step) : α × List Step := (f a.1, a.2 ++ [s])

/-- `MulFR` of a `G1Affine`, g1.go:80-90, with a log. -/
def G1Affine.mulFRLogged (g : G1Affine) (b : FRRepr) : Option (G1Projective × List Step) :=
  scalarLoop (logged .double G1Projective.double) (logged .add fun res => res.addAffine g) b.bit b.bitLen b.bitLen 0
    (.zero, [])

/-- `MulFR` of a `G2Affine`, g2.go:92-102, with a log. -/
def G2Affine.mulFRLogged (g : G2Affine) (b : FRRepr) : Option (G2Projective × List Step) :=
  scalarLoop (logged .double G2Projective.double) (logged .add fun res => res.addAffine g) b.bit b.bitLen b.bitLen 0
    (.zero, [])

/-- `MulFR` of a `G2Projective`, g2.go:622-632, with a log. -/
def G2Projective.mulFRLogged (g : G2Projective) (b : FRRepr) : Option (G2Projective × List Step) :=
  scalarLoop (logged .double G2Projective.double) (logged .add fun res => res.add g) b.bit b.bitLen b.bitLen 0
    (.zero, [])

/-- `PrivToPub`, g1pubs/bls.go:144-146, with a log. -/
def G1Pubs.privToPubLogged (k : G1Pubs.SecretKey) : Option (G1Pubs.PublicKey × List Step) :=
  k.f.bind fun f => (G1Affine.one.mulFRLogged f.toRepr).map fun o => (⟨o.1⟩, o.2)

/-- `Sign`, g1pubs/bls.go:132-135, with a log of the multiplication. -/
def G1Pubs.signLogged (sha : List UInt8 → List UInt8) (message : List UInt8) (key : G1Pubs.SecretKey) :
    Option (G1Pubs.Signature × List Step) :=
  (hashG2 sha message).bind fun h => key.f.bind fun f => (h.mulFRLogged f.toRepr).map fun o => (⟨o.1⟩, o.2)

/-- `SignWithDomain`, g1pubs/bls.go:138-141, with a log of the multiplication. -/
def G1Pubs.signWithDomainLogged (sha : List UInt8 → List UInt8) (message : List UInt8) (key : G1Pubs.SecretKey)
    (domain : List UInt8) : Option (G1Pubs.Signature × List Step) :=
  (hashG2WithDomain sha message domain).bind fun h => key.f.bind fun f =>
    (h.mulFRLogged f.toRepr).map fun o => (⟨o.1⟩, o.2)

/-- `PrivToPub`, g2pubs/bls.go:138-140, with a log. -/
def G2Pubs.privToPubLogged (k : G2Pubs.SecretKey) : Option (G2Pubs.PublicKey × List Step) :=
  k.f.bind fun f => (G2Affine.one.mulFRLogged f.toRepr).map fun o => (⟨o.1⟩, o.2)

/-- `Sign`, g2pubs/bls.go:132-135, with a log of the multiplication. -/
def G2Pubs.signLogged (sha : List UInt8 → List UInt8) (message : List UInt8) (key : G2Pubs.SecretKey) :
    Option (G2Pubs.Signature × List Step) :=
  (hashG1 sha message).bind fun h => key.f.bind fun f => (h.mulFRLogged f.toRepr).map fun o => (⟨o.1⟩, o.2)

/-- The binary digits of `k` from the first, each a doubling, and for a one an addition too. -/
def digitSteps (k : Nat) : List Step := k.bits.reverse.flatMap fun b => if b then [.double, .add] else [.double]

/-- An observer's guess after one step: doubled for a doubling, one more for an addition. -/
def Step.guess (n : Nat) : Step → Nat
  | .double => 2 * n
  | .add => n + 1

/-- What an observer of the log computes. -/
def observed (log : List Step) : Nat := log.foldl Step.guess 0

end Bls
