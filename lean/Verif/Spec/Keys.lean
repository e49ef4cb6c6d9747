import Verif.Model.G1Pubs
import Verif.Model.G2Pubs
import Verif.Spec.Denote
import Verif.Spec.Params
/-
What keys and hashed messages denote. `E1`, `E2` are the curve groups of Verif/Spec/Points.lean.
-/
namespace Bls

/-- The secret key holds the scalar `k` (below r, in canonical form). -/
def G1Pubs.SecretKey.Holds (sk : G1Pubs.SecretKey) (k : ℕ) : Prop := ∃ f, sk.f = some f ∧ f.isValid ∧ f.int = k

/-- The secret key holds the scalar `k` (below r, in canonical form). -/
def G2Pubs.SecretKey.Holds (sk : G2Pubs.SecretKey) (k : ℕ) : Prop := ∃ f, sk.f = some f ∧ f.isValid ∧ f.int = k

/-- `HashG2(m)` is the point `H` of order r. -/
def G1Pubs.HashesTo (sha : List UInt8 → List UInt8) (m : List UInt8) (H : E2) : Prop :=
  ∃ h, hashG2 sha m = some h ∧ h.Denotes H ∧ H ≠ 0 ∧ r • H = 0

/-- `HashG2WithDomain(m, domain)` is the point `H` of order r. -/
def G1Pubs.HashesToIn (sha : List UInt8 → List UInt8) (domain m : List UInt8) (H : E2) : Prop :=
  ∃ h, hashG2WithDomain sha m domain = some h ∧ h.Denotes H ∧ H ≠ 0 ∧ r • H = 0

/-- `HashG1(m)` is the point `H` of order r. -/
def G2Pubs.HashesTo (sha : List UInt8 → List UInt8) (m : List UInt8) (H : E1) : Prop :=
  ∃ h, hashG1 sha m = some h ∧ h.Denotes H ∧ H ≠ 0 ∧ r • H = 0

end Bls
