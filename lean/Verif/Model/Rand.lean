import Verif.Model.FQ12
import Verif.Model.G1Pubs
import Verif.Model.G2Pubs
/-
Model of the remaining random generators (`RandFQ`, `RandFR`, `RandFQ2`, `RandG1` and `RandG2` are beside
their types). They are functions of the outcomes of the successive calls of `rand.Int`, `none` being an
error of the reader.
-/
namespace Bls

/-- `RandFQ6`, fq6.go:354-368, given the outcomes of the draws; results as in `FQ.rand`. -/
def FQ6.rand (d0 d1 d2 : Option Int × Option Int) : Option (Option FQ6) :=
  (FQ2.rand d0.1 d0.2).bind fun c0 => match c0 with
  | none => some none
  | some c0 => (FQ2.rand d1.1 d1.2).bind fun c1 => match c1 with
    | none => some none
    | some c1 => (FQ2.rand d2.1 d2.2).bind fun c2 => match c2 with
      | none => some none
      | some c2 => some (some ⟨c0, c1, c2⟩)

/-- `RandFQ12`, fq12.go:90-100. -/
def FQ12.rand (d0 d1 d2 d3 d4 d5 : Option Int × Option Int) : Option (Option FQ12) :=
  (FQ6.rand d0 d1 d2).bind fun a => match a with
  | none => some none
  | some a => (FQ6.rand d3 d4 d5).bind fun b => match b with
    | none => some none
    | some b => some (some ⟨a, b⟩)

/-- `RandKey`, g1pubs/bls.go:149-156. Outer `none`: panic; inner `none`: error. -/
def G1Pubs.randKey (x : Option Int) : Option (Option G1Pubs.SecretKey) :=
  (FR.rand x).bind fun k => match k with
  | none => some none
  | some k => some (some ⟨k⟩)

/-- `RandKey`, g2pubs/bls.go:143-150. -/
def G2Pubs.randKey (x : Option Int) : Option (Option G2Pubs.SecretKey) :=
  (FR.rand x).bind fun k => match k with
  | none => some none
  | some k => some (some ⟨k⟩)

end Bls
