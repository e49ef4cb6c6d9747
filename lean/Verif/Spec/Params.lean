/-
The two primes of BLS12-381 (specification side). They are irreducible only to keep the elaborator
from computing with the literals.
-/
namespace Bls

/-- The field modulus of BLS12-381. -/
@[irreducible] def q : Nat :=
  4002409555221667393417789825735904156556882819939007885332058136124031650490837864442687629129015664037894272559787

/-- The prime order of the groups G1, G2 and GT. -/
@[irreducible] def r : Nat :=
  52435875175126190479447740508185965837690552500527637822603658699938581184513

/-- The cofactor of G1: the curve over Fq has `h1·r` points. -/
@[irreducible] def h1 : Nat := 76329603384216526031706109802092473003

/-- The cofactor of G2: the curve over Fq2 has `h2·r` points. -/
@[irreducible] def h2 : Nat :=
  305502333931268344200999753193121504214466019254188142667664032982267604182971884026507427359259977847832272839041616661285803823378372096355777062779109

end Bls
