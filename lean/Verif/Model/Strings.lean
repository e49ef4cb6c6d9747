import Verif.Model.G1Pubs
import Verif.Model.G2Pubs
/-
The `String` methods. A string is its list of characters; `fmt.Sprintf` is modelled by its contract: `%016x` is the
number in base 16 with lower-case digits, padded with zeros to 16 digits, and `%s` calls the argument's `String`.
-/
namespace Bls

/-- A digit of `%x`. -/
def hexChar (d : Nat) : Char := "0123456789abcdef".toList.getD d '0'

/-- The last `k` digits of `n` in base 16. -/
def hexDigits : (k : Nat) → (n : Nat) → List Char
  | 0, _ => []
  | k + 1, n => hexDigits k (n / 16) ++ [hexChar (n % 16)]

/-- `%016x` of a `uint64`. -/
def hex16 (w : W) : List Char := hexDigits 16 w.toNat

/-- `String`, fqrepr.go:163-165. -/
def FQRepr.string (f : FQRepr) : List Char := hex16 f.l5 ++ hex16 f.l4 ++ hex16 f.l3 ++ hex16 f.l2 ++ hex16 f.l1 ++ hex16 f.l0

/-- `String`, frrepr.go:159-161. -/
def FRRepr.string (f : FRRepr) : List Char := hex16 f.l3 ++ hex16 f.l2 ++ hex16 f.l1 ++ hex16 f.l0

/-- `String`, fq.go:129-131. -/
def FQ.string (f : FQ) : List Char := "Fq(0x".toList ++ f.toRepr.string ++ ")".toList

/-- `String`, fr.go:161-163. -/
def FR.string (f : FR) : List Char := "FR(0x".toList ++ f.toRepr.string ++ ")".toList

/-- `String`, fq2.go:26-28. -/
def FQ2.string (f : FQ2) : List Char := "Fq2(".toList ++ f.c0.string ++ " + ".toList ++ f.c1.string ++ " * u)".toList

/-- `String`, fq6.go:24-26. -/
def FQ6.string (f : FQ6) : List Char :=
  "Fq6(".toList ++ f.c0.string ++ " + ".toList ++ f.c1.string ++ "*v + ".toList ++ f.c2.string ++ "*v^2)".toList

/-- `String`, fq12.go:22-24. -/
def FQ12.string (f : FQ12) : List Char := "Fq12(".toList ++ f.c0.string ++ " + ".toList ++ f.c1.string ++ " * w)".toList

/-- `String`, g1.go:34-39. -/
def G1Affine.string (g : G1Affine) : List Char :=
  if g.infinity then "G1(infinity)".toList
  else "G1(x=".toList ++ g.x.string ++ ", y=".toList ++ g.y.string ++ ")".toList

/-- `String`, g1.go:274-279. -/
def G1Projective.string (g : G1Projective) : List Char :=
  if g.isZero then "G1: Infinity".toList else g.toAffine.string

/-- `String`, g2.go:45-50. -/
def G2Affine.string (g : G2Affine) : List Char :=
  if g.infinity then "G2(Infinity)".toList
  else "G2(x=".toList ++ g.x.string ++ ", y=".toList ++ g.y.string ++ ")".toList

/-- `String`, g2.go:315-320. -/
def G2Projective.string (g : G2Projective) : List Char :=
  if g.isZero then "G2: Infinity".toList else g.toAffine.string

/-- `Signature.String`, g1pubs/bls.go:22-24. -/
def G1Pubs.Signature.string (s : G1Pubs.Signature) : List Char := s.s.string

/-- `PublicKey.String`, g1pubs/bls.go:57-59. -/
def G1Pubs.PublicKey.string (p : G1Pubs.PublicKey) : List Char := p.p.string

/-- `SecretKey.String`, g1pubs/bls.go:110-112; it panics (`none`) on a key whose pointer is nil. -/
def G1Pubs.SecretKey.string (s : G1Pubs.SecretKey) : Option (List Char) := s.f.map FR.string

/-- `Signature.String`, g2pubs/bls.go:22-24. -/
def G2Pubs.Signature.string (s : G2Pubs.Signature) : List Char := s.s.string

/-- `PublicKey.String`, g2pubs/bls.go:62-64. -/
def G2Pubs.PublicKey.string (p : G2Pubs.PublicKey) : List Char := p.p.string

/-- `SecretKey.String`, g2pubs/bls.go:110-112; it panics (`none`) on a key whose pointer is nil. -/
def G2Pubs.SecretKey.string (s : G2Pubs.SecretKey) : Option (List Char) := s.f.map FR.string

end Bls
