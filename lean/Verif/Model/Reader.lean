import Verif.Model.Rand
import Verif.Model.Hash
/-
The random generators as functions of the bytes that their reader gives. A reader is modelled by the list of the bytes it will
give; after them it gives an error. How many bytes a single call of Read returns does not matter, because rand.Int reads
with io.ReadFull.
-/
namespace Bls

/-- `bytes[0] &= mask` in `rand.Int`, see `randIntLoop` (called in fr.go:338 and fq.go:342). -/
def maskTop (mask : UInt8) : List UInt8 → List UInt8
  | [] => []
  | b :: t => (b &&& mask) :: t

/-- The loop of Go's `rand.Int` (crypto/rand/util.go, not in /repo; called in fr.go:338 and fq.go:342): read `k` bytes, clear
the upper bits of the first, and start again unless the number is below `max`. `none`: error; the second component is what the
reader has left. -/
def randIntLoop (max k : Nat) (mask : UInt8) (l : List UInt8) : Option Nat × List UInt8 :=
  if _h : 0 < k ∧ k ≤ l.length then
    if bytesNat (maskTop mask (l.take k)) < max then (some (bytesNat (maskTop mask (l.take k))), l.drop k)
    else randIntLoop max k mask (l.drop k)
  else (none, [])
termination_by l.length
decreasing_by simp only [List.length_drop]; omega

/-- `rand.Int(reader, max)` for `max` > 1. `bitLen` is `Nat.log2 (max - 1) + 1`. -/
def randInt (max : Nat) (l : List UInt8) : Option Nat × List UInt8 :=
  let bitLen := Nat.log2 (max - 1) + 1
  let k := (bitLen + 7) / 8
  let b := if bitLen % 8 = 0 then 8 else bitLen % 8
  randIntLoop max k (UInt8.ofNat (2 ^ b - 1)) l

/-- `RandFR`, fr.go:337-344, on a reader. -/
def FR.randFrom (l : List UInt8) : Option (Option (Option FR)) × List UInt8 :=
  let d := randInt rFieldModulus.toBig.toNat l
  (FR.rand (d.1.map Int.ofNat), d.2)

/-- `RandFQ`, fq.go:341-349, on a reader. -/
def FQ.randFrom (l : List UInt8) : Option (Option FQ) × List UInt8 :=
  let d := randInt qFieldModulus.toBig.toNat l
  (FQ.rand (d.1.map Int.ofNat), d.2)

/-- `RandKey`, g1pubs/bls.go:149-156, on a reader. -/
def G1Pubs.randKeyFrom (l : List UInt8) : Option (Option G1Pubs.SecretKey) × List UInt8 :=
  let d := randInt rFieldModulus.toBig.toNat l
  (G1Pubs.randKey (d.1.map Int.ofNat), d.2)

/-- `RandKey`, g2pubs/bls.go:143-150, on a reader. -/
def G2Pubs.randKeyFrom (l : List UInt8) : Option (Option G2Pubs.SecretKey) × List UInt8 :=
  let d := randInt rFieldModulus.toBig.toNat l
  (G2Pubs.randKey (d.1.map Int.ofNat), d.2)

/-- The loop of `RandG1`, g1.go:589-611, on a reader: a byte (`r.Read(b)`) and `RandFQ` in each iteration. Every iteration
takes a byte at least, so that `l.length + 1` iterations are enough. -/
def randG1Loop : Nat → List UInt8 → Outcome G1Projective × List UInt8
  | 0, l => (.running, l)
  | _ + 1, [] => (.err, [])
  | n + 1, b :: t =>
    let d := randInt qFieldModulus.toBig.toNat t
    match randG1Step (some b) (d.1.map Int.ofNat) with
    | .ok (some p1) => (.ok p1, d.2)
    | .ok none => randG1Loop n d.2
    | .err => (.err, d.2)
    | .panic => (.panic, d.2)
    | .running => (.running, d.2)

/-- `RandG1`, g1.go:588-612, on a reader. -/
def randG1From (l : List UInt8) : Outcome G1Projective × List UInt8 := randG1Loop (l.length + 1) l

/-- The loop of `RandG2`, g2.go:805-827, on a reader: a byte and `RandFQ2` (fq2.go:240-253) in each iteration, which does not
draw the second integer if the first draw fails. -/
def randG2Loop : Nat → List UInt8 → Outcome G2Projective × List UInt8
  | 0, l => (.running, l)
  | _ + 1, [] => (.err, [])
  | n + 1, b :: t =>
    let d0 := randInt qFieldModulus.toBig.toNat t
    let d1 := if d0.1.isSome then randInt qFieldModulus.toBig.toNat d0.2 else (none, d0.2)
    match randG2Step (some b) (d0.1.map Int.ofNat) (d1.1.map Int.ofNat) with
    | .ok (some p1) => (.ok p1, d1.2)
    | .ok none => randG2Loop n d1.2
    | .err => (.err, d1.2)
    | .panic => (.panic, d1.2)
    | .running => (.running, d1.2)

/-- `RandG2`, g2.go:804-828, on a reader. -/
def randG2From (l : List UInt8) : Outcome G2Projective × List UInt8 := randG2Loop (l.length + 1) l

end Bls
