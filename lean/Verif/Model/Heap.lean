import Verif.Model.FR
import Mathlib.Logic.Function.Basic
/-
fr.go with memory. An `FR` is a struct holding a pointer to an `FRRepr` array, and its methods write
through that pointer, so two `FR` values can share their limbs. Here `FRRepr` objects and `FR`
objects have addresses; every method is a function on memories, and reads the package variables it
uses from the memory.

Methods with a value receiver `(f FR)` get a copy of the struct, which holds the same pointer; they
are given the address of the struct they copy. Objects are never freed. Bounds and nil checks that
cannot fail are not modelled (`FRRepr.bit` keeps its own).
-/
namespace Bls.Heap

/-- The memory: `cell p` is the `FRRepr` at address `p`, `fr f` is the field `n` of the `FR` struct at
address `f` (fr.go:11-13). Addresses from `nextCell`/`nextFr` on are not in use. -/
structure Mem where
  cell : Nat → FRRepr
  fr : Nat → Nat
  nextCell : Nat
  nextFr : Nat

namespace Mem

/-- The value of the `FR` at `f`, fr.go:11-13. -/
def val (m : Mem) (f : Nat) : FR := ⟨m.cell (m.fr f)⟩

/-- Writing the `FRRepr` at `p` (`f[i] = …` for every `i`). -/
def set (m : Mem) (p : Nat) (v : FRRepr) : Mem := { m with cell := Function.update m.cell p v }

/-- `f.n = p`. -/
def setN (m : Mem) (f p : Nat) : Mem := { m with fr := Function.update m.fr f p }

/-- `&FRRepr{…}`, `newf := FRRepr(newBytes); return &newf`, frrepr.go:151-156. -/
def alloc (m : Mem) (v : FRRepr) : Nat × Mem :=
  (m.nextCell, { m with cell := Function.update m.cell m.nextCell v, nextCell := m.nextCell + 1 })

/-- `&FR{n: p}`. -/
def allocFr (m : Mem) (p : Nat) : Nat × Mem :=
  (m.nextFr, { m with fr := Function.update m.fr m.nextFr p, nextFr := m.nextFr + 1 })

end Mem

/-- The variable `RFieldModulus`, fr.go:16. -/
def aRFieldModulus : Nat := 0
/-- The variable `FRR`, fr.go:35. -/
def aFRR : Nat := 1
/-- The variable `FRR2`, fr.go:38. -/
def aFRR2 : Nat := 2
/-- The variable `frOne`, fr.go:127. -/
def aFrOne : Nat := 3
/-- The variable `frZero`, fr.go:128. -/
def aFrZero : Nat := 4
/-- The variable `rMinus1Over2`, fr.go:301. -/
def aRMinus1Over2 : Nat := 5

/-- The variable `bigOneFR`, fr.go:129. -/
def aBigOneFR : Nat := 0
/-- The variable `bigZeroFR`, fr.go:130. (Struct 1 is the temporary `&FR{FRR2}` of the first
`FRReprToFR`.) -/
def aBigZeroFR : Nat := 2

/-- The limbs computed by `montReduce`, fr.go:59-92, with the modulus read from memory. -/
def montReduceWith (M hi lo : FRRepr) : FRRepr :=
  let k := lo.l0 * montInvFR
  let (_, carry) := macWithCarry lo.l0 k M.l0 0
  let (r1, carry) := macWithCarry lo.l1 k M.l1 carry
  let (r2, carry) := macWithCarry lo.l2 k M.l2 carry
  let (r3, carry) := macWithCarry lo.l3 k M.l3 carry
  let (r4, carry) := addWithCarry hi.l0 0 carry
  let carry2 := carry
  let k := r1 * montInvFR
  let (_, carry) := macWithCarry r1 k M.l0 0
  let (r2, carry) := macWithCarry r2 k M.l1 carry
  let (r3, carry) := macWithCarry r3 k M.l2 carry
  let (r4, carry) := macWithCarry r4 k M.l3 carry
  let (r5, carry) := addWithCarry hi.l1 carry2 carry
  let carry2 := carry
  let k := r2 * montInvFR
  let (_, carry) := macWithCarry r2 k M.l0 0
  let (r3, carry) := macWithCarry r3 k M.l1 carry
  let (r4, carry) := macWithCarry r4 k M.l2 carry
  let (r5, carry) := macWithCarry r5 k M.l3 carry
  let (r6, carry) := addWithCarry hi.l2 carry2 carry
  let carry2 := carry
  let k := r3 * montInvFR
  let (_, carry) := macWithCarry r3 k M.l0 0
  let (r4, carry) := macWithCarry r4 k M.l1 carry
  let (r5, carry) := macWithCarry r5 k M.l2 carry
  let (r6, carry) := macWithCarry r6 k M.l3 carry
  let (r7, _) := addWithCarry hi.l3 carry2 carry
  ⟨r4, r5, r6, r7⟩

/-- `IsValid`, fr.go:19-21. -/
def isValid (m : Mem) (f : Nat) : Bool := (m.cell (m.fr f)).cmp (m.cell aRFieldModulus) < 0

/-- `reduceAssign`, fr.go:23-27. -/
def reduceAssign (m : Mem) (f : Nat) : Mem :=
  if !isValid m f then
    m.set (m.fr f) ((m.cell (m.fr f)).subNoBorrow (m.cell aRFieldModulus))
  else m

/-- `Copy`, fr.go:30-32. -/
def copy (m : Mem) (f : Nat) : Nat × Mem :=
  let (p, m) := m.alloc (m.cell (m.fr f))
  m.allocFr p

/-- `AddAssign`, fr.go:52-55. -/
def addAssign (m : Mem) (f other : Nat) : Mem :=
  let m := m.set (m.fr f) ((m.cell (m.fr f)).addNoCarry (m.cell (m.fr other)))
  reduceAssign m f

/-- `montReduce`, fr.go:59-92. -/
def montReduce (m : Mem) (f : Nat) (hi lo : FRRepr) : Mem :=
  let m := m.set (m.fr f) (montReduceWith (m.cell aRFieldModulus) hi lo)
  reduceAssign m f

/-- `MulAssign`, fr.go:95-117: all limbs are read before the first is written. -/
def mulAssign (m : Mem) (f other : Nat) : Mem :=
  let (hi, lo) := FR.multiply (m.cell (m.fr f)) (m.cell (m.fr other))
  montReduce m f hi lo

/-- `FRReprToFR`, fr.go:42-49: the new struct holds the pointer it was given. `none` is nil. -/
def frReprToFR (m : Mem) (o : Nat) : Option Nat × Mem :=
  let (r, m) := m.allocFr o
  if isValid m r then
    let (t, m) := m.allocFr aFRR2
    (some r, mulAssign m r t)
  else (none, m)

/-- `SubAssign`, fr.go:120-125. -/
def subAssign (m : Mem) (f other : Nat) : Mem :=
  let m := if (m.cell (m.fr other)).cmp (m.cell (m.fr f)) > 0 then
      m.set (m.fr f) ((m.cell (m.fr f)).addNoCarry (m.cell aRFieldModulus))
    else m
  m.set (m.fr f) ((m.cell (m.fr f)).subNoBorrow (m.cell (m.fr other)))

/-- `IsZero`, fr.go:177-179. -/
def isZero (m : Mem) (f : Nat) : Bool := (m.cell (m.fr f)).cmp (m.cell aFrZero) == 0

/-- `Equals`, fr.go:148-150. -/
def equals (m : Mem) (f other : Nat) : Bool := (m.cell (m.fr f)).equals (m.cell (m.fr other))

/-- `NegAssign`, fr.go:153-159: the struct gets a new array. -/
def negAssign (m : Mem) (f : Nat) : Mem :=
  if !isZero m f then
    let (tmp, m) := m.alloc (m.cell aRFieldModulus)
    let m := m.set tmp ((m.cell tmp).subNoBorrow (m.cell (m.fr f)))
    m.setN f tmp
  else m

/-- `DoubleAssign`, fr.go:171-174. -/
def doubleAssign (m : Mem) (f : Nat) : Mem :=
  let m := m.set (m.fr f) (m.cell (m.fr f)).mul2
  reduceAssign m f

/-- `SquareAssign`, fr.go:182-210. -/
def squareAssign (m : Mem) (f : Nat) : Mem :=
  let (hi, lo) := FR.squareWide (m.cell (m.fr f))
  montReduce m f hi lo

/-- `ToRepr`, fr.go:316-329: the address of the result. -/
def toRepr (m : Mem) (f : Nat) : Nat × Mem :=
  let (out, m) := copy m f
  let m := montReduce m out ⟨0, 0, 0, 0⟩ (m.cell (m.fr f))
  (m.fr out, m)

/-- `Cmp`, fr.go:166-168. -/
def cmp (m : Mem) (f other : Nat) : GoInt × Mem :=
  let (a, m) := toRepr m f
  let (b, m) := toRepr m other
  ((m.cell a).cmp (m.cell b), m)

/-- The loop of `Exp`, fr.go:137-143; `none` is a loop that has not ended within the fuel. -/
def expLoop (nCopy fi fNew : Nat) : (fuel : Nat) → Mem → Option Mem
  | 0, _ => none
  | fuel + 1, m =>
    if (m.cell nCopy).cmp (m.cell aFrZero) ≠ 0 then
      let m := if (m.cell nCopy).isOdd then mulAssign m fNew fi else m
      let m := squareAssign m fi
      expLoop nCopy fi fNew fuel (m.set nCopy ((m.cell nCopy).rsh 1))
    else some m

/-- `Exp`, fr.go:133-145. -/
def exp (m : Mem) (f n : Nat) : Option (Nat × Mem) :=
  let (nCopy, m) := m.alloc (m.cell n)
  let (fi, m) := copy m f
  let (fNew, m) := copy m aBigOneFR
  (expLoop nCopy fi fNew 257 m).map fun m => (fNew, m)

/-- `Sqrt`, fr.go:213-216. -/
def sqrt (m : Mem) (_f : Nat) : Option Nat × Mem := frReprToFR m aFrOne

/-- The inner loops of `Inverse`, fr.go:230-248: `u` an `FRRepr`, `b` an `FR`. -/
def halveLoop (u b : Nat) : (fuel : Nat) → Mem → Option Mem
  | 0, _ => none
  | fuel + 1, m =>
    if (m.cell u).isEven then
      let m := m.set u (m.cell u).div2
      let m := if (m.cell (m.fr b)).isEven then m else
        m.set (m.fr b) ((m.cell (m.fr b)).addNoCarry (m.cell aRFieldModulus))
      halveLoop u b fuel (m.set (m.fr b) (m.cell (m.fr b)).div2)
    else some m

/-- The outer loop of `Inverse`, fr.go:229-257. -/
def inverseLoop (one u v b c : Nat) : (fuel : Nat) → Mem → Option Mem
  | 0, _ => none
  | fuel + 1, m =>
    if (m.cell u).cmp (m.cell one) ≠ 0 ∧ (m.cell v).cmp (m.cell one) ≠ 0 then
      (halveLoop u b 257 m).bind fun m =>
      (halveLoop v c 257 m).bind fun m =>
      if (m.cell u).cmp (m.cell v) ≥ 0 then
        inverseLoop one u v b c fuel
          (subAssign (m.set u ((m.cell u).subNoBorrow (m.cell v))) b c)
      else
        inverseLoop one u v b c fuel
          (subAssign (m.set v ((m.cell v).subNoBorrow (m.cell u))) c b)
    else some m

/-- `Inverse`, fr.go:219-262. Outer `none`: the loop runs longer than the fuel; inner `none`: nil. -/
def inverse (m : Mem) (f : Nat) : Option (Option Nat × Mem) :=
  if isZero m f then some (none, m)
  else
    let (u, m) := m.alloc (m.cell (m.fr f))
    let (v, m) := m.alloc (m.cell aRFieldModulus)
    let (p, m) := m.alloc (m.cell aFRR2)
    let (b, m) := m.allocFr p
    let (c, m) := copy m aBigZeroFR
    let (one, m) := m.alloc (.new 1)
    (inverseLoop one u v b c 520 m).map fun m =>
      (some (if (m.cell u).equals (m.cell one) then b else c), m)

/-- `Parity`, fr.go:265-269. -/
def parity (m : Mem) (f : Nat) : Bool × Mem :=
  let (neg, m) := copy m f
  let m := negAssign m neg
  let (c, m) := cmp m f neg
  (c > 0, m)

/-- The loop of `MulBits`, fr.go:274-279, from bit `i` on, `k` bits left; `none` would be a panic. -/
def mulBitsLoop (f b res : Nat) : (k i : Nat) → Mem → Option Mem
  | 0, _, m => some m
  | k + 1, i, m =>
    let m := doubleAssign m res
    ((m.cell b).bit i).bind fun t =>
      mulBitsLoop f b res k (i + 1) (if t then addAssign m res f else m)

/-- `MulBits`, fr.go:272-281. (The argument of `AddAssign` is the address of the receiver's copy of
the struct; `f` holds the same pointer.) -/
def mulBits (m : Mem) (f b : Nat) : Option (Nat × Mem) :=
  let (res, m) := copy m aBigZeroFR
  (mulBitsLoop f b res (m.cell b).bitLen 0 m).map fun m => (res, m)

/-- The loop of `MulBytes`, fr.go:286-291; `none` would be a panic. -/
def mulBytesLoop (f : Nat) (b : List UInt8) (res : Nat) : (k i : Nat) → Mem → Option Mem
  | 0, _, m => some m
  | k + 1, i, m =>
    let m := doubleAssign m res
    (b[i / 8]?).bind fun w =>
      mulBytesLoop f b res k (i + 1)
        (if w &&& (1 <<< UInt8.ofNat (i % 8)) != 0 then addAssign m res f else m)

/-- `MulBytes`, fr.go:284-293. -/
def mulBytes (m : Mem) (f : Nat) (b : List UInt8) : Option (Nat × Mem) :=
  let (res, m) := copy m aBigZeroFR
  (mulBytesLoop f b res (b.length * 8) 0 m).map fun m => (res, m)

/-- `HashFR`, fr.go:296-299, as a function of the digest. -/
def hashFR (m : Mem) (digest : List UInt8) : Option (Nat × Mem) := mulBytes m aBigOneFR digest

/-- `Legendre`, fr.go:304-313. -/
def legendre (m : Mem) (f : Nat) : Option (LegendreSymbol × Mem) :=
  (exp m f aRMinus1Over2).map fun (o, m) =>
    if isZero m o then (.zero, m)
    else if equals m o aBigOneFR then (.quadraticResidue, m)
    else (.quadraticNonResidue, m)

/-- The memory when the literals of the package variables have been evaluated, fr.go:16-301. -/
def boot : Mem where
  cell p :=
    if p = aRFieldModulus then rFieldModulus
    else if p = aFRR then
      .ofNat 10920338887063814464675503992315976177888879664585288394250266608035967270910
    else if p = aFRR2 then frR2
    else if p = aFrOne then .new 1
    else if p = aFrZero then .new 0
    else if p = aRMinus1Over2 then FR.rMinus1Over2
    else .new 0
  fr _ := 0
  nextCell := 6
  nextFr := 0

/-- The memory of a fresh process: `bigOneFR = FRReprToFR(frOne)`, `bigZeroFR = FRReprToFR(frZero)`,
fr.go:127-130. -/
def init : Mem := (frReprToFR (frReprToFR boot aFrOne).2 aFrZero).2

/-- `SecretKey`, g1pubs/bls.go:101-103 and g2pubs/bls.go:101-103: the address of an `FR`. -/
structure SecretKey where
  f : Nat

/-- `GetFRElement`, g1pubs/bls.go:106-108 and g2pubs/bls.go:106-108. -/
def SecretKey.getFRElement (s : SecretKey) : Nat := s.f

/-- `Serialize`, g1pubs/bls.go:115-117 and g2pubs/bls.go:115-117, fr.go:332-334. -/
def SecretKey.serialize (m : Mem) (s : SecretKey) : List UInt8 × Mem :=
  let (p, m) := toRepr m s.f
  ((m.cell p).bytes, m)

/-- `KeyFromFQRepr`, g1pubs/bls.go:160-162 and g2pubs/bls.go:154-156; `none` in the key is a nil
`*FR`. -/
def keyFromFQRepr (m : Mem) (i : Nat) : Option SecretKey × Mem :=
  let (f, m) := frReprToFR m i
  (f.map SecretKey.mk, m)

end Bls.Heap
