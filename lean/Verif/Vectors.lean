import Verif.Model.BitIterator
import Verif.Model.G1Pubs
import Verif.Model.G2Pubs
import Verif.Model.Hash
import Verif.Model.Pairing
import Verif.Model.Rand
/-
The model on the test vectors of the code base. Nothing here is a theorem or is used by one: these are checks that the
definitions of the model compute what the code computes, made by evaluating them when this file is built (`#guard`). The
tests are those of /repo with literal expectations (results of Relic, of other implementations of the hash functions, and
so on) and some of those of the signature packages. SHA-256, which the model takes as a
parameter, is defined here for this purpose only.
-/
namespace Bls.Vectors

/-- The round constants of SHA-256. -/
def K : Array UInt32 := #[
0x428a2f98,0x71374491,0xb5c0fbcf,0xe9b5dba5,0x3956c25b,0x59f111f1,0x923f82a4,0xab1c5ed5,
0xd807aa98,0x12835b01,0x243185be,0x550c7dc3,0x72be5d74,0x80deb1fe,0x9bdc06a7,0xc19bf174,
0xe49b69c1,0xefbe4786,0x0fc19dc6,0x240ca1cc,0x2de92c6f,0x4a7484aa,0x5cb0a9dc,0x76f988da,
0x983e5152,0xa831c66d,0xb00327c8,0xbf597fc7,0xc6e00bf3,0xd5a79147,0x06ca6351,0x14292967,
0x27b70a85,0x2e1b2138,0x4d2c6dfc,0x53380d13,0x650a7354,0x766a0abb,0x81c2c92e,0x92722c85,
0xa2bfe8a1,0xa81a664b,0xc24b8b70,0xc76c51a3,0xd192e819,0xd6990624,0xf40e3585,0x106aa070,
0x19a4c116,0x1e376c08,0x2748774c,0x34b0bcb5,0x391c0cb3,0x4ed8aa4a,0x5b9cca4f,0x682e6ff3,
0x748f82ee,0x78a5636f,0x84c87814,0x8cc70208,0x90befffa,0xa4506ceb,0xbef9a3f7,0xc67178f2]
/-- Rotation to the right. -/
def rotr (x : UInt32) (n : UInt32) : UInt32 := (x >>> n) ||| (x <<< (32 - n))
/-- SHA-256. -/
def sha256 (m : List UInt8) : List UInt8 := Id.run do
  let l := m.length
  let pad := (55 + 64 - l % 64) % 64
  let tl : List UInt8 := (List.range 8).map fun i => UInt8.ofNat ((l * 8) >>> (8 * (7 - i)))
  let bl : List UInt8 := m ++ [0x80] ++ List.replicate pad (0 : UInt8) ++ tl
  let bytes : Array UInt8 := bl.toArray
  let mut h : Array UInt32 := #[0x6a09e667,0xbb67ae85,0x3c6ef372,0xa54ff53a,0x510e527f,0x9b05688c,0x1f83d9ab,0x5be0cd19]
  for b in [0:bytes.size / 64] do
    let mut w : Array UInt32 := #[]
    for i in [0:16] do
      let g (j : Nat) : UInt32 := (bytes[b*64+4*i+j]!).toUInt32
      w := w.push ((g 0 <<< 24) ||| (g 1 <<< 16) ||| (g 2 <<< 8) ||| g 3)
    for i in [16:64] do
      let a := w[i-15]!
      let s0 := rotr a 7 ^^^ rotr a 18 ^^^ (a >>> 3)
      let c := w[i-2]!
      let s1 := rotr c 17 ^^^ rotr c 19 ^^^ (c >>> 10)
      w := w.push (w[i-16]! + s0 + w[i-7]! + s1)
    let mut v := h
    for i in [0:64] do
      let e := v[4]!
      let s1 := rotr e 6 ^^^ rotr e 11 ^^^ rotr e 25
      let ch := (e &&& v[5]!) ^^^ ((~~~ e) &&& v[6]!)
      let t1 := v[7]! + s1 + ch + K[i]! + w[i]!
      let a := v[0]!
      let s0 := rotr a 2 ^^^ rotr a 13 ^^^ rotr a 22
      let mj := (a &&& v[1]!) ^^^ (a &&& v[2]!) ^^^ (v[1]! &&& v[2]!)
      let t2 := s0 + mj
      v := #[t1 + t2, v[0]!, v[1]!, v[2]!, v[3]! + t1, v[4]!, v[5]!, v[6]!]
    h := (Array.range 8).map fun i => h[i]! + v[i]!
  return (h.toList.map fun (x : UInt32) => [(x >>> 24).toUInt8, (x >>> 16).toUInt8, (x >>> 8).toUInt8, x.toUInt8]).flatten

/-- A string as bytes. -/
def text (s : String) : List UInt8 := s.toUTF8.toList
/-- A number as `n` bytes, the highest first. -/
def bytesBE (n x : Nat) : List UInt8 := (List.range n).map fun i => UInt8.ofNat (x >>> (8 * (n - 1 - i)))
/-- Go's `copy` into an array of `n` bytes that are 0. -/
def fixed (n : Nat) (b : List UInt8) : List UInt8 := (b ++ List.replicate n 0).take n
/-- `FQReprToFQ` of a number. -/
def fq (n : Nat) : FQ := .ofRepr (.ofNat n)

/-- The reader of the tests, `XORShift.Read`, g1pubs/bls_test.go:21-31. -/
def xorShift : Nat → UInt64 → List UInt8 × UInt64
  | 0, x => ([], x)
  | n + 1, x =>
    let x := x ^^^ (x <<< 13)
    let x := x ^^^ (x >>> 7)
    let x := x ^^^ (x <<< 17)
    let (b, y) := xorShift n x
    (x.toUInt8 :: b, y)

/-- Numbers below the order of the scalars as `rand.Int` of Go's library draws them (at most `fuel` attempts). -/
def drawsLoop : (fuel n : Nat) → UInt64 → List Int
  | 0, _, _ => []
  | _, 0, _ => []
  | fuel + 1, n + 1, s =>
    let (b, s) := xorShift 32 s
    let x : Nat := b.foldl (fun (a : Nat) c => 256 * a + c.toNat) 0 % 2 ^ 255
    if (x : Int) < rFieldModulus.toBig then (x : Int) :: drawsLoop fuel n s else drawsLoop fuel (n + 1) s
/-- The first `n` such numbers. -/
def draws (n : Nat) (s : UInt64) : List Int := drawsLoop 200 n s

/-! `TestBitIterator`, bititerator_test.go:9-26. -/
#guard (newBitIterator [0xa953d79b83f6ab59, 0x6dea2059e200bd39]).drain 200 =
  some ("01101101111010100010000001011001111000100000000010111101001110011010100101010011110101111001101110000011111101101010101101011001".toList.map (· == '1'))

/-! `TestEvenOdd`, fqrepr_test.go:11-26. -/
#guard (FQRepr.new 1).isOdd && !(FQRepr.new 1).isEven && (FQRepr.new 2).isEven && !(FQRepr.new 2).isOdd

/-! `TestIsZero`, fqrepr_test.go:28-33. -/
#guard (FQRepr.new 0).isZero

/-! `TestRsh`, fqrepr_test.go:35-47. -/
#guard (FQRepr.new 100).rsh 1 = FQRepr.new 50
#guard (FQRepr.ofNat 10000000000000000000000000).rsh 1 = FQRepr.ofNat 5000000000000000000000000

/-! `TestLsh`, fqrepr_test.go:49-61. -/
#guard (FQRepr.new 100).lsh 1 = FQRepr.new 200
#guard (FQRepr.ofNat 10000000000000000000000000).lsh 1 = FQRepr.ofNat 20000000000000000000000000

/-! `TestMontReduce`, fqrepr_test.go:136-147. -/
#guard FQ.montReduce
  ⟨1839480447532984087, 3926924786351924057, 16772763484671214791, 603559161728877186, 17550439636508622399, 43104129123962762⟩
  ⟨3464588527451676294, 7118675286620626963, 8738819137066355118, 12891471781342038311, 14889512650477226038, 12078494706333498109⟩ =
  ⟨⟨13451288730302620273, 10097742279870053774, 15949884091978425806, 5885175747529691540, 1016841820992199104, 845620083434234474⟩⟩

/-! `TestSubWithCarry`, primitivefuncs_test.go:25-101. -/
#guard subWithBorrow 0 3 0 = (18446744073709551613, 1)
#guard subWithBorrow 0 2 0 = (18446744073709551614, 1)
#guard subWithBorrow 0 2 1 = (18446744073709551613, 1)
#guard subWithBorrow 2 0 0 = (2, 0)
#guard subWithBorrow 2 0 1 = (1, 0)
#guard subWithBorrow 2 1 0 = (1, 0)
#guard subWithBorrow 2 1 1 = (0, 0)
#guard subWithBorrow 0 0 1 = (18446744073709551615, 1)

/-! `TestAddWithCarry`, primitivefuncs_test.go:110-186. -/
#guard addWithCarry 1 1 0 = (2, 0)
#guard addWithCarry 1 0 0 = (1, 0)
#guard addWithCarry 0 1 0 = (1, 0)
#guard addWithCarry 1 1 1 = (3, 0)
#guard addWithCarry 18446744073709551615 1 0 = (0, 1)
#guard addWithCarry 18446744073709551615 0 1 = (0, 1)
#guard addWithCarry 0 0 0 = (0, 0)
#guard addWithCarry 0 4043378133346814763 0 = (4043378133346814763, 0)

/-! `TestMACWithCarry`, primitivefuncs_test.go:188-240. -/
#guard macWithCarry 0 1 1 0 = (1, 0)
#guard macWithCarry 0 4294967296 4294967296 0 = (0, 1)
#guard macWithCarry 0 4294967296 4294967296 1 = (1, 1)
#guard macWithCarry 5 4294967296 4294967296 1 = (6, 1)

/-! `TestMultiplyFQReprOverflow`, primitivefuncs_test.go:244-262. -/
#guard FQRepr.multiply
  ⟨4276637899304358534, 4043378133346814763, 8835052805473178628, 2680116066972705497, 18387885609531466875, 90398708109242637⟩
  ⟨6568974633585825615, 15677163513955518067, 16490785605261833339, 9784757811163378176, 10803760609847905278, 1860524254683672351⟩ =
  (.ofNat 19474954426416495774628754584220018623553762741680760536161274135926885656938068449644545696043757020826963123558,
    .ofNat 11236684981931288970748045803123803013547375290961326241645975575468319186166860317135684626985730476857897168732506)

/-! `TestFQOneZero`, fq_test.go:30-37. -/
#guard FQ.one.toRepr.toBig = 1
#guard FQ.zero.toRepr.toBig = 0

/-! `TestSquare`, fq_test.go:130-144. -/
#guard ((List.range 1000).foldl (fun (p : FQ × Nat × Bool) _ =>
  let f := p.1.square
  let n := p.2.1 * p.2.1 % qFieldModulus.toBig.toNat
  (f, n, p.2.2 && f.toRepr.toBig == n)) (fq 2398928, 2398928, true)).2.2

/-! `TestInverse`, fq_test.go:189-207. -/
#guard (fq 0x08aad39fba5b1d27bd5706262b1e2ee6c3da7dff5974ecbb0bee2bd75d4bc10973d8e59fd31f225247a335deb379592c).mul (fq 0x08aad39fba5b1d27bd5706262b1e2ee6c3da7dff5974ecbb0bee2bd75d4bc10973d8e59fd31f225247a335deb379592c).inverse.1 = FQ.one

/-! `TestFQ2Ordering`, fq2_test.go:15-46. -/
#guard FQ2.zero.cmp ⟨fq 1, fq 0⟩ < 0
#guard FQ2.cmp ⟨fq 1, fq 0⟩ ⟨fq 1, fq 0⟩ = 0
#guard FQ2.cmp ⟨fq 1, fq 0⟩ ⟨fq 1, fq 1⟩ < 0
#guard FQ2.cmp ⟨fq 2, fq 0⟩ ⟨fq 1, fq 1⟩ < 0
#guard FQ2.cmp ⟨fq 2, fq 1⟩ ⟨fq 1, fq 1⟩ > 0
#guard FQ2.cmp ⟨fq 2, fq 1⟩ ⟨fq 2, fq 1⟩ = 0

/-! `TestFQ2Basics`, fq2_test.go:48-69. -/
#guard FQ2.equals ⟨FQ.zero, FQ.zero⟩ FQ2.zero && FQ2.equals ⟨FQ.one, FQ.zero⟩ FQ2.one && !FQ2.one.isZero && FQ2.zero.isZero &&
  !FQ2.isZero ⟨FQ.zero, FQ.one⟩

/-! `TestFQ2Squaring`, fq2_test.go:71-98. -/
#guard FQ2.square ⟨fq 1, fq 1⟩ = ⟨fq 0, fq 2⟩
#guard FQ2.square ⟨fq 0, fq 1⟩ = ⟨FQ.one.neg, fq 0⟩
#guard FQ2.square ⟨fq 0x7080c5fa1d8e04241b76dcc1c3fbe5ef7f295a94e58ae7c90e34aab6fb6a6bd4eef5c946536f6029c2c6309bbf8b598,
    fq 0x10d1615e75250a21fc58a7b7be815407bfb99020604137a0dac5a4c911a4353e6ad3291177c8c7e538f473b3c870a4ab⟩ =
  ⟨fq 0x7eac81369c433614cf17b5893c3d327cb674157618da1760dc46ab8fad67ae0b9f2a66eae1073baf262c28c538bcf68,
    fq 0x1542a61c8a8db994739c983042779a6538d0d7275a9689e1e75138bce4cec7aaa23eb7e12dd54d98c1579cf58e980cf8⟩

/-! `TestFQ2Mul`, fq2_test.go:100-114. -/
#guard FQ2.mul ⟨fq 787155314249811040945591987890197698923521563000754191852630526325910580973833767165585004431929413598958418534147,
    fq 3701300508704531706796752084315366662585685126320813849768310480839238335689933757701592694115590705658584012352975⟩
  ⟨fq 428812050294605776242613635112226565923171104978712194146076278968219164256021918826122932548851868482795586147198,
    fq 3983398787459011889399209724009438146317670502764434060579092960070359230210191684510008045453936255762435213464276⟩ =
  ⟨fq 3589136112018482378111625145859346905296349062557304864057134187313531783880863512355763193523645312504462844151780,
    fq 297668880544309439220785639618566999376775158493905442186353189401526493115249312794616596981510685741636811493754⟩

/-! `TestFQ2Inverse`, fq2_test.go:116-132. -/
#guard FQ2.zero.inverse.2 = false
#guard (FQ2.inverse ⟨fq 787155314249811040945591987890197698923521563000754191852630526325910580973833767165585004431929413598958418534147,
    fq 3701300508704531706796752084315366662585685126320813849768310480839238335689933757701592694115590705658584012352975⟩).1 =
  ⟨fq 2973628342543885151746258559273164780300946315949957485732289400047711856966246507651218645021769655299729012680084,
    fq 2498621830671500058873354492670308521035465162737562150317014095994530700756690595853342128497677859200322409409716⟩

/-! `TestFQ2Addition`, fq2_test.go:134-148. -/
#guard FQ2.add ⟨fq 149598838772691373030373252224260385709104435267292980765191905060056642409050296541472646296924142271996639838151,
    fq 181009733668961021523236619221743585335449215747654796739195280796206588018924306389615593874039575085936328761563⟩
  ⟨fq 3048378325167389389927636537438764659078261027448144976696012669013445082263630955837031612987742627153430205370098,
    fq 2745732935355827219217491212445536316258315122004495924168966599922007114897473294472413581011479900113332636006841⟩ =
  ⟨fq 3197977163940080762958009789663025044787365462715437957461204574073501724672681252378504259284666769425426845208249,
    fq 2926742669024788240740727831667279901593764337752150720908161880718213702916397600862029174885519475199268964768404⟩

/-! `TestFQ2Subtraction`, fq2_test.go:150-164. -/
#guard FQ2.sub ⟨fq 149598838772691373030373252224260385709104435267292980765191905060056642409050296541472646296924142271996639838151,
    fq 181009733668961021523236619221743585335449215747654796739195280796206588018924306389615593874039575085936328761563⟩
  ⟨fq 3048378325167389389927636537438764659078261027448144976696012669013445082263630955837031612987742627153430205370098,
    fq 2745732935355827219217491212445536316258315122004495924168966599922007114897473294472413581011479900113332636006841⟩ =
  ⟨fq 1103630068826969376520526540521399883187726227758155889401237372170643210636257205147128662438197179156460707027840,
    fq 1437686353534801195723535232512111425634016913682166757902286816998231123612288876359889641991575339010497965314509⟩

/-! `TestFQ2Negation`, fq2_test.go:166-177. -/
#guard FQ2.neg ⟨fq 149598838772691373030373252224260385709104435267292980765191905060056642409050296541472646296924142271996639838151,
    fq 181009733668961021523236619221743585335449215747654796739195280796206588018924306389615593874039575085936328761563⟩ =
  ⟨fq 3852810716448976020387416573511643770847778384671714904566866231063975008081787567901214982832091521765897632721636,
    fq 3821399821552706371894553206514160571221433604191353088592862855327825062471913558053072035254976088951957943798224⟩

/-! `TestFQ2Doubling`, fq2_test.go:179-190. -/
#guard FQ2.double ⟨fq 149598838772691373030373252224260385709104435267292980765191905060056642409050296541472646296924142271996639838151,
    fq 181009733668961021523236619221743585335449215747654796739195280796206588018924306389615593874039575085936328761563⟩ =
  ⟨fq 299197677545382746060746504448520771418208870534585961530383810120113284818100593082945292593848284543993279676302,
    fq 362019467337922043046473238443487170670898431495309593478390561592413176037848612779231187748079150171872657523126⟩

/-! `TestFQ2FrobeniusMap`, fq2_test.go:192-225. -/
#guard FQ2.frobeniusMap ⟨fq 149598838772691373030373252224260385709104435267292980765191905060056642409050296541472646296924142271996639838151,
    fq 181009733668961021523236619221743585335449215747654796739195280796206588018924306389615593874039575085936328761563⟩ 0 =
  ⟨fq 149598838772691373030373252224260385709104435267292980765191905060056642409050296541472646296924142271996639838151,
    fq 181009733668961021523236619221743585335449215747654796739195280796206588018924306389615593874039575085936328761563⟩
#guard FQ2.frobeniusMap ⟨fq 149598838772691373030373252224260385709104435267292980765191905060056642409050296541472646296924142271996639838151,
    fq 181009733668961021523236619221743585335449215747654796739195280796206588018924306389615593874039575085936328761563⟩ 1 =
  ⟨fq 149598838772691373030373252224260385709104435267292980765191905060056642409050296541472646296924142271996639838151,
    fq 3821399821552706371894553206514160571221433604191353088592862855327825062471913558053072035254976088951957943798224⟩
#guard FQ2.frobeniusMap ⟨fq 149598838772691373030373252224260385709104435267292980765191905060056642409050296541472646296924142271996639838151,
    fq 3821399821552706371894553206514160571221433604191353088592862855327825062471913558053072035254976088951957943798224⟩ 1 =
  ⟨fq 149598838772691373030373252224260385709104435267292980765191905060056642409050296541472646296924142271996639838151,
    fq 181009733668961021523236619221743585335449215747654796739195280796206588018924306389615593874039575085936328761563⟩
#guard FQ2.frobeniusMap ⟨fq 149598838772691373030373252224260385709104435267292980765191905060056642409050296541472646296924142271996639838151,
    fq 181009733668961021523236619221743585335449215747654796739195280796206588018924306389615593874039575085936328761563⟩ 2 =
  ⟨fq 149598838772691373030373252224260385709104435267292980765191905060056642409050296541472646296924142271996639838151,
    fq 181009733668961021523236619221743585335449215747654796739195280796206588018924306389615593874039575085936328761563⟩

/-! `TestFQ2Sqrt`, fq2_test.go:227-246. -/
#guard FQ2.sqrt ⟨fq 1199141494453035944462437764039889211157529566989597369793908631238550963749870321413115974274142904836460239708711,
    fq 2275726519012059234888434151906712303065680739818771469342471201468687921783347469538129328635084833206431018046147⟩ =
  (⟨fq 2610880034315515246135455194558180576521075490930523809216746350127301781195091608845140759868139294094360490170565,
    fq 1361064970384811010963395494397997021963412519774828006120608106648478662746078959841022528364671568910239381710674⟩, true)
#guard FQ2.sqrt ⟨fq 4002409555221667393417789825735904156556882819939007885332058136124031650490837864442687629129015661931409599199851,
    fq 0⟩ =
  (⟨fq 0,
    fq 4002409555221667393417789825735904156556882819939007885332058136124031650490837864442687629129015664037894226663331⟩, true)

/-! `TestFQ2Legendre`, fq2_test.go:248-262. -/
#guard FQ2.zero.legendre = .zero
#guard FQ2.one.neg.legendre = .quadraticResidue
#guard FQ2.one.neg.mulByNonresidue.legendre = .quadraticNonResidue

/-! `TestG1Generator`, g1_test.go:9-60. -/
#guard ((List.range 5).map fun i =>
  let x := fq i
  let y := ((x.square.mul x).add G1Affine.bCoeff).sqrt
  if y.2 then
    let p : G1Affine := ⟨x, if y.1.cmp y.1.neg < 0 then y.1 else y.1.neg, false⟩
    let g := p.scaleByCofactor
    some (p.isInCorrectSubgroup, g.isZero, g.toAffine.isInCorrectSubgroup && g.toAffine.equals .one)
  else none) = [some (false, true, false), none, none, none, some (false, false, true)]

/-! `TestG1DoublingCorrectness`, g1_test.go:62-79. -/
#guard (G1Projective.double ⟨.ofRepr ⟨0x47fd1f891d6e8bbf, 0x79a3b0448f31a2aa, 0x81f3339e5f9968f, 0x485e77d50a5df10d, 0x4c6fcac4b55fd479, 0x86ed4d9906fb064⟩,
    .ofRepr ⟨0xd25ee6461538c65, 0x9f3bbb2ecd3719b9, 0xa06fd3f1e540910d, 0xcefca68333c35288, 0x570c8005f8573fa6, 0x152ca696fe034442⟩, FQ.one⟩).toAffine =
  ⟨.ofRepr ⟨0xf939ddfe0ead7018, 0x3b03942e732aecb, 0xce0e9c38fdb11851, 0x4b914c16687dcde0, 0x66c8baf177d20533, 0xaf960cff3d83833⟩,
    .ofRepr ⟨0x3f0675695f5177a8, 0x2b6d82ae178a1ba0, 0x9096380dd8e51b11, 0x1771a65b60572f4e, 0x8b547c1313b27555, 0x135075589a687b1e⟩, false⟩

/-! `TestG1AdditionCorrectness`, g1_test.go:81-104. -/
#guard (G1Projective.add ⟨.ofRepr ⟨0x47fd1f891d6e8bbf, 0x79a3b0448f31a2aa, 0x81f3339e5f9968f, 0x485e77d50a5df10d, 0x4c6fcac4b55fd479, 0x86ed4d9906fb064⟩,
    .ofRepr ⟨0xd25ee6461538c65, 0x9f3bbb2ecd3719b9, 0xa06fd3f1e540910d, 0xcefca68333c35288, 0x570c8005f8573fa6, 0x152ca696fe034442⟩, FQ.one⟩
  ⟨.ofRepr ⟨0xeec78f3096213cbf, 0xa12beb1fea1056e6, 0xc286c0211c40dd54, 0x5f44314ec5e3fb03, 0x24e8538737c6e675, 0x8abd623a594fba8⟩,
    .ofRepr ⟨0x6b0528f088bb7044, 0x2fdeb5c82917ff9e, 0x9a5181f2fac226ad, 0xd65104c6f95a872a, 0x1f2998a5a9c61253, 0xe74846154a9e44⟩, FQ.one⟩).toAffine =
  ⟨.ofRepr ⟨0x6dd3098f22235df, 0xe865d221c8090260, 0xeb96bb99fa50779f, 0xc4f9a52a428e23bb, 0xd178b28dd4f407ef, 0x17fb8905e9183c69⟩,
    .ofRepr ⟨0xd0de9d65292b7710, 0xf6a05f2bcf1d9ca7, 0x1040e27012f20b64, 0xeec8d1a5b7466c58, 0x4bc362649dce6376, 0x430cbdc5455b00a⟩, false⟩

/-! `TestHashG1`, hash_test.go:20-26. -/
#guard hashG1 sha256 (text "the message to be signed") =
  some ⟨fq 0x157b33991dfbf91105d15160da770421049539e3708dbe7d0fac0bcdcf70cde4e0ba392e05d248ebeea681629653501e,
    fq 0x186b975a6b00f9ed4f4415de4a7df651ed0d1ac4a2e50d145028b596b6493ec4ec6a3259d4897676c2c2c67af5f581d5, false⟩

/-! `TestHashG2`, hash_test.go:64-70. -/
#guard hashG2 sha256 (text "the message to be signed") =
  some ⟨⟨fq 0xcac64370233bfc0a5cb46981969ef1aec583bb661084c7940581cda548f5bf015c74bf23ccdb87816a3cd96ebdb2bfd,
    fq 0x11f6e0fdfbc31b55c04cda9c896099c9f135c2eb2c504cfe0b98e98ef0e511583a9b1eb47b4c19904d820c2eab6608a9⟩,
    ⟨fq 0x19ffc47d113a320834d1b3979a932c1224195be2cd83b7cd70e1800b56d9a8b94a3ce0e303cdda31e191ecc48223906f,
    fq 0xc75d7aae0477efd4219f9d01950fa9e83378162d7befe1e9df0e506503f04d7a49250d6a85f09dffa245a8fe583d3fd⟩, false⟩

/-! `TestHashG2WithDomain`, hash_test.go:74-82. -/
#guard (hashG2WithDomain sha256 (List.replicate 32 0) (List.replicate 8 0)).map (fun g => g.toAffine.compress) =
  some (bytesBE 96 0xa6ef29e7241e1a1cc60fee328e3290c023d55a6701db500eefab7f91391a8b8726fd0024121e64637281f907137fe268187b4baca36388e96194b73a7d532f6eea6bc098778dbfd3404584613b5ba9da97d5602e31fdbe9270b863876529b254)

/-! `TestResultAgainstRelic`, pairing_test.go:22-58. -/
#guard pairing G1Projective.one G2Projective.one = some (some
  ⟨⟨⟨fq 2819105605953691245277803056322684086884703000473961065716485506033588504203831029066448642358042597501014294104502,
    fq 1323968232986996742571315206151405965104242542339680722164220900812303524334628370163366153839984196298685227734799⟩,
    ⟨fq 2987335049721312504428602988447616328830341722376962214011674875969052835043875658579425548512925634040144704192135,
    fq 3879723582452552452538684314479081967502111497413076598816163759028842927668327542875108457755966417881797966271311⟩,
    ⟨fq 261508182517997003171385743374653339186059518494239543139839025878870012614975302676296704930880982238308326681253,
    fq 231488992246460459663813598342448669854473942105054381511346786719005883340876032043606739070883099647773793170614⟩⟩,
  ⟨⟨fq 3993582095516422658773669068931361134188738159766715576187490305611759126554796569868053818105850661142222948198557,
    fq 1074773511698422344502264006159859710502164045911412750831641680783012525555872467108249271286757399121183508900634⟩,
    ⟨fq 2727588299083545686739024317998512740561167011046940249988557419323068809019137624943703910267790601287073339193943,
    fq 493643299814437640914745677854369670041080344349607504656543355799077485536288866009245028091988146107059514546594⟩,
    ⟨fq 734401332196641441839439105942623141234148957972407782257355060229193854324927417865401895596108124443575283868655,
    fq 2348330098288556420918672502923664952620152483128593484301759394583320358354186482723629999370241674973832318248497⟩⟩⟩)

/-- The keys of successive calls of `g1pubs.RandKey` with the tests' reader. -/
def keysG1Pubs (seed : UInt64) (n : Nat) : List G1Pubs.SecretKey := (draws n seed).map fun x => ((G1Pubs.randKey (some x)).join).getD ⟨none⟩
/-- `Sign`, and the verification of `PrivToPub` of the key. -/
def checkG1Pubs (m : List UInt8) (k : G1Pubs.SecretKey) (f : G1Pubs.Signature → G1Pubs.Signature) : Option Bool := do
  let pub ← G1Pubs.privToPub k
  let sig ← G1Pubs.sign sha256 m k
  G1Pubs.verify sha256 m pub (f sig)

/-! `SignVerify` (called by `TestSignVerify`), g1pubs/bls_test.go:33-45. -/
#guard (keysG1Pubs 1 1).map (fun k => checkG1Pubs (text "Hello world! 16 characters 0") k id) = [some true]

/-! `TestDeriveSecretKey`, g1pubs/bls_test.go:409-420. -/
#guard ((G1Pubs.deriveSecretKey sha256 (text "11223344556677889900112233445566")).bind (·.getFRElement)) = FR.ofRepr? (.ofNat 0x414e2c2a330cf94edb70e1c88efa851e80fe5eb14ff08fe5b7e588b4fe9899e4)

/-! `TestPubkeyDeserializeInvalid`, g1pubs/bls_test.go:422-433. -/
#guard (G1Pubs.deserializePublicKey (bytesBE 48 0xb5a44e98d450f266567be0d82e60d965aa8703f73a9a71aa03b98215444f781d00000000000000000000000000000000)).isNone

/-! `TestConvertPubkeyToFromPoint`, g1pubs/bls_test.go:435-446. -/
#guard ((keysG1Pubs 3 1).map fun k => (G1Pubs.privToPub k).map fun p => (G1Pubs.newPublicKeyFromG1 p.getPoint.toAffine).equals p) = [some true]

/-! `SignVerifyWithDomain` (called by `TestSignVerifyWithDomain`), g1pubs/bls_test.go:47-60. -/
#guard (do
  let k ← (keysG1Pubs 1 1).head?
  let pub ← G1Pubs.privToPub k
  let m := fixed 32 (text "Hello world! 16 characters 0")
  let sig ← G1Pubs.signWithDomain sha256 m k (fixed 8 [1])
  G1Pubs.verifyWithDomain sha256 m pub sig (fixed 8 [1])) = some true

/-- The keys of successive calls of `g2pubs.RandKey` with the tests' reader. -/
def keysG2Pubs (seed : UInt64) (n : Nat) : List G2Pubs.SecretKey := (draws n seed).map fun x => ((G2Pubs.randKey (some x)).join).getD ⟨none⟩
/-- `Sign`, and the verification of `PrivToPub` of the key. -/
def checkG2Pubs (m : List UInt8) (k : G2Pubs.SecretKey) (f : G2Pubs.Signature → G2Pubs.Signature) : Option Bool := do
  let pub ← G2Pubs.privToPub k
  let sig ← G2Pubs.sign sha256 m k
  G2Pubs.verify sha256 m pub (f sig)

/-! `SignVerify` (called by `TestSignVerify`), g2pubs/bls_test.go:33-45. -/
#guard (keysG2Pubs 1 1).map (fun k => checkG2Pubs (text "Hello world! 16 characters 0") k id) = [some true]

/-! `TestDeriveSecretKey`, g2pubs/bls_test.go:323-334. -/
#guard ((G2Pubs.deriveSecretKey sha256 (text "11223344556677889900112233445566")).bind (·.getFRElement)) = FR.ofRepr? (.ofNat 0x414e2c2a330cf94edb70e1c88efa851e80fe5eb14ff08fe5b7e588b4fe9899e4)

/-! `TestPubkeyDeserializeInvalid`, g2pubs/bls_test.go:336-347. -/
#guard (G2Pubs.deserializePublicKey (bytesBE 96 0xb5a44e98e450f266567be0d82e60d965aa8703f73a9a71aa03b98215444f781d00000000000000000000000000000000b5a44e98d450f266567be0d82e60d965aa8703f73a9a71aa03b98215444f781d00000000000000000000000000000000)).isNone

/-! `TestConvertPubkeyToFromPoint`, g2pubs/bls_test.go:349-360. -/
#guard ((keysG2Pubs 3 1).map fun k => (G2Pubs.privToPub k).map fun p => (G2Pubs.newPublicKeyFromG2 p.getPoint.toAffine).equals p) = [some true]

end Bls.Vectors
