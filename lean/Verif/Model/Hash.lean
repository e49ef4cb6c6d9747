import Verif.Model.G1
import Verif.Model.G2
import Verif.Model.FR
/-
hash.go and the hash-to-curve parts of g1.go and g2.go. SHA-256 (`sha256.New`, `Write`, `Sum(nil)` of the
standard library) is an arbitrary function `sha` from the bytes written to the digest.
-/
namespace Bls

/-- `fqReprFromHexUnchecked` of a literal followed by `FQReprToFQ`, fqrepr.go:218-221, given as the number. -/
def fqHex (n : Nat) : FQ := .ofRepr (.ofNat n)

/-- `big.Int.SetBytes` (by contract): the big-endian number. -/
def bytesNat (b : List UInt8) : Nat := b.foldl (fun acc x => acc * 256 + x.toNat) 0

/-- `FQReprFromBigInt` with the error dropped, as in hash.go:70 and g2.go:1060 (`none`: it panics). On an
error the zero value is used. -/
def reprOfBig (n : Int) : Option FQRepr := (FQRepr.fromBigInt n).map fun o => o.getD ⟨0, 0, 0, 0, 0, 0⟩

/-- The inner loop over `j` of `hp` and `hp2`, hash.go:55-65 and hash.go:90-103: the bytes `t`. -/
def hashBlocks (sha : List UInt8 → List UInt8) (msgPrime : List UInt8) (i : UInt8) : List UInt8 :=
  sha (msgPrime ++ [i] ++ [1]) ++ sha (msgPrime ++ [i] ++ [2])

/-- `HashSecretKey`, hash.go:9-39. Outer `none`: panic; inner `none`: nil. -/
def hashSecretKey (sha : List UInt8 → List UInt8) (b : List UInt8) : Option (Option FR) :=
  let msgHash := sha b
  let msgPrime := msgHash ++ [0]
  let t := hashBlocks sha msgPrime 1
  let tBig : Int := (bytesNat t : Int) % rFieldModulus.toBig
  match FRRepr.fromBigInt tBig with
  | none => none
  | some none => none
  | some (some tFR) => some (FR.ofRepr? tFR)

/-- `hp`, hash.go:41-72 (`none`: a panic). -/
def hp (sha : List UInt8 → List UInt8) (msg : List UInt8) (ctr : UInt8) : Option FQ :=
  let msgHash := sha msg
  let msgPrime := msgHash ++ [ctr]
  let t := hashBlocks sha msgPrime 1
  let tBig : Int := (bytesNat t : Int) % qFieldModulus.toBig
  (reprOfBig tBig).map FQ.ofRepr

/-- `hp2`, hash.go:74-113 (`none`: a panic). -/
def hp2 (sha : List UInt8 → List UInt8) (msg : List UInt8) (ctr : UInt8) : Option FQ2 :=
  let msgHash := sha msg
  let msgPrime := msgHash ++ [ctr]
  let fq (i : UInt8) : Option FQ :=
    let t := hashBlocks sha msgPrime i
    let tBig : Int := (bytesNat t : Int) % qFieldModulus.toBig
    (reprOfBig tBig).map FQ.ofRepr
  (fq 1).bind fun f0 => (fq 2).map fun f1 => ⟨f0, f1⟩

/-! ### The isogenies -/

/-- `xNum11`, hash.go:116-129. -/
def xNum11 : List FQ := [
  fqHex 0x11a05f2b1e833340b809101dd99815856b303e88a2d7005ff2627b56cdb4e2c85610c2d5f2e62d6eaeac1662734649b7,
  fqHex 0x17294ed3e943ab2f0588bab22147a81c7c17e75b2f6a8417f565e33c70d1e86b4838f2a6f318c356e834eef1b3cb83bb,
  fqHex 0xd54005db97678ec1d1048c5d10a9a1bce032473295983e56878e501ec68e25c958c3e3d2a09729fe0179f9dac9edcb0,
  fqHex 0x1778e7166fcc6db74e0609d307e55412d7f5e4656a8dbf25f1b33289f1b330835336e25ce3107193c5b388641d9b6861,
  fqHex 0xe99726a3199f4436642b4b3e4118e5499db995a1257fb3f086eeb65982fac18985a286f301e77c451154ce9ac8895d9,
  fqHex 0x1630c3250d7313ff01d1201bf7a74ab5db3cb17dd952799b9ed3ab9097e68f90a0870d2dcae73d19cd13c1c66f652983,
  fqHex 0xd6ed6553fe44d296a3726c38ae652bfb11586264f0f8ce19008e218f9c86b2a8da25128c1052ecaddd7f225a139ed84,
  fqHex 0x17b81e7701abdbe2e8743884d1117e53356de5ab275b4db1a682c62ef0f2753339b7c8f8c8f475af9ccb5618e3f0c88e,
  fqHex 0x80d3cf1f9a78fc47b90b33563be990dc43b756ce79f5574a2c596c928c5d1de4fa295f296b74e956d71986a8497e317,
  fqHex 0x169b1f8e1bcfa7c42e0c37515d138f22dd2ecb803a0c5c99676314baf4bb1b7fa3190b2edc0327797f241067be390c9e,
  fqHex 0x10321da079ce07e272d8ec09d2565b0dfa7dccdde6787f96d50af36003b14866f69b771f8c285decca67df3f1605fb7b,
  fqHex 0x6e08c248e260e70bd1e962381edee3d31d79d7e22c837bc23c0bf1bc24c6b68c24b1b80b64d391fa9c8ba2e8ba2d229]

/-- `xDen11`, hash.go:131-143. -/
def xDen11 : List FQ := [
  fqHex 0x8ca8d548cff19ae18b2e62f4bd3fa6f01d5ef4ba35b48ba9c9588617fc8ac62b558d681be343df8993cf9fa40d21b1c,
  fqHex 0x12561a5deb559c4348b4711298e536367041e8ca0cf0800c0126c2588c48bf5713daa8846cb026e9e5c8276ec82b3bff,
  fqHex 0xb2962fe57a3225e8137e629bff2991f6f89416f5a718cd1fca64e00b11aceacd6a3d0967c94fedcfcc239ba5cb83e19,
  fqHex 0x3425581a58ae2fec83aafef7c40eb545b08243f16b1655154cca8abc28d6fd04976d5243eecf5c4130de8938dc62cd8,
  fqHex 0x13a8e162022914a80a6f1d5f43e7a07dffdfc759a12062bb8d6b44e833b306da9bd29ba81f35781d539d395b3532a21e,
  fqHex 0xe7355f8e4e667b955390f7f0506c6e9395735e9ce9cad4d0a43bcef24b8982f7400d24bc4228f11c02df9a29f6304a5,
  fqHex 0x772caacf16936190f3e0c63e0596721570f5799af53a1894e2e073062aede9cea73b3538f0de06cec2574496ee84a3a,
  fqHex 0x14a7ac2a9d64a8b230b3f5b074cf01996e7f63c21bca68a81996e1cdf9822c580fa5b9489d11e2d311f7d99bbdcc5a5e,
  fqHex 0xa10ecf6ada54f825e920b3dafc7a3cce07f8d1d7161366b74100da67f39883503826692abba43704776ec3a79a1d641,
  fqHex 0x95fc13ab9e92ad4476d6e3eb3a56680f682b4ee96f7d03776df533978f31c1593174e4b4b7865002d6384d168ecdd0a,
  fqHex 0x1]

/-- `yNum11`, hash.go:145-162. -/
def yNum11 : List FQ := [
  fqHex 0x90d97c81ba24ee0259d1f094980dcfa11ad138e48a869522b52af6c956543d3cd0c7aee9b3ba3c2be9845719707bb33,
  fqHex 0x134996a104ee5811d51036d776fb46831223e96c254f383d0f906343eb67ad34d6c56711962fa8bfe097e75a2e41c696,
  fqHex 0xcc786baa966e66f4a384c86a3b49942552e2d658a31ce2c344be4b91400da7d26d521628b00523b8dfe240c72de1f6,
  fqHex 0x1f86376e8981c217898751ad8746757d42aa7b90eeb791c09e4a3ec03251cf9de405aba9ec61deca6355c77b0e5f4cb,
  fqHex 0x8cc03fdefe0ff135caf4fe2a21529c4195536fbe3ce50b879833fd221351adc2ee7f8dc099040a841b6daecf2e8fedb,
  fqHex 0x16603fca40634b6a2211e11db8f0a6a074a7d0d4afadb7bd76505c3d3ad5544e203f6326c95a807299b23ab13633a5f0,
  fqHex 0x4ab0b9bcfac1bbcb2c977d027796b3ce75bb8ca2be184cb5231413c4d634f3747a87ac2460f415ec961f8855fe9d6f2,
  fqHex 0x987c8d5333ab86fde9926bd2ca6c674170a05bfe3bdd81ffd038da6c26c842642f64550fedfe935a15e4ca31870fb29,
  fqHex 0x9fc4018bd96684be88c9e221e4da1bb8f3abd16679dc26c1e8b6e6a1f20cabe69d65201c78607a360370e577bdba587,
  fqHex 0xe1bba7a1186bdb5223abde7ada14a23c42a0ca7915af6fe06985e7ed1e4d43b9b3f7055dd4eba6f2bafaaebca731c30,
  fqHex 0x19713e47937cd1be0dfd0b8f1d43fb93cd2fcbcb6caf493fd1183e416389e61031bf3a5cce3fbafce813711ad011c132,
  fqHex 0x18b46a908f36f6deb918c143fed2edcc523559b8aaf0c2462e6bfe7f911f643249d9cdf41b44d606ce07c8a4d0074d8e,
  fqHex 0xb182cac101b9399d155096004f53f447aa7b12a3426b08ec02710e807b4633f06c851c1919211f20d4c04f00b971ef8,
  fqHex 0x245a394ad1eca9b72fc00ae7be315dc757b3b080d4c158013e6632d3c40659cc6cf90ad1c232a6442d9d3f5db980133,
  fqHex 0x5c129645e44cf1102a159f748c4a3fc5e673d81d7e86568d9ab0f5d396a7ce46ba1049b6579afb7866b1e715475224b,
  fqHex 0x15e6be4e990f03ce4ea50b3b42df2eb5cb181d8f84965a3957add4fa95af01b2b665027efec01c7704b456be69c8b604]

/-- `yDen11`, hash.go:164-181. -/
def yDen11 : List FQ := [
  fqHex 0x16112c4c3a9c98b252181140fad0eae9601a6de578980be6eec3232b5be72e7a07f3688ef60c206d01479253b03663c1,
  fqHex 0x1962d75c2381201e1a0cbd6c43c348b885c84ff731c4d59ca4a10356f453e01f78a4260763529e3532f6102c2e49a03d,
  fqHex 0x58df3306640da276faaae7d6e8eb15778c4855551ae7f310c35a5dd279cd2eca6757cd636f96f891e2538b53dbf67f2,
  fqHex 0x16b7d288798e5395f20d23bf89edb4d1d115c5dbddbcd30e123da489e726af41727364f2c28297ada8d26d98445f5416,
  fqHex 0xbe0e079545f43e4b00cc912f8228ddcc6d19c9f0f69bbb0542eda0fc9dec916a20b15dc0fd2ededda39142311a5001d,
  fqHex 0x8d9e5297186db2d9fb266eaac783182b70152c65550d881c5ecd87b6f0f5a6449f38db9dfa9cce202c6477faaf9b7ac,
  fqHex 0x166007c08a99db2fc3ba8734ace9824b5eecfdfa8d0cf8ef5dd365bc400a0051d5fa9c01a58b1fb93d1a1399126a775c,
  fqHex 0x16a3ef08be3ea7ea03bcddfabba6ff6ee5a4375efa1f4fd7feb34fd206357132b920f5b00801dee460ee415a15812ed9,
  fqHex 0x1866c8ed336c61231a1be54fd1d74cc4f9fb0ce4c6af5920abc5750c4bf39b4852cfe2f7bb9248836b233d9d55535d4a,
  fqHex 0x167a55cda70a6e1cea820597d94a84903216f763e13d87bb5308592e7ea7d4fbc7385ea3d529b35e346ef48bb8913f55,
  fqHex 0x4d2f259eea405bd48f010a01ad2911d9c6dd039bb61a6290e591b36e636a5c871a5c29f4f83060400f8b49cba8f6aa8,
  fqHex 0xaccbb67481d033ff5852c1e48c50c477f94ff8aefce42d28c0f9a88cea7913516f968986f7ebbea9684b529e2561092,
  fqHex 0xad6b9514c767fe3c3613144b45f1496543346d98adf02267d5ceef9a00d9b8693000763e3b90ac11e99b138573345cc,
  fqHex 0x2660400eb2e4f3b628bdd0d53cd76f2bf565b94e72927c1cb748df27942480e420517bd8714cc80d1fadc1326ed06f7,
  fqHex 0xe0fa1d816ddc03e6b24255e0d7819c171c40f65e273b853324efcd6356caa205ca2f570f13497804415473a1d634b8f,
  fqHex 0x1]

/-- `xNum3`, hash.go:208-225. -/
def xNum3 : List FQ2 := [
  ⟨fqHex 0x5c759507e8e333ebb5b7a9a47d7ed8532c52d39fd3a042a88b58423c50ae15d5c2638e343d9c71c6238aaaaaaaa97d6, fqHex 0x5c759507e8e333ebb5b7a9a47d7ed8532c52d39fd3a042a88b58423c50ae15d5c2638e343d9c71c6238aaaaaaaa97d6⟩,
  ⟨fqHex 0x0, fqHex 0x11560bf17baa99bc32126fced787c88f984f87adf7ae0c7f9a208c6b4f20a4181472aaa9cb8d555526a9ffffffffc71a⟩,
  ⟨fqHex 0x11560bf17baa99bc32126fced787c88f984f87adf7ae0c7f9a208c6b4f20a4181472aaa9cb8d555526a9ffffffffc71e, fqHex 0x8ab05f8bdd54cde190937e76bc3e447cc27c3d6fbd7063fcd104635a790520c0a395554e5c6aaaa9354ffffffffe38d⟩,
  ⟨fqHex 0x171d6541fa38ccfaed6dea691f5fb614cb14b4e7f4e810aa22d6108f142b85757098e38d0f671c7188e2aaaaaaaa5ed1, fqHex 0x0⟩]

/-- `xDen3`, hash.go:227-240. -/
def xDen3 : List FQ2 := [
  ⟨fqHex 0x0, fqHex 0x1a0111ea397fe69a4b1ba7b6434bacd764774b84f38512bf6730d2a0f6b0f6241eabfffeb153ffffb9feffffffffaa63⟩,
  ⟨fqHex 0xc, fqHex 0x1a0111ea397fe69a4b1ba7b6434bacd764774b84f38512bf6730d2a0f6b0f6241eabfffeb153ffffb9feffffffffaa9f⟩,
  ⟨fqHex 0x1, fqHex 0x0⟩]

/-- `yNum3`, hash.go:242-259. -/
def yNum3 : List FQ2 := [
  ⟨fqHex 0x1530477c7ab4113b59a4c18b076d11930f7da5d4a07f649bf54439d87d27e500fc8c25ebf8c92f6812cfc71c71c6d706, fqHex 0x1530477c7ab4113b59a4c18b076d11930f7da5d4a07f649bf54439d87d27e500fc8c25ebf8c92f6812cfc71c71c6d706⟩,
  ⟨fqHex 0x0, fqHex 0x5c759507e8e333ebb5b7a9a47d7ed8532c52d39fd3a042a88b58423c50ae15d5c2638e343d9c71c6238aaaaaaaa97be⟩,
  ⟨fqHex 0x11560bf17baa99bc32126fced787c88f984f87adf7ae0c7f9a208c6b4f20a4181472aaa9cb8d555526a9ffffffffc71c, fqHex 0x8ab05f8bdd54cde190937e76bc3e447cc27c3d6fbd7063fcd104635a790520c0a395554e5c6aaaa9354ffffffffe38f⟩,
  ⟨fqHex 0x124c9ad43b6cf79bfbf7043de3811ad0761b0f37a1e26286b0e977c69aa274524e79097a56dc4bd9e1b371c71c718b10, fqHex 0x0⟩]

/-- `yDen3`, hash.go:261-278. -/
def yDen3 : List FQ2 := [
  ⟨fqHex 0x1a0111ea397fe69a4b1ba7b6434bacd764774b84f38512bf6730d2a0f6b0f6241eabfffeb153ffffb9feffffffffa8fb, fqHex 0x1a0111ea397fe69a4b1ba7b6434bacd764774b84f38512bf6730d2a0f6b0f6241eabfffeb153ffffb9feffffffffa8fb⟩,
  ⟨fqHex 0x0, fqHex 0x1a0111ea397fe69a4b1ba7b6434bacd764774b84f38512bf6730d2a0f6b0f6241eabfffeb153ffffb9feffffffffa9d3⟩,
  ⟨fqHex 0x12, fqHex 0x1a0111ea397fe69a4b1ba7b6434bacd764774b84f38512bf6730d2a0f6b0f6241eabfffeb153ffffb9feffffffffaa99⟩,
  ⟨fqHex 0x1, fqHex 0x0⟩]

/-- The inner loop of `iso11`, hash.go:191-195: Horner's rule from the last coefficient. -/
def hornerFQ (coeffs : List FQ) (x : FQ) : FQ :=
  match coeffs.reverse with
  | [] => FQ.zero
  | c :: cs => cs.foldl (fun v c => (v.mul x).add c) c

/-- `iso11`, hash.go:185-206. -/
def iso11 (p : G1Affine) : G1Affine :=
  let newX := (hornerFQ xNum11 p.x).div (hornerFQ xDen11 p.x)
  let newY := (p.y.mul (hornerFQ yNum11 p.x)).div (hornerFQ yDen11 p.x)
  .new newX newY

/-- The inner loop of `iso3`, hash.go:288-292: Horner's rule from the last coefficient. -/
def hornerFQ2 (coeffs : List FQ2) (x : FQ2) : FQ2 :=
  match coeffs.reverse with
  | [] => FQ2.zero
  | c :: cs => cs.foldl (fun v c => (v.mul x).add c) c

/-- `iso3`, hash.go:282-303. -/
def iso3 (p : G2Affine) : G2Affine :=
  let newX := (hornerFQ2 xNum3 p.x).div (hornerFQ2 xDen3 p.x)
  let newY := (p.y.mul (hornerFQ2 yNum3 p.x)).div (hornerFQ2 yDen3 p.x)
  .new newX newY

/-! ### The map to E1' and G1 -/

/-- `ellPA`, g1.go:614-617. -/
def ellPA : FQ := fqHex 0x144698a3b8e9433d693a02c96d4982b0ea985383ee66a8d8e8981aefd881ac98936f8da0e0f97f5cf428082d584c1d

/-- `ellPB`, g1.go:615-618. -/
def ellPB : FQ := fqHex 0x12e2908d11688030018b12e8753eee3b2016c1f0f24f4070a0b9c14fcef35ef55a23215a316ceaa5d1cc48e98e172be0

/-- `signFQ`, g1.go:621-626. -/
def signFQ (f : FQ) : FQ := if f.cmp (FQ.ofRepr FQ.qMinus1Over2) > 0 then FQ.negativeOneFQ else FQ.one

/-- `optimizedSWUMapHelper`, g1.go:628-714 (`none`: its panic). -/
def optimizedSWUMapHelper (t : FQ) : Option G1Affine :=
  let numDenCommon := FQ.negativeOneFQ.square
  let tSquared := t.square
  let t2 := tSquared.square
  let numDenCommon := numDenCommon.mul t2
  let negOneTimesTSquared := FQ.negativeOneFQ.mul tSquared
  let numDenCommon := numDenCommon.add negOneTimesTSquared
  let x0 :=
    if numDenCommon.equals FQ.zero then ellPB.div (FQ.negativeOneFQ.mul ellPA)
    else
      let ellPATimesCommon := ellPA.mul numDenCommon
      let numDenCommon := numDenCommon.add FQ.one
      (ellPB.neg.mul numDenCommon).div ellPATimesCommon
  let x0Cubed := x0.square.mul x0
  let ellPAX0 := ellPA.mul x0
  let gx0 := (x0Cubed.add ellPAX0).add ellPB
  let s0 := gx0.sqrt
  let xy : Option (FQ × FQ) :=
    if s0.2 then some (x0, s0.1)
    else
      let x1 := (FQ.negativeOneFQ.mul tSquared).mul x0
      let ellPAX1 := ellPA.mul x1
      let gx1 := ((x1.square.mul x1).add ellPAX1).add ellPB
      let s1 := gx1.sqrt
      if !s1.2 then none else some (x1, s1.1)
  xy.map fun xy =>
    let signT := signFQ t
    let signYT := signFQ xy.2
    let signYT := signYT.mul signT
    .new xy.1 (xy.2.mul signYT)

/-- `ClearH`, hash.go:306-309. -/
def clearH (p : G1Affine) : G1Affine :=
  let xP := p.mul (.new 0xd201000000010000)
  (xP.addAffine p).toAffine

/-- `optimizedSWUMap`, hash.go:311-321, with both arguments non-nil (`none`: a panic). -/
def optimizedSWUMap (t1 t2 : FQ) : Option G1Affine :=
  (optimizedSWUMapHelper t1).bind fun pp =>
  (optimizedSWUMapHelper t2).map fun pp2 =>
  let pp := (pp.toProjective.addAffine pp2).toAffine
  let pp := iso11 pp
  clearH pp

/-- `cipherSuite`, hash.go:323. -/
def cipherSuite : UInt8 := 1

/-- `HashG1`, hash.go:326-331 (`none`: a panic). -/
def hashG1 (sha : List UInt8 → List UInt8) (msg : List UInt8) : Option G1Affine :=
  (hp sha (cipherSuite :: msg) 0).bind fun t1 =>
  (hp sha (cipherSuite :: msg) 1).bind fun t2 =>
  optimizedSWUMap t1 t2

/-! ### The map to E2' and G2 -/

/-- `fq2nqr`, fq6.go:139-142. -/
def fq2nqr : FQ2 := ⟨FQ.one, FQ.one⟩

/-- `ell2pA`, g2.go:883-886. -/
def ell2pA : FQ2 := ⟨.ofRepr (.new 0), .ofRepr (.new 240)⟩

/-- `ell2pB`, g2.go:888-891. -/
def ell2pB : FQ2 := ⟨.ofRepr (.new 1012), .ofRepr (.new 1012)⟩

/-- `signFQ2`, g2.go:916-931. -/
def signFQ2 (f : FQ2) : Int :=
  let thresh := FQ.ofRepr FQ.qMinus1Over2
  if f.c1.cmp thresh > 0 then -1
  else if f.c1.cmp FQ.zero > 0 then 1
  else if f.c0.cmp thresh > 0 then -1
  else if f.c0.cmp FQ.zero > 0 then 1
  else 1

/-- The choice of the sign of `y` in `OptimizedSWU2MapHelper`, g2.go:984-989 and g2.go:1020-1025. -/
def matchSign (t y : FQ2) : FQ2 := if signFQ2 t ≠ signFQ2 y then y.neg else y

/-- `OptimizedSWU2MapHelper`, g2.go:933-1031. Outer `none`: its panic; inner `none`: the nil result. -/
def optimizedSWU2MapHelper (t : FQ2) : Option (Option G2Affine) :=
  let numDenCommon := fq2nqr.square
  let tSquared := t.square
  let t4 := tSquared.square
  let numDenCommon := numDenCommon.mul t4
  let negOneTimesTSquared := fq2nqr.mul tSquared
  let numDenCommon := numDenCommon.add negOneTimesTSquared
  let x0 :=
    if numDenCommon.equals FQ2.zero then ell2pB.div (fq2nqr.mul ell2pA)
    else
      let ell2paTimesCommon := ell2pA.mul numDenCommon
      let negEll2pb := ell2pB.neg
      let numDenCommon := numDenCommon.add FQ2.one
      (negEll2pb.mul numDenCommon).div ell2paTimesCommon
  let x0Cubed := x0.square.mul x0
  let ellPAX0 := ell2pA.mul x0
  let gx0 := (x0Cubed.add ellPAX0).add ell2pB
  let s0 := gx0.sqrt
  if s0.2 && s0.1.square.equals gx0 then some (some (.new x0 (matchSign t s0.1)))
  else
    let tCubed := tSquared.mul t
    let t6 := tCubed.square
    let x1 := (fq2nqr.mul tSquared).mul x0
    let gx1 := ((fq2nqr.square.mul fq2nqr).mul t6).mul gx0
    let s1 := gx1.sqrt
    if !s1.2 then none
    else if s1.1.square.equals gx1 then some (some (.new x1 (matchSign t s1.1)))
    else some none

/-- `iwsc`, hash.go:333-336. -/
def iwsc : FQ2 := ⟨fqHex 0xd0088f51cbff34d258dd3db21a5d66bb23ba5c279c2895fb39869507b587b120f55ffff58a9ffffdcff7fffffffd556, fqHex 0xd0088f51cbff34d258dd3db21a5d66bb23ba5c279c2895fb39869507b587b120f55ffff58a9ffffdcff7fffffffd555⟩

/-- `kQiX`, hash.go:338. -/
def kQiX : FQ := fqHex 0x1a0111ea397fe699ec02408663d4de85aa0d857d89759ad4897d29650fb85f9b409427eb4f49fffd8bfd00000000aaad

/-- `kQiY`, hash.go:339. -/
def kQiY : FQ := fqHex 0x6af0e0437ff400b6831e36d6bd17ffe48395dabc2d3435e77f76e17009241c5ee67992f72ec05f4c81084fbede3cc09

/-- `psi`, hash.go:341-366. -/
def psiAffine (g : G2Affine) : G2Affine :=
  let qiX := iwsc.mul g.x
  let qiX : FQ2 := ⟨qiX.c0.mul kQiX, (qiX.c1.mul kQiX).neg⟩
  let newX := fq2nqr.mul qiX
  let qiY := iwsc.mul g.y
  let y0y1 := (qiY.c0.add qiY.c1).mul kQiY
  let y0SubY1 := (qiY.c0.sub qiY.c1).mul kQiY
  let qiY : FQ2 := ⟨y0y1, y0SubY1⟩
  let newY := fq2nqr.mul qiY
  .new newX newY

/-- `clearH2`, hash.go:368-389. -/
def clearH2 (p : G2Affine) : G2Affine :=
  let work := p.mul (.new 0xd201000000010000)
  let work := work.addAffine p
  let minusPsiP := (psiAffine p).neg
  let work := work.addAffine minusPsiP
  let work := work.mul (.new 0xd201000000010000)
  let work := work.addAffine minusPsiP
  let negP := p.neg
  let work := work.addAffine negP
  let p2 := p.toProjective.double.toAffine
  let psiPsi2P := psiAffine (psiAffine p2)
  let work := work.addAffine psiPsi2P
  work.toAffine

/-- `optimizedSWUMap2`, hash.go:391-402, with both arguments non-nil (`none`: a panic, also on a nil
intermediate point). -/
def optimizedSWUMap2 (t1 t2 : FQ2) : Option G2Affine :=
  (optimizedSWU2MapHelper t1).bind fun pp =>
  (optimizedSWU2MapHelper t2).bind fun pp2 =>
  pp.bind fun pp => pp2.map fun pp2 =>
  let pp := (pp.toProjective.addAffine pp2).toAffine
  let pp := iso3 pp
  clearH2 pp

/-- `HashG2`, hash.go:405-411 (`none`: a panic). -/
def hashG2 (sha : List UInt8 → List UInt8) (msg : List UInt8) : Option G2Affine :=
  (hp2 sha (cipherSuite :: msg) 0).bind fun t1 =>
  (hp2 sha (cipherSuite :: msg) 1).bind fun t2 =>
  optimizedSWUMap2 t1 t2

/-! ### The other encodings to G2 -/

/-- `swencSqrtNegThreeFQ2`, g2.go:832. -/
def swencSqrtNegThreeFQ2 : FQ2 := ⟨.ofRepr (.ofNat 1586958781458431025242759403266842894121773480562120986020912974854563298150952611241517463240701), FQ.zero⟩

/-- `swencSqrtNegThreeMinusOneDivTwoFQ2`, g2.go:833. -/
def swencSqrtNegThreeMinusOneDivTwoFQ2 : FQ2 := ⟨.ofRepr (.ofNat 793479390729215512621379701633421447060886740281060493010456487427281649075476305620758731620350), FQ.zero⟩

/-- `SWEncodeG2`, g2.go:864-880: from the three candidates on (`none`: nil). The function is cut in four so that each
intermediate value is an argument. -/
def swEncodePick (parity : Bool) (w x1 : FQ2) : Option G2Affine :=
  (G2Affine.getPointFromX x1 parity).orElse fun _ =>
  (G2Affine.getPointFromX (x1.neg.sub FQ2.one) parity).orElse fun _ =>
  G2Affine.getPointFromX (w.square.inverse.1.add FQ2.one) parity

/-- `SWEncodeG2`, g2.go:860-863. -/
def swEncodeX1 (t : FQ2) (parity : Bool) (w : FQ2) : Option G2Affine :=
  swEncodePick parity w ((w.mul t).neg.add swencSqrtNegThreeMinusOneDivTwoFQ2)

/-- `SWEncodeG2`, g2.go:848-859. -/
def swEncodeW (t : FQ2) (parity : Bool) (w : FQ2) : Option G2Affine :=
  if w.isZero then some (if parity then G2Affine.one.neg else G2Affine.one)
  else swEncodeX1 t parity ((w.inverse.1.mul swencSqrtNegThreeFQ2).mul t)

/-- `SWEncodeG2`, g2.go:836-881 (`none`: nil). -/
def swEncodeG2 (t : FQ2) : Option G2Affine :=
  if t.isZero then some .zero
  else swEncodeW t t.parity ((t.square.add G2Affine.bCoeffFQ2).add FQ2.one)

/-- `HashG2WithDomain`, g2.go:1066-1070: the right-hand side of the curve equation at `x0`. -/
def domainG (x0 : FQ2) : FQ2 := (x0.square.mul x0).add G2Affine.bCoeffFQ2

/-- `HashG2WithDomain`, g2.go:1076-1078: the choice of `y`. -/
def domainY (y0 : FQ2) : FQ2 := if y0.parity then y0 else y0.neg

/-- The loop of `HashG2WithDomain`, g2.go:1065-1084: `fuel` iterations at most, `none` if they do not suffice. -/
def domainLoop : (fuel : Nat) → (x0 : FQ2) → Option G2Projective
  | 0, _ => none
  | fuel + 1, x0 =>
    if (domainG x0).sqrt.2 then some (G2Affine.scaleByCofactor (.new x0 (domainY (domainG x0).sqrt.1)))
    else domainLoop fuel (x0.add FQ2.one)

/-- `HashG2WithDomain`, g2.go:1041-1085, cut off after `q` iterations: `x0` then has its first value again, so
`none` is an endless loop (see `C43` for the proof that there is none), or a panic of `FQReprFromBigInt`.
`sha` stands for `hashFunc`, g2.go:1034-1038. -/
def hashG2WithDomain (sha : List UInt8 → List UInt8) (messageHash domain : List UInt8) : Option G2Projective :=
  (reprOfBig (bytesNat (sha (messageHash ++ domain ++ [1])))).bind fun xReFQ =>
  (reprOfBig (bytesNat (sha (messageHash ++ domain ++ [2])))).bind fun xImFQ =>
  domainLoop qFieldModulus.toBig.toNat ⟨.ofRepr xReFQ, .ofRepr xImFQ⟩

/- No effect on the kernel or on meaning. -/
attribute [irreducible] iso11 iso3 optimizedSWUMapHelper optimizedSWU2MapHelper clearH clearH2 psiAffine
  hashG1 hashG2 hashG2WithDomain domainLoop swEncodeG2 hornerFQ hornerFQ2 hp hp2 signFQ signFQ2 matchSign
  xNum11 xDen11 yNum11 yDen11 xNum3 xDen3 yNum3 yDen3 ellPA ellPB ell2pA ell2pB iwsc kQiX kQiY fq2nqr
  swencSqrtNegThreeFQ2 swencSqrtNegThreeMinusOneDivTwoFQ2

end Bls
