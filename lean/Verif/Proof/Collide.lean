import Verif.Proof.RawPoints
import Verif.Proof.HashTop
/-
`HashG1` and `HashG2` where the two mapped points collide: they are opposite, or equal, or (on G1) their sum is in the
kernel of the isogeny. The code then works on coordinates off the curves.
-/
set_option exponentiation.threshold 1000
set_option maxRecDepth 4000
namespace Bls.Collide
open Cases

/-! Coordinates, checked below: the isogeny at (0, 1) and its cleared image, and the same for the doubled image of 0. -/

def oIX : N1 := ⟨0x1634aa65622b8feb0794f5a79c560147d471033533e6a0899e104b2222b8d29220d5825b766fc8b71543ec946c6b62⟩
def oIY : N1 := ⟨0x11adfffcfaaef78b9897469c2f71c6ee81ab4d7a27f2b3c8c1b4ce19f352921b822d05e1948a8a6cbfc06bd2afbd51e4⟩
def oCX : N1 := ⟨0x9296e434e45bd2da37f78a9777a95260389b5e2edb38dbe54411d0a2e3d9d1dc0589644bf2dac97d0dd77ef64832970⟩
def oCY : N1 := ⟨0x16a2ed007fb6d0647569c219661f477767a57a12348a1cce3408e4c3dac24d3f1aec84479c354e28f00a8e2dd1bf9efa⟩
def eDX : N1 := ⟨0x1e4c553f6158c7659bbc91c11831e3daa4a2b67d6f6feb0877ce5d4ea89e2e9d46f7f3e56a106238a759c19d793271f⟩
def eDY : N1 := ⟨0x17762e9a2f83bc28fadcdbca28e723f6ec783f03bb019d004d15d19113c0a0b6fd682ed7c335120abaa066214d6cd3e7⟩
def eIX : N1 := ⟨0x45e26a0ea8fd8d825cbbcfefe492defb26c30b5c2c1581b33296beed9ed44e8e6a208096fd1365a2412580f1943899⟩
def eIY : N1 := ⟨0xc9f62eaab553e9193b71b9af78623cfd4fb0e65589fa33aa885a5cdd7d18b5f38996c4cef7a28b7cd7f407f13b116a3⟩
def eCX : N1 := ⟨0xf62b9e6df50990fb400f1cd7dc1639a2069afbc3910b5d04d204e2988c204db29b22f50f4e8b57a539f061283b592df⟩
def eCY : N1 := ⟨0x4f45280b0ae18cc05d3a1e5a237ae3b1f80167a8cd7309a245b05407f62bf4399b7f2e68a0d9061cd57ccf51776c921⟩
def oI2X : N2 := ⟨0x66bb89253ba71d3ec9e8839a528cf05c6a232406eb23d8497e6210b4cb6c1842d7fcd6e4b63c0ca343ef684bda11a56, 0x13955957e5c574c65e7d1f7c9e22ddd19dd5194484d2d53acf4ab195a9fa349ff12c329065f03f3585c0097b425e9055⟩
def oI2Y : N2 := ⟨0x1826379dd1aac007bccbb93f35b75a47806a9255e49b898257c0d475e0878b09501afd897f1abced225e96a673e23148, 0x0⟩
def oD2X : N2 := ⟨0x1378412e7619fd1be92e452c60130b32eb619b37ac6c1521b6b3327ea5336541ce6f5185593f32c4d260efa7c093d011, 0xcd77124a774e3a7d93d10734a519e0b8d446480dd647b092fcc4216996d83085aff9adc96c78194687ded097b4234ac⟩
def oD2Y : N2 := ⟨0x10c8366b361b1e22a585aa41b29582a665950d5448e880d5e696fabd8c97d4c1eea16f7b0ee19fc7a3104af48bc734d, 0x177ed8297511afd3713a95920de4156f2476a9551f64fae9c5588ea5600ab871a2234133f17cd493e13a2cde6f6adb90⟩
def oC2X : N2 := ⟨0x197b549b1c300bdaf5869da1eb61fb5f7328584fedb91bdceef622708b2deef62123c6826c7988bbfd55aa17f63309dd, 0x57ba47f2cce2b40f760d4016333dc39eaa8a90fca6d3aabcaecca8ce951acf344301e030c2e2acc49db4929e507f4ae⟩
def oC2Y : N2 := ⟨0x6db281a4876a977f55a368e2d5ac745c6c3bc0188505a2d0df94002052d87e3cabf34bd22dfa3065bdb27672b12fa68, 0xf162e0ee0b03db87a518bb3a0daf5a07c894ca0d9abbbea9e252cf0462c9c1832c8f69713ac742e08a91bcb4288954c⟩
def eT2X : N2 := ⟨0x33fc59b3bf2c4242ea15a57859cb9d5d26b31337a0928c90d1a0f6e0ab03429ca7300d38ff53034a468b86b60fa8bb3, 0x4b22a31491d882e5434fc8d5f5c78069529b542a811ed0e2a24a1f500bd448b9623d7d03d30db0b887df6b597053875⟩
def eT2Y : N2 := ⟨0x2384fe27ddc07e4b96662ff408f4c579609ad19369bc874c3d9ba189a6327ae4f5b37a6c654ba2bcd9b14f374905db5, 0x137a45bf072cba4b8ea08c15ff050f02c71ac93917c7ecf82076bee8c891e5d285c2835b529a958377612d6ed771f7b⟩
def eI2X : N2 := ⟨0x7ce49ca2727650580e55c88ddb1b63df574450cfd4f0f68e251b3f42edf2811f148b77eb9489c274c84901ec2161855, 0x2330d5e29ee9a7c3279681481277abedb5b069687a94fd28cb69dc01df840e18c4b1876a625d6546e7e04f95519a18d⟩
def eI2Y : N2 := ⟨0x29bacb68e78b6ad6a1c73fd4c7f367a29e9ae33c87fe50bf23d9bc7ff8d715c0e990a49fa6fe812de69b4d478f0493b, 0x471907047320ddfbecd32948fcbec6875cf73bf6aade1bd1cc34124d5c90a8a558bdc509899011f51d12836b0e71307⟩
def eD2X : N2 := ⟨0xb78367e68c5a3664d2659de64e6c8a0ca0f802c47c9e6134379b169a7274fff27036213797fcf518d058f08ce6de30f, 0xfb451fee97b5c3f04f6fa206f8e1aae6db487412c5cb3511eb79d7876f0a0e198a00c8f06e68846fd1b9ef08e45b5ac⟩
def eD2Y : N2 := ⟨0x48c226f5494907b2ab5f25fec05f3e7ff29b013dbb7e93be416a5003d44a84c504887eda2003a19cb5cfcb9f571dec3, 0xd043a6566733097f3946f4ffdfe1250f01b7550c80971080e055ed28f088e0dc6ad78af8d1c286d840ec2599736161e⟩
def eC2X : N2 := ⟨0x5e9602734804133799d101bf0522498bb1c7b552bc188a4cbbca10a0fda24496eb91483c9e5da4bd35a458906fbed34, 0x136adf898636e2f472525bbe43f9872dd3575174549a090de7c3278eff0aa8c1ca5ca28b205f930e08b515198da763d9⟩
def eC2Y : N2 := ⟨0x6d2ffb929aa9a1e8a329b967ee7f08c3573c9efe42c096b5b55696835244cae957325a6937894f7df1bc3ac55597426, 0x8327559d252a0062199688b1d117e040aff458358ab88873f87e6526cff8cf18ff5ffafb39a01d128c836fa28da8410⟩

def uBits : List Bool := [true, true, false, true, false, false, true, false, false, false, false, false, false, false, false, true, false, false, false, false, false, false, false, false, false, false, false, false, false, false, false, false, false, false, false, false, false, false, false, false, false, false, false, false, false, false, false, true, false, false, false, false, false, false, false, false, false, false, false, false, false, false, false, false]

theorem uBits_len : uBits.length = (FQRepr.new 0xd201000000010000).bitLen := by decide +kernel

theorem uBits_get : ∀ k, (hk : k < uBits.length) →
    (FQRepr.new 0xd201000000010000).bit ((FQRepr.new 0xd201000000010000).bitLen - (0 + k) - 1) = some uBits[k] := by
  decide +kernel

/-! ### G1 -/

/-- `u` times a point by the code's formulas. -/
def mulU1 (x y : N1) : J1 := J1.ladder J1.double (fun g => g.addAffine x y) uBits ⟨N1.zero, N1.one, N1.zero⟩

theorem mulU1_rep {a : G1Affine} {x y : N1} (h : a.RepN x y) :
    (a.mul (.new 0xd201000000010000)).RepN (mulU1 x y) := by
  obtain ⟨o, h1, h2⟩ := G1Projective.RepN.ladder (dbl := G1Projective.double) (d := J1.double)
    (plus := fun g => g.addAffine a) (p := fun g => g.addAffine x y) (fun _ _ h => h.double)
    (fun _ _ h' => h'.addAffine h) uBits 0 uBits_get _ _ G1Projective.RepN.zero
  rw [uBits_len] at h1
  rw [G1Affine.mul, G1Affine.mul?, h1]
  exact h2

theorem clearH_rep {a : G1Affine} {x y X Y : N1} (h : a.RepN x y)
    (hz : ((mulU1 x y).addAffine x y).z.eqv N1.zero = false)
    (hx : (N1.mul X (N1.mul ((mulU1 x y).addAffine x y).z ((mulU1 x y).addAffine x y).z)).eqv
      ((mulU1 x y).addAffine x y).x = true)
    (hy : (N1.mul Y (N1.mul ((mulU1 x y).addAffine x y).z (N1.mul ((mulU1 x y).addAffine x y).z
      ((mulU1 x y).addAffine x y).z))).eqv ((mulU1 x y).addAffine x y).y = true) : (clearH a).RepN X Y := by
  unfold clearH
  exact ((mulU1_rep h).addAffine h).toAffine hz hx hy

theorem iso11_raw {a : G1Affine} {x y : Fq} (hx : a.x.Rep x) (hy : a.y.Rep y) :
    (iso11 a).At (polyAt iso11Map.xNum x / polyAt iso11Map.xDen x) (y * polyAt iso11Map.yNum x / polyAt iso11Map.yDen x) := by
  have a1 := horner_rep (l := iso11XNum) (by rw [q_eq]; decide +kernel) (by decide) hx
  have a2 := horner_rep (l := iso11XDen) (by rw [q_eq]; decide +kernel) (by decide) hx
  have a3 := horner_rep (l := iso11YNum) (by rw [q_eq]; decide +kernel) (by decide) hx
  have a4 := horner_rep (l := iso11YDen) (by rw [q_eq]; decide +kernel) (by decide) hx
  rw [show iso11XNum.map fqHex = xNum11 from by unfold xNum11 iso11XNum; rfl] at a1
  rw [show iso11XDen.map fqHex = xDen11 from by unfold xDen11 iso11XDen; rfl] at a2
  rw [show iso11YNum.map fqHex = yNum11 from by unfold yNum11 iso11YNum; rfl] at a3
  rw [show iso11YDen.map fqHex = yDen11 from by unfold yDen11 iso11YDen; rfl] at a4
  unfold iso11
  exact ⟨rfl, a1.div a2, (hy.mul a3).div a4⟩

theorem iso11_rep {a : G1Affine} {x y X Y : N1} (hx : a.x.RepN x) (hy : a.y.RepN y)
    (h1 : (⟨evN iso11XDen x.v⟩ : N1).eqv N1.zero = false) (h2 : (⟨evN iso11YDen x.v⟩ : N1).eqv N1.zero = false)
    (h3 : (N1.mul X ⟨evN iso11XDen x.v⟩).eqv ⟨evN iso11XNum x.v⟩ = true)
    (h4 : (N1.mul Y ⟨evN iso11YDen x.v⟩).eqv (N1.mul y ⟨evN iso11YNum x.v⟩) = true) : (iso11 a).RepN X Y := by
  obtain ⟨r1, r2, r3⟩ := iso11_raw hx hy
  have ne : ∀ n : N1, n.eqv N1.zero = false → n.toF ≠ 0 := by
    intro n h e
    rw [← N1.toF_zero, ← N1.eqv_iff, h] at e
    exact absurd e (by decide)
  rw [N1.eqv_iff, N1.toF_mul] at h3
  rw [N1.eqv_iff, N1.toF_mul, N1.toF_mul] at h4
  have e : ∀ l : List ℕ, polyAt (l.map Nat.cast) x.toF = (⟨evN l x.v⟩ : N1).toF := fun l => evN_eq l x.v
  refine ⟨r1, r2.of_eq ?_, r3.of_eq ?_⟩
  · change polyAt (iso11XNum.map Nat.cast) x.toF / polyAt (iso11XDen.map Nat.cast) x.toF = _
    rw [e, e, ← h3, mul_div_cancel_right₀ _ (ne _ h1)]
  · change y.toF * polyAt (iso11YNum.map Nat.cast) x.toF / polyAt (iso11YDen.map Nat.cast) x.toF = _
    rw [e, e, ← h4, mul_div_cancel_right₀ _ (ne _ h2)]

/-- Coordinates off the curve. -/
theorem off1 {a : G1Affine} {x y : N1} (h : a.RepN x y)
    (hn : (N1.mul y y).eqv (N1.add (N1.mul x (N1.mul x x)) ⟨4⟩) = false) : a.isOnCurve = false := by
  rw [Bool.eq_false_iff] at hn ⊢
  rw [Ne, G1Affine.isOnCurve_iff h.x h.y h.inf]
  intro this
  apply hn
  rw [N1.eqv_iff, N1.toF_add, N1.toF_mul, N1.toF_mul, N1.toF_mul]
  have e4 : (⟨4⟩ : N1).toF = 4 := Nat.cast_ofNat
  rw [e4]
  linear_combination this

/-! Opposite points -/

theorem oI_rep : (iso11 G1Affine.zero).RepN oIX oIY :=
  iso11_rep (x := N1.zero) (y := N1.one)
    (by unfold FQ.RepN G1Affine.zero; rw [N1.toF_zero]; exact FQ.zero_rep)
    (by unfold G1Affine.zero; exact FQ.RepN.one)
    (by decide +kernel) (by decide +kernel) (by decide +kernel) (by decide +kernel)

theorem oC_rep : (clearH (iso11 G1Affine.zero)).RepN oCX oCY :=
  clearH_rep oI_rep (by decide +kernel) (by decide +kernel) (by decide +kernel)

theorem oC_off : (clearH (iso11 G1Affine.zero)).isOnCurve = false := off1 oC_rep (by decide +kernel)

theorem double_z {g : G1Projective} {y : Fq} (hz : g.z.Rep 1) (hy : g.y.Rep y) (y0 : y + y = 0) : g.double.z.Rep 0 := by
  have hz1 : g.z.isZero = false := by
    rw [Bool.eq_false_iff]; exact fun e => one_ne_zero (hz.isZero.mp e)
  have k := (hz.mul hy).double
  unfold G1Projective.double G1Projective.isZero
  rw [hz1, if_neg (by decide)]
  exact k.of_eq (by linear_combination y0)

theorem sum_z {g : G1Projective} {b : G1Affine} {x y : Fq} (hz : g.z.Rep 1) (hx : g.x.Rep x) (hy : g.y.Rep y)
    (hb : b.At x (-y)) : (g.addAffine b).z.Rep 0 := by
  obtain ⟨bi, bx, byy⟩ := hb
  have hz1 : g.z.isZero = false := by
    rw [Bool.eq_false_iff]; exact fun e => one_ne_zero (hz.isZero.mp e)
  have z1 := hz.square
  have u2 := bx.mul z1
  have s2 := (byy.mul hz).mul z1
  have eq := hy.equals s2
  have hh := u2.sub hx
  have nz := (((hz.add hh).square.sub z1).sub hh.square).of_eq (y := 0) (by ring)
  have key : ∃ r, g.addAffine b = r ∧ (r = g.double ∧ (g.y.equals ((b.y.mul g.z).mul g.z.square)) = true ∨
      r.z = (((g.z.add ((b.x.mul g.z.square).sub g.x)).square.sub g.z.square).sub
        ((b.x.mul g.z.square).sub g.x).square)) := by
    unfold G1Projective.addAffine G1Projective.isZero G1Affine.isZero
    rw [hz1, if_neg (by decide), bi, if_neg (by decide)]
    refine ⟨_, rfl, ?_⟩
    dsimp only
    split
    · rename_i c
      rw [Bool.and_eq_true] at c
      exact .inl ⟨rfl, c.2⟩
    · exact .inr rfl
  obtain ⟨r, e, ⟨rfl, c⟩ | c⟩ := key
  · rw [e]
    have c := eq.mp c
    exact double_z hz hy (by linear_combination c)
  · rw [e, c]
    exact nz

theorem sum_opposite {a b : G1Affine} {x y : Fq} (ha : a.At x y) (hb : b.At x (-y)) :
    (a.toProjective.addAffine b).toAffine = G1Affine.zero := by
  obtain ⟨ai, ax, ay⟩ := ha
  have ep : a.toProjective = ⟨a.x, a.y, FQ.one⟩ := by
    unfold G1Affine.toProjective G1Affine.isZero; rw [if_neg (by rw [ai]; decide)]
  have key : (a.toProjective.addAffine b).z.Rep 0 := by
    rw [ep]; exact sum_z (g := ⟨a.x, a.y, FQ.one⟩) FQ.one_rep ax ay hb
  unfold G1Projective.toAffine
  rw [if_pos (by rw [G1Projective.isZero]; exact key.isZero.mpr rfl)]

theorem hashG1_opposite {sha : List UInt8 → List UInt8} {msg : List UInt8} {P Q : E1'.Point}
    (hP : Swu1 (hashToField sha (1 :: msg) 0 1 : Fq) P) (hQ : Swu1 (hashToField sha (1 :: msg) 1 1 : Fq) Q)
    (h : P = -Q) : hashG1 sha msg = some (clearH (iso11 G1Affine.zero)) := by
  obtain ⟨t, h1, h1'⟩ := hp_spec sha (cipherSuite :: msg) 0
  obtain ⟨s, h2, h2'⟩ := hp_spec sha (cipherSuite :: msg) 1
  rw [hashG1_eq h1 h2]
  rw [cipherSuite_eq] at h1' h2'
  obtain ⟨p, x₁, y₁, k1, k1a, hs1⟩ := optimizedSWUMapHelper_spec h1'
  obtain ⟨p', x₂, y₂, k2, k2a, hs2⟩ := optimizedSWUMapHelper_spec h2'
  obtain ⟨x₁', y₁', hP, hs1'⟩ := hP
  obtain ⟨x₂', y₂', hQ, hs2'⟩ := hQ
  obtain ⟨rfl, rfl⟩ := hs1.unique (fun y hy => Fq.isNeg_neg hy) hs1'
  obtain ⟨rfl, rfl⟩ := hs2.unique (fun y hy => Fq.isNeg_neg hy) hs2'
  rw [h] at hP
  obtain ⟨rfl, rfl⟩ := hP.coord hQ.neg
  rw [optimizedSWUMap, k1, k2]
  change some (clearH (iso11 _)) = _
  rw [sum_opposite k1a (by rw [neg_neg]; exact k2a)]

/-! Points whose sum is in the kernel of the isogeny -/

theorem kernel_rep {a : G1Affine} (h : a.RepN N1.zero N1.zero) : (clearH a).RepN N1.zero N1.zero :=
  clearH_rep h (by decide +kernel) (by decide +kernel) (by decide +kernel)

theorem hashG1_kernel {sha : List UInt8 → List UInt8} {msg : List UInt8} {P Q : E1'.Point}
    (hP : Swu1 (hashToField sha (1 :: msg) 0 1 : Fq) P) (hQ : Swu1 (hashToField sha (1 :: msg) 1 1 : Fq) Q)
    (hne : P ≠ Q) {x y : Fq} (hS : SwAt (P + Q) x y) (hd : polyAt iso11Map.xDen x = 0) :
    ∃ g, hashG1 sha msg = some g ∧ g.infinity = false ∧ g.x.Rep 0 ∧ g.y.Rep 0 := by
  have hne' : P ≠ -Q := by
    rintro rfl
    rw [neg_add_cancel] at hS
    obtain ⟨_, e⟩ := hS
    cases e
  obtain ⟨t, h1, h1'⟩ := hp_spec sha (cipherSuite :: msg) 0
  obtain ⟨s, h2, h2'⟩ := hp_spec sha (cipherSuite :: msg) 1
  rw [hashG1_eq h1 h2]
  rw [cipherSuite_eq] at h1' h2'
  obtain ⟨p, x₁, y₁, k1, k1a, hs1⟩ := optimizedSWUMapHelper_spec h1'
  obtain ⟨p', x₂, y₂, k2, k2a, hs2⟩ := optimizedSWUMapHelper_spec h2'
  obtain ⟨x₁', y₁', hP, hs1'⟩ := hP
  obtain ⟨x₂', y₂', hQ, hs2'⟩ := hQ
  obtain ⟨rfl, rfl⟩ := hs1.unique (fun y hy => Fq.isNeg_neg hy) hs1'
  obtain ⟨rfl, rfl⟩ := hs2.unique (fun y hy => Fq.isNeg_neg hy) hs2'
  obtain ⟨x', y', hS', hA⟩ := add_chord k1a k2a hP hQ (hP.ne hQ hne hne')
  obtain ⟨rfl, rfl⟩ := hS.coord hS'
  have hd2 : polyAt iso11Map.yDen x = 0 := by
    have := iso11_den x
    rw [hd] at this
    exact pow_eq_zero_iff (n := 2) (by norm_num) |>.mp (this.trans (by norm_num))
  obtain ⟨r1, r2, r3⟩ := iso11_raw hA.2.1 hA.2.2
  rw [hd, div_zero] at r2
  rw [hd2, div_zero] at r3
  have hk := kernel_rep ⟨r1, by unfold FQ.RepN; rw [N1.toF_zero]; exact r2, by unfold FQ.RepN; rw [N1.toF_zero]; exact r3⟩
  have fin : ∀ g : G1Affine, g.RepN N1.zero N1.zero →
      ∃ g', some g = some g' ∧ g'.infinity = false ∧ g'.x.Rep 0 ∧ g'.y.Rep 0 := by
    intro g hg
    have hx := hg.x
    have hy := hg.y
    unfold FQ.RepN at hx hy
    rw [N1.toF_zero] at hx hy
    exact ⟨g, rfl, hg.inf, hx, hy⟩
  rw [optimizedSWUMap, k1, k2]
  exact fin _ hk

/-! Equal points -/

theorem eD_rep {a b : G1Affine} (h : a.RepN ⟨aX1⟩ ⟨aY1⟩) (h' : b.RepN ⟨aX1⟩ ⟨aY1⟩) :
    (a.toProjective.addAffine b).toAffine.RepN eDX eDY :=
  (h.toProjective.addAffine h').toAffine (by decide +kernel) (by decide +kernel) (by decide +kernel)

theorem eI_rep {a : G1Affine} (h : a.RepN eDX eDY) : (iso11 a).RepN eIX eIY :=
  iso11_rep h.x h.y (by decide +kernel) (by decide +kernel) (by decide +kernel) (by decide +kernel)

theorem eC_rep {a : G1Affine} (h : a.RepN eIX eIY) : (clearH a).RepN eCX eCY :=
  clearH_rep h (by decide +kernel) (by decide +kernel) (by decide +kernel)

/-- Both field elements are 0. -/
theorem hashG1_equal {sha : List UInt8 → List UInt8} {msg : List UInt8}
    (h1 : hashToField sha (1 :: msg) 0 1 = 0) (h2 : hashToField sha (1 :: msg) 1 1 = 0) :
    ∃ g, hashG1 sha msg = some g ∧ g.isOnCurve = false := by
  obtain ⟨t, k1, k1'⟩ := hp_spec sha (cipherSuite :: msg) 0
  obtain ⟨s, k2, k2'⟩ := hp_spec sha (cipherSuite :: msg) 1
  rw [hashG1_eq k1 k2]
  rw [cipherSuite_eq, h1] at k1'
  rw [cipherSuite_eq, h2] at k2'
  obtain ⟨p, x₁, y₁, l1, l1a, hs1⟩ := optimizedSWUMapHelper_spec k1'
  obtain ⟨p', x₂, y₂, l2, l2a, hs2⟩ := optimizedSWUMapHelper_spec k2'
  obtain ⟨rfl, rfl⟩ := hs1.unique (fun y hy => Fq.isNeg_neg hy) swu1_0
  obtain ⟨rfl, rfl⟩ := hs2.unique (fun y hy => Fq.isNeg_neg hy) swu1_0
  have hc := eC_rep (eI_rep (eD_rep (a := p) (b := p') ⟨l1a.1, l1a.2.1, l1a.2.2⟩ ⟨l2a.1, l2a.2.1, l2a.2.2⟩))
  rw [optimizedSWUMap, l1, l2]
  exact ⟨_, rfl, off1 hc (by decide +kernel)⟩

end Bls.Collide
