import Verif.Proof.Collide
/-
`HashG2` where the two mapped points are opposite or equal.
-/
set_option exponentiation.threshold 1000
set_option maxRecDepth 4000
namespace Bls.Collide
open Cases

/-! Intermediate values of the cofactor clearing, checked below. -/

def oW1 : J2 := ⟨⟨0xbf8f0d51396de88f0274d98686804b65517d9bd0c1199c11c40a2d48408d2cc16d10d85db35cc26aac62278df5dc00f, 0x5e8bcd136e410be8b66ce7606d7e0a12b7b5fcba5622c6108641b79919c14b01918c3b8bb2fccf12745b3ea9e0c7521⟩, ⟨0x11893c3855c028df4d452f0336d3b63732e247c4726dc4264fa5b0647bc739a32ebe3609bc6b241e5c980fd5089916f7, 0x7c8723b2535d62de9ca12f20a761a74afc19e06d1e2bdd0995ea2ecbbd001b3e127a011e5b7471e74cfff7b0b9233a5⟩, ⟨0x10fb978dca3574ac751ead447254418f4cc234fba54178f9136758898b091757d87d85c38ff28afa178f897cdd079f91, 0x2e1dfad0025ac9a6f3562bd3cc4845a5067c8147bc13f04958f7689f8c76dba856501c83d53b5523cc32d1b707af907⟩⟩
def oW2 : J2 := ⟨⟨0x5ad16fe322fce5f953b1f22afc95f3f7630035ba6acb7fb9305f27589c1dd4811c8ede08ff99ff2299d277cc4bed33e, 0x185877116c1004cc5bc3b6ce7ca8302a3380a343e8605bd3984836ed47b2963bc0076b82e7e7cc184d69a88bdeaada6a⟩, ⟨0x160348701cc7f4b1933b0e2f2d9685f3d949f31a5c4ccb31adf0c754ddd5073ced448a5ea820b3802f204083b5a848e5, 0x105e1983e73ff83d405b90acd8bad56723d7b52cb6dfa8819c5ab022c438632947c22db07e488ca242c33d5aead6f2f2⟩, ⟨0xe21c8c4f59359f0e15bd6ffcf18d57f1c719f07b98ffdd16b270da549bce3aba7748e12d21b5ec49d99bdf59abcf419, 0xddf2d54bdde5f022db40d4e54467ed97803185c890e62d0750c3c494025652d7f7ec2d529d40c2e2328aad033f8bdd3⟩⟩
def oW3 : J2 := ⟨⟨0x13b0375c03d465ecb8331990ab135bb59b6a71a91d272456ba0d6b4de34f7489c509221775a78452c78a24d844a1fa43, 0x1481bf821ede54b8d5fcddcefda4addac8d771b565788af57e423ccbdba4147dc3f5fe821d3ec4672e4ec3d993c74485⟩, ⟨0x17c0750718ebbb369053f7e940616369139008a0536d324a1970a64a12cad48a113b861911a261b7b2ad22ca9be886ae, 0x2283f04d00ee878f4c384d62f63f01279cb028626f5ce067015799039a81f3b5591fe85a68838f7fef32ab39ed39156⟩, ⟨0x1335ce472b353297d7e8b7f60a883e9d5dae34f18593d8dde5779d64b874b74014e7e7d02efc085fbc1de8059e91eb13, 0xf891c5160bf1507c503cbb85fe46f22d946f44e8e3142ec94b6ab292e4dab389b39b32aa057e4c1645bfabddfd062f1⟩⟩
def eW1 : J2 := ⟨⟨0x5aa90d2e6a28fe2ea59120e3434f964a153ec22fe92da4d47d470627bf2de146a0dd003bf8095fa81b13ba78c3fb078, 0x15a2c76c8e928baa66c197b73e8492e45d73871b5e7799eb4ee4bec30ee23fb6e06b883d058b8d02c346205fb810ddd2⟩, ⟨0x60545787e318042bf3e040f08a11b61add2367c61b3e988734d92911bf0d95275725dfc5eca030f868269dbb74cab1a, 0x564b64419c966a210c3f2769a80ef3bcbc10dc81a415da444abf0463cd521265eef2ef8e1f90ea69bf46add17fe2117⟩, ⟨0x1818beae5add2ff9b85a2d0a7acab5a6ea675bc3af76809fa127a4899ecfab57c030e99582c98e4a7169142b3c895843, 0xa257e8351cce259519e9be9777b034bc33243754f81ba291cf434e4416084cf0f9e4d8e62ddfce22671edda8ef06927⟩⟩
def eW2 : J2 := ⟨⟨0x1674620e93aed4d9a57ee02db774c11ff4789e862aaf87b1f832c3be5af509cecab93592567ada06568687fd1702f939, 0x11b08a46ca0291940f70fa7986f091de281b6d575a082a790299ef93a488f920f273855447c4b325e5aa33de54ace445⟩, ⟨0xacfcbd45bfc5ba2c439a649d0b6f77a47a1f1352e070521cf64895ccc167c9d4e814c9c9d33177760d19eadc2db7f49, 0x3e22104e4d15416646a93121b8b4d566c95adb18e9f981671246a3d16e9ba17004f58d0750658e5267ffd36a6cec005⟩, ⟨0xea106aff90fa6fa0d619ed4969ba2f342ff8cdfa8e2612e9c4dca2e34db1b5ec15fa7c56ac85d6fde26ab10ebffc0a9, 0x19c520df43de63331f9e5f0e9e0913c5f065d06947cdc8c0722e5847a4cd8ea80183d0684bd7f38779533eee144b1579⟩⟩
def eW3 : J2 := ⟨⟨0x1513c872e696094ff3fc210610c4379f21c55ba23cecaeebea5f22b75a4bf9a20802ab9cf69e4b2a5453806e622bf311, 0x3c513e5f5899c6b782ecd2286b1cd4c7166c37229b599b28c541e687eda59990bed66290f5b92294f31c741924fb6c1⟩, ⟨0xbdfa40d50fe91acd7387aefb8fd3046d7f1bda9b62e7f1b3229a02e782479bb9d67f6bc81cd22d9cc8a45933166c9ae, 0xe5485d1a3d2446fccc7d3636e2dcbb55feea861b47df2635ee9403f2705fca5a7539e92da2bfb3f14079e57163fbcd4⟩, ⟨0x10897b04020e90202f9433b1d496f99a909a2210c9cde8fee8f67bf91c5de6d52c2427fd49454f20ea0409c2bf7b2170, 0x15f2bf4144211efd55e99a77168d5b79f2247aaf02854f8fdf050713804611b885a34242471039da4793f058f3c0f0c7⟩⟩

/-- `u` times a point by the code's formulas. -/
def mulU2 (x y : N2) : J2 := J2.ladder J2.double (fun g => g.addAffine x y) uBits ⟨N2.zero, N2.one, N2.zero⟩

theorem mulU2_rep {a : G2Affine} {x y : N2} (h : a.RepN x y) :
    (a.mul (.new 0xd201000000010000)).RepN (mulU2 x y) := by
  obtain ⟨o, h1, h2⟩ := G2Projective.RepN.ladder (dbl := G2Projective.double) (d := J2.double)
    (plus := fun g => g.addAffine a) (p := fun g => g.addAffine x y) (fun _ _ h => h.double)
    (fun _ _ h' => h'.addAffine h) uBits 0 uBits_get _ _ G2Projective.RepN.zero
  rw [uBits_len] at h1
  rw [G2Affine.mul, G2Affine.mul?, h1]
  exact h2

/-- `u` times a projective point. -/
def mulUP (w : J2) : J2 := J2.ladder J2.double (fun g => g.add w) uBits ⟨N2.zero, N2.one, N2.zero⟩

theorem mulUP_rep {a : G2Projective} {w : J2} (h : a.RepN w) :
    (a.mul (.new 0xd201000000010000)).RepN (mulUP w) := by
  obtain ⟨o, h1, h2⟩ := G2Projective.RepN.ladder (dbl := G2Projective.double) (d := J2.double)
    (plus := fun g => g.add a) (p := fun g => g.add w) (fun _ _ h => h.double)
    (fun _ _ h' => h'.add h) uBits 0 uBits_get _ _ G2Projective.RepN.zero
  rw [uBits_len] at h1
  rw [G2Projective.mul, G2Projective.mul?, h1]
  exact h2

/-- The multipliers of `psi`. -/
def psiX (x : N2) : N2 := N2.mul (N2.mul (N2.mul ⟨1, 1⟩ ⟨kxLit, 0⟩) (N2.conj iwLit)) (N2.conj x)
def psiY (y : N2) : N2 := N2.mul (N2.mul (N2.mul ⟨1, 1⟩ (N2.mul ⟨kyLit, 0⟩ ⟨1, 1⟩)) (N2.conj iwLit)) (N2.conj y)

theorem psiAffine_rep {a : G2Affine} {x y : N2} (h : a.RepN x y) : (psiAffine a).RepN (psiX x) (psiY y) := by
  obtain ⟨r1, r2, r3⟩ := psiAffine_at (g := a) ⟨h.inf, h.x, h.y⟩
  have e1 : (⟨1, 1⟩ : N2).toF = xi := by ext <;> simp [N2.toF, xi]
  refine ⟨r1, r2.of_eq ?_, r3.of_eq ?_⟩
  · rw [psiX, N2.toF_mul, N2.toF_mul, N2.toF_mul, N2.toF_conj, N2.toF_conj, e1, ← psi_kx]
    have e3 : (⟨kxLit, 0⟩ : N2).toF = Fq2.of (kxLit : Fq) := by
      ext1 <;> simp only [N2.toF, Nat.cast_zero] <;> rfl
    rw [e3]
  · rw [psiY, N2.toF_mul, N2.toF_mul, N2.toF_mul, N2.toF_mul, N2.toF_conj, N2.toF_conj, e1, ← psi_ky]
    have e3 : (⟨kyLit, 0⟩ : N2).toF = Fq2.of (kyLit : Fq) := by
      ext1 <;> simp only [N2.toF, Nat.cast_zero] <;> rfl
    rw [e3]

theorem clearH2_rep {a : G2Affine} {x y X Y dX dY : N2} {w1 w2 w3 : J2} (h : a.RepN x y)
    (h1 : ((mulU2 x y).addAffine x y).addAffine (psiX x) (N2.neg (psiY y)) = w1)
    (h2 : mulUP w1 = w2)
    (d0 : (J2.double ⟨x, y, N2.one⟩).z.eqv N2.zero = false)
    (d1 : (N2.mul dX (N2.mul (J2.double ⟨x, y, N2.one⟩).z (J2.double ⟨x, y, N2.one⟩).z)).eqv
      (J2.double ⟨x, y, N2.one⟩).x = true)
    (d2 : (N2.mul dY (N2.mul (J2.double ⟨x, y, N2.one⟩).z (N2.mul (J2.double ⟨x, y, N2.one⟩).z
      (J2.double ⟨x, y, N2.one⟩).z))).eqv (J2.double ⟨x, y, N2.one⟩).y = true)
    (h3 : ((w2.addAffine (psiX x) (N2.neg (psiY y))).addAffine x (N2.neg y)).addAffine
      (psiX (psiX dX)) (psiY (psiY dY)) = w3)
    (hz : w3.z.eqv N2.zero = false) (hx : (N2.mul X (N2.mul w3.z w3.z)).eqv w3.x = true)
    (hy : (N2.mul Y (N2.mul w3.z (N2.mul w3.z w3.z))).eqv w3.y = true) : (clearH2 a).RepN X Y := by
  unfold clearH2
  have hψ := (psiAffine_rep h).neg
  have k1 := ((mulU2_rep h).addAffine h).addAffine hψ
  rw [h1] at k1
  have k2 := mulUP_rep k1
  rw [h2] at k2
  have kd := h.toProjective.double.toAffine d0 d1 d2
  have k3 := ((k2.addAffine hψ).addAffine h.neg).addAffine (psiAffine_rep (psiAffine_rep kd))
  rw [h3] at k3
  exact k3.toAffine hz hx hy

theorem iso3_raw {a : G2Affine} {x y : Fq2} (hx : a.x.Rep x) (hy : a.y.Rep y) :
    (iso3 a).At (polyAt iso3Map.xNum x / polyAt iso3Map.xDen x) (y * polyAt iso3Map.yNum x / polyAt iso3Map.yDen x) := by
  have a1 := horner2_rep (l := iso3XNum) (by rw [q_eq]; decide +kernel) (by decide) hx
  have a2 := horner2_rep (l := iso3XDen) (by rw [q_eq]; decide +kernel) (by decide) hx
  have a3 := horner2_rep (l := iso3YNum) (by rw [q_eq]; decide +kernel) (by decide) hx
  have a4 := horner2_rep (l := iso3YDen) (by rw [q_eq]; decide +kernel) (by decide) hx
  rw [show iso3XNum.map fqHex2 = xNum3 from by unfold xNum3 iso3XNum; rfl] at a1
  rw [show iso3XDen.map fqHex2 = xDen3 from by unfold xDen3 iso3XDen; rfl] at a2
  rw [show iso3YNum.map fqHex2 = yNum3 from by unfold yNum3 iso3YNum; rfl] at a3
  rw [show iso3YDen.map fqHex2 = yDen3 from by unfold yDen3 iso3YDen; rfl] at a4
  unfold iso3
  exact ⟨rfl, a1.div a2, (hy.mul a3).div a4⟩

theorem iso3_rep {a : G2Affine} {x y X Y : N2} (hx : a.x.RepN x) (hy : a.y.RepN y)
    (h1 : (evN2 iso3XDen x).eqv N2.zero = false) (h2 : (evN2 iso3YDen x).eqv N2.zero = false)
    (h3 : (N2.mul X (evN2 iso3XDen x)).eqv (evN2 iso3XNum x) = true)
    (h4 : (N2.mul Y (evN2 iso3YDen x)).eqv (N2.mul y (evN2 iso3YNum x)) = true) : (iso3 a).RepN X Y := by
  obtain ⟨r1, r2, r3⟩ := iso3_raw hx hy
  have ne : ∀ n : N2, n.eqv N2.zero = false → n.toF ≠ 0 := by
    intro n h e
    rw [← N2.toF_zero, ← N2.eqv_iff, h] at e
    exact absurd e (by decide)
  rw [N2.eqv_iff, N2.toF_mul] at h3
  rw [N2.eqv_iff, N2.toF_mul, N2.toF_mul] at h4
  refine ⟨r1, r2.of_eq ?_, r3.of_eq ?_⟩
  · change polyAt (iso3XNum.map mkFq2) x.toF / polyAt (iso3XDen.map mkFq2) x.toF = _
    rw [evN2_eq, evN2_eq, ← h3, mul_div_cancel_right₀ _ (ne _ h1)]
  · change y.toF * polyAt (iso3YNum.map mkFq2) x.toF / polyAt (iso3YDen.map mkFq2) x.toF = _
    rw [evN2_eq, evN2_eq, ← h4, mul_div_cancel_right₀ _ (ne _ h2)]

/-- Coordinates off the curve. -/
theorem off2 {a : G2Affine} {x y : N2} (h : a.RepN x y)
    (hn : (N2.mul y y).eqv (N2.add (N2.mul x (N2.mul x x)) ⟨4, 4⟩) = false) : a.isOnCurve = false := by
  rw [Bool.eq_false_iff] at hn ⊢
  rw [Ne, G2Affine.isOnCurve_iff h.x h.y h.inf]
  intro this
  apply hn
  rw [N2.eqv_iff, N2.toF_add, N2.toF_mul, N2.toF_mul, N2.toF_mul]
  have e4 : (⟨4, 4⟩ : N2).toF = b2 := by ext <;> simp [N2.toF, b2]
  rw [e4]
  linear_combination this

/-! Opposite points -/

theorem oI2_rep : (iso3 G2Affine.zero).RepN oI2X oI2Y :=
  iso3_rep (x := N2.zero) (y := N2.one)
    (by unfold FQ2.RepN G2Affine.zero; rw [N2.toF_zero]; exact FQ2.zero_rep)
    (by unfold G2Affine.zero; exact FQ2.RepN.one)
    (by decide +kernel) (by decide +kernel) (by decide +kernel) (by decide +kernel)

theorem oC2_rep : (clearH2 (iso3 G2Affine.zero)).RepN oC2X oC2Y :=
  clearH2_rep (dX := oD2X) (dY := oD2Y) (w1 := oW1) (w2 := oW2) (w3 := oW3) oI2_rep
    (by decide +kernel) (by decide +kernel) (by decide +kernel) (by decide +kernel) (by decide +kernel)
    (by decide +kernel) (by decide +kernel) (by decide +kernel) (by decide +kernel)

theorem oC2_off : (clearH2 (iso3 G2Affine.zero)).isOnCurve = false := off2 oC2_rep (by decide +kernel)

theorem double_z2 {g : G2Projective} {y : Fq2} (hz : g.z.Rep 1) (hy : g.y.Rep y) (y0 : y + y = 0) : g.double.z.Rep 0 := by
  have hz1 : g.z.isZero = false := by
    rw [Bool.eq_false_iff]; exact fun e => one_ne_zero (hz.isZero.mp e)
  have k := (hz.mul hy).double
  unfold G2Projective.double G2Projective.isZero
  rw [hz1, if_neg (by decide)]
  exact k.of_eq (by linear_combination y0)

theorem sum_z2 {g : G2Projective} {b : G2Affine} {x y : Fq2} (hz : g.z.Rep 1) (hx : g.x.Rep x) (hy : g.y.Rep y)
    (hb : b.At x (-y)) : (g.addAffine b).z.Rep 0 := by
  obtain ⟨bi, bx, byy⟩ := hb
  have hz1 : g.z.isZero = false := by
    rw [Bool.eq_false_iff]; exact fun e => one_ne_zero (hz.isZero.mp e)
  have z1 := hz.square
  have u2 := bx.mul z1
  have s2 := (byy.mul hz).mul z1
  have eq := hy.equals s2
  have hh := u2.sub hx
  have nz := (((hz.add hh).square.sub z1).sub hh.square).of_eq (y := 0) (by ring)
  have key : ∃ r, g.addAffine b = r ∧ (r = g.double ∧ (g.y.equals ((b.y.mul g.z).mul g.z.square)) = true ∨
      r.z = (((g.z.add ((b.x.mul g.z.square).sub g.x)).square.sub g.z.square).sub
        ((b.x.mul g.z.square).sub g.x).square)) := by
    unfold G2Projective.addAffine G2Projective.isZero G2Affine.isZero
    rw [hz1, if_neg (by decide), bi, if_neg (by decide)]
    refine ⟨_, rfl, ?_⟩
    dsimp only
    split
    · rename_i c
      rw [Bool.and_eq_true] at c
      exact .inl ⟨rfl, c.2⟩
    · exact .inr rfl
  obtain ⟨r, e, ⟨rfl, c⟩ | c⟩ := key
  · rw [e]
    have c := eq.mp c
    exact double_z2 hz hy (by linear_combination c)
  · rw [e, c]
    exact nz

theorem sum_opposite2 {a b : G2Affine} {x y : Fq2} (ha : a.At x y) (hb : b.At x (-y)) :
    (a.toProjective.addAffine b).toAffine = G2Affine.zero := by
  obtain ⟨ai, ax, ay⟩ := ha
  have ep : a.toProjective = ⟨a.x, a.y, FQ2.one⟩ := by
    unfold G2Affine.toProjective G2Affine.isZero; rw [if_neg (by rw [ai]; decide)]
  have key : (a.toProjective.addAffine b).z.Rep 0 := by
    rw [ep]; exact sum_z2 (g := ⟨a.x, a.y, FQ2.one⟩) FQ2.one_rep ax ay hb
  unfold G2Projective.toAffine
  rw [if_pos (by rw [G2Projective.isZero]; exact key.isZero.mpr rfl)]

theorem hashG2_opposite {sha : List UInt8 → List UInt8} {msg : List UInt8} {P Q : E2'.Point}
    (hP : Swu2 ⟨(hashToField sha (1 :: msg) 0 1 : Fq), (hashToField sha (1 :: msg) 0 2 : Fq)⟩ P)
    (hQ : Swu2 ⟨(hashToField sha (1 :: msg) 1 1 : Fq), (hashToField sha (1 :: msg) 1 2 : Fq)⟩ Q)
    (h : P = -Q) : hashG2 sha msg = some (clearH2 (iso3 G2Affine.zero)) := by
  obtain ⟨t, h1, h1'⟩ := hp2_spec sha (cipherSuite :: msg) 0
  obtain ⟨s, h2, h2'⟩ := hp2_spec sha (cipherSuite :: msg) 1
  rw [hashG2_eq h1 h2]
  rw [cipherSuite_eq] at h1' h2'
  obtain ⟨p, x₁, y₁, k1, k1a, hs1⟩ := optimizedSWU2MapHelper_spec h1'
  obtain ⟨p', x₂, y₂, k2, k2a, hs2⟩ := optimizedSWU2MapHelper_spec h2'
  obtain ⟨x₁', y₁', hP, hs1'⟩ := hP
  obtain ⟨x₂', y₂', hQ, hs2'⟩ := hQ
  obtain ⟨rfl, rfl⟩ := hs1.unique (fun y hy => Fq2.isNeg_neg hy) hs1'
  obtain ⟨rfl, rfl⟩ := hs2.unique (fun y hy => Fq2.isNeg_neg hy) hs2'
  rw [h] at hP
  obtain ⟨rfl, rfl⟩ := hP.coord hQ.neg
  rw [optimizedSWUMap2, k1, k2]
  change some (clearH2 (iso3 _)) = _
  rw [sum_opposite2 k1a (by rw [neg_neg]; exact k2a)]

/-! Equal points -/

theorem eT2_rep {a b : G2Affine} (h : a.RepN bX1 bY1) (h' : b.RepN bX1 bY1) :
    (a.toProjective.addAffine b).toAffine.RepN eT2X eT2Y :=
  (h.toProjective.addAffine h').toAffine (by decide +kernel) (by decide +kernel) (by decide +kernel)

theorem eI2_rep {a : G2Affine} (h : a.RepN eT2X eT2Y) : (iso3 a).RepN eI2X eI2Y :=
  iso3_rep h.x h.y (by decide +kernel) (by decide +kernel) (by decide +kernel) (by decide +kernel)

theorem eC2_rep {a : G2Affine} (h : a.RepN eI2X eI2Y) : (clearH2 a).RepN eC2X eC2Y :=
  clearH2_rep (dX := eD2X) (dY := eD2Y) (w1 := eW1) (w2 := eW2) (w3 := eW3) h
    (by decide +kernel) (by decide +kernel) (by decide +kernel) (by decide +kernel) (by decide +kernel)
    (by decide +kernel) (by decide +kernel) (by decide +kernel) (by decide +kernel)

/-- All four field elements are 0. -/
theorem hashG2_equal {sha : List UInt8 → List UInt8} {msg : List UInt8}
    (h1 : hashToField sha (1 :: msg) 0 1 = 0) (h2 : hashToField sha (1 :: msg) 1 1 = 0)
    (h3 : hashToField sha (1 :: msg) 0 2 = 0) (h4 : hashToField sha (1 :: msg) 1 2 = 0) :
    ∃ g, hashG2 sha msg = some g ∧ g.isOnCurve = false := by
  obtain ⟨t, k1, k1'⟩ := hp2_spec sha (cipherSuite :: msg) 0
  obtain ⟨s, k2, k2'⟩ := hp2_spec sha (cipherSuite :: msg) 1
  rw [hashG2_eq k1 k2]
  have e0 : (⟨((0 : ℕ) : Fq), ((0 : ℕ) : Fq)⟩ : Fq2) = 0 := by ext <;> simp
  rw [cipherSuite_eq, h1, h3, e0] at k1'
  rw [cipherSuite_eq, h2, h4, e0] at k2'
  obtain ⟨p, x₁, y₁, l1, l1a, hs1⟩ := optimizedSWU2MapHelper_spec k1'
  obtain ⟨p', x₂, y₂, l2, l2a, hs2⟩ := optimizedSWU2MapHelper_spec k2'
  obtain ⟨rfl, rfl⟩ := hs1.unique (fun y hy => Fq2.isNeg_neg hy) swu2_0
  obtain ⟨rfl, rfl⟩ := hs2.unique (fun y hy => Fq2.isNeg_neg hy) swu2_0
  have hc := eC2_rep (eI2_rep (eT2_rep (a := p) (b := p') ⟨l1a.1, l1a.2.1, l1a.2.2⟩ ⟨l2a.1, l2a.2.1, l2a.2.2⟩))
  rw [optimizedSWUMap2, l1, l2]
  exact ⟨_, rfl, off2 hc (by decide +kernel)⟩

end Bls.Collide
