import Verif.Proof.Strings
import Verif.Props.SigG1
import Verif.Props.SigG2
import Verif.Props.Curve
/-
C55: printed forms. `FqText n s`, `FrText n s` and `Fq2Text n m s` (Verif/Spec/Strings.lean): `s` is the text of the
element with these integers.
-/
namespace Bls.Props

/-- The strings of fixed-width integers are their base-16 digits, 96 and 64 of them. -/
theorem C55_repr (a : FQRepr) (b : FRRepr) :
    a.string.length = 96 ∧ IsHex a.string a.toNat ∧ b.string.length = 64 ∧ IsHex b.string b.toNat :=
  ⟨a.string_length, a.string_isHex, b.string_length, b.string_isHex⟩

/-- A text is the text of one number only. -/
theorem C55_text (s : List Char) (m n m' n' : ℕ) :
    (IsHex s m → IsHex s n → m = n) ∧ (FqText m s → FqText n s → m = n) ∧ (FrText m s → FrText n s → m = n) ∧
      (Fq2Text m m' s → Fq2Text n n' s → m = n ∧ m' = n') :=
  ⟨IsHex.fn, FqText.fn, FrText.fn, Fq2Text.fn⟩

/-- `FQ.String` shows the integer in [0, q), not the Montgomery form; equal strings mean equal elements. -/
theorem C55_fq (a b : FQ) (ha : a.isValid) (hb : b.isValid) :
    FqText a.int a.string ∧ (a.string = b.string ↔ a = b) :=
  ⟨a.string_text, FQ.string_inj ha hb, fun h => by rw [h]⟩

theorem C55_fr (a b : FR) (ha : a.isValid) (hb : b.isValid) :
    FrText a.int a.string ∧ (a.string = b.string ↔ a = b) :=
  ⟨a.string_text, FR.string_inj ha hb, fun h => by rw [h]⟩

theorem C55_fq2 (a b : FQ2) (ha : a.isValid) (hb : b.isValid) :
    Fq2Text a.c0.int a.c1.int a.string ∧ (a.string = b.string ↔ a = b) :=
  ⟨⟨_, _, a.c0.string_text, a.c1.string_text, rfl⟩, FQ2.string_inj ha hb, fun h => by rw [h]⟩

theorem C55_fq6 (a b : FQ6) (ha : a.isValid) (hb : b.isValid) : a.string = b.string ↔ a = b :=
  ⟨FQ6.string_inj ha hb, fun h => by rw [h]⟩

theorem C55_fq12 (a b : FQ12) (ha : a.isValid) (hb : b.isValid) : a.string = b.string ↔ a = b :=
  ⟨FQ12.string_inj ha hb, fun h => by rw [h]⟩

/-- The string of a G1 point depends on the point only, and shows its affine coordinates. -/
theorem C55_g1 (g : G1Projective) (P : E1) (h : g.Denotes P) :
    (P = 0 → g.string = "G1: Infinity".toList) ∧
    (∀ x y, IsAt P x y → ∃ sx sy, FqText x.val sx ∧ FqText y.val sy ∧
      g.string = "G1(x=".toList ++ sx ++ ", y=".toList ++ sy ++ ")".toList) ∧
    ∀ (k : G1Projective) (Q : E1), k.Denotes Q → (g.string = k.string ↔ P = Q) := by
  have h1 := G1Projective.denotes_iff.mp h
  exact ⟨fun e => (e ▸ h1).string_zero, fun x y hp => h1.string_at hp,
    fun k Q hk => h1.string_iff (G1Projective.denotes_iff.mp hk)⟩

/-- The string of a G2 point depends on the point only, and shows its affine coordinates. -/
theorem C55_g2 (g : G2Projective) (P : E2) (h : g.Denotes P) :
    (P = 0 → g.string = "G2: Infinity".toList) ∧
    (∀ x y, IsAt P x y → ∃ sx sy, Fq2Text x.c0.val x.c1.val sx ∧ Fq2Text y.c0.val y.c1.val sy ∧
      g.string = "G2(x=".toList ++ sx ++ ", y=".toList ++ sy ++ ")".toList) ∧
    ∀ (k : G2Projective) (Q : E2), k.Denotes Q → (g.string = k.string ↔ P = Q) := by
  have h1 := G2Projective.denotes_iff.mp h
  exact ⟨fun e => (e ▸ h1).string_zero, fun x y hp => h1.string_at hp,
    fun k Q hk => h1.string_iff (G2Projective.denotes_iff.mp hk)⟩

/-- Keys and signatures: public keys and signatures print as their point. A secret key prints as its scalar, so the
string gives the key away; printing a key without scalar panics. -/
theorem C55_g1pubs (p p' : G1Pubs.PublicKey) (P P' : E1) (hp : p.p.Denotes P) (hp' : p'.p.Denotes P')
    (s s' : G1Pubs.Signature) (S S' : E2) (hs : s.s.Denotes S) (hs' : s'.s.Denotes S') (sk : G1Pubs.SecretKey) :
    (p.string = p'.string ↔ P = P') ∧ (s.string = s'.string ↔ S = S') ∧
    (∀ k, sk.Holds k → ∃ t, sk.string = some t ∧ FrText k t) ∧ (sk.f = none → sk.string = none) := by
  refine ⟨(C55_g1 _ _ hp).2.2 _ _ hp', (C55_g2 _ _ hs).2.2 _ _ hs', ?_, fun h => by rw [G1Pubs.SecretKey.string, h]; rfl⟩
  rintro k ⟨f, e, _, rfl⟩
  exact ⟨f.string, by rw [G1Pubs.SecretKey.string, e]; rfl, f.string_text⟩

theorem C55_g2pubs (p p' : G2Pubs.PublicKey) (P P' : E2) (hp : p.p.Denotes P) (hp' : p'.p.Denotes P')
    (s s' : G2Pubs.Signature) (S S' : E1) (hs : s.s.Denotes S) (hs' : s'.s.Denotes S') (sk : G2Pubs.SecretKey) :
    (p.string = p'.string ↔ P = P') ∧ (s.string = s'.string ↔ S = S') ∧
    (∀ k, sk.Holds k → ∃ t, sk.string = some t ∧ FrText k t) ∧ (sk.f = none → sk.string = none) := by
  refine ⟨(C55_g2 _ _ hp).2.2 _ _ hp', (C55_g1 _ _ hs).2.2 _ _ hs', ?_, fun h => by rw [G2Pubs.SecretKey.string, h]; rfl⟩
  rintro k ⟨f, e, _, rfl⟩
  exact ⟨f.string, by rw [G2Pubs.SecretKey.string, e]; rfl, f.string_text⟩

/-- The hypotheses are met by the generators and a key; what the scalar 1 prints as. -/
example : (∃ P, G1Projective.one.Denotes P ∧ P ≠ 0) ∧ (∃ P, G2Projective.one.Denotes P ∧ P ≠ 0) ∧
    (⟨some FR.one⟩ : G1Pubs.SecretKey).Holds 1 :=
  ⟨⟨g1Gen, C20_toProjective _ _ (G1Affine.denotes_iff.mpr G1Affine.one_rep), g1Gen_ne_zero⟩,
    ⟨g2Gen, C21_toProjective _ _ (G2Affine.denotes_iff.mpr G2Affine.one_rep), g2Gen_ne_zero⟩,
    FR.one, rfl, by decide +kernel, by decide +kernel⟩

example : FR.one.string = "FR(0x0000000000000000000000000000000000000000000000000000000000000001)".toList ∧
    FR.one.isValid := by
  decide +kernel

end Bls.Props
