import Verif.Props.Panics
import Verif.Proof.HeapPoints
import Verif.Props.SigG1
import Verif.Props.SigG2
namespace Bls.Props

/-! ## C64: on the wire -/

theorem inf_bytes {b : List UInt8} {n : ℕ} (hl : b.length = n + 1) (h80 : ¬ (b.getD 0 0 &&& 0x80 == 0) = true)
    (h40 : (b.getD 0 0 &&& 0x40 != 0) = true) (h : ¬ ((b.set 0 (b.getD 0 0 &&& 0x3f)).any (· != 0)) = true) :
    b = 0xc0 :: List.replicate n 0 := by
  obtain ⟨c, t, rfl⟩ := List.exists_cons_of_length_eq_add_one hl
  rw [List.getD_cons_zero] at h80 h40 h
  rw [List.set_cons_zero, List.any_cons, Bool.or_eq_true, not_or] at h
  have hc : c = 0xc0 := by
    have key : ∀ n : Fin 256, ¬ (UInt8.ofFin n &&& 0x80 == 0) = true → (UInt8.ofFin n &&& 0x40 != 0) = true →
        ¬ (UInt8.ofFin n &&& 0x3f != 0) = true → UInt8.ofFin n = 0xc0 := by decide +kernel
    exact key c.toFin h80 h40 h.1
  rw [hc, List.eq_replicate_iff.mpr ⟨Nat.succ.inj hl, fun x hx => ?_⟩]
  by_contra hx'
  exact h.2 (List.any_eq_true.mpr ⟨x, hx, by simpa using hx'⟩)

/-- The one string that is read as infinity in G1. -/
theorem inf_g1 {b : List UInt8} (hl : b.length = 48) {a : G1Affine} (h : G1Affine.decompressUnchecked b = some a)
    {P : E1} (hd : a.Denotes P) : P = 0 ↔ b = 0xc0 :: List.replicate 47 0 := by
  constructor
  · rintro rfl
    rw [G1Affine.decompressUnchecked] at h
    dsimp only at h
    split at h
    · cases h
    · rename_i h80
      split at h
      · rename_i h40
        split at h
        · cases h
        · rename_i h0
          exact inf_bytes hl h80 h40 h0
      · have hi := HeapPoints.g1_fromX_inf h
        rcases hd with ⟨rfl, _⟩ | ⟨_, _, _, h4⟩
        · cases hi
        · exact h4.elim fun _ hn => nomatch hn
  · rintro rfl
    rw [show G1Affine.decompressUnchecked (0xc0 :: List.replicate 47 0) = some G1Affine.zero by decide +kernel] at h
    obtain rfl := Option.some.inj h
    rcases hd with ⟨_, h⟩ | ⟨h, _⟩
    · exact h
    · cases h

/-- The one string that is read as infinity in G2. -/
theorem inf_g2 {b : List UInt8} (hl : b.length = 96) {a : G2Affine} (h : G2Affine.decompressUnchecked b = some a)
    {P : E2} (hd : a.Denotes P) : P = 0 ↔ b = 0xc0 :: List.replicate 95 0 := by
  constructor
  · rintro rfl
    rw [G2Affine.decompressUnchecked] at h
    dsimp only at h
    split at h
    · cases h
    · rename_i h80
      split at h
      · rename_i h40
        split at h
        · cases h
        · rename_i h0
          exact inf_bytes hl h80 h40 h0
      · have hi := HeapPoints.g2_fromX_inf h
        rcases hd with ⟨rfl, _⟩ | ⟨_, _, _, h4⟩
        · cases hi
        · exact h4.elim fun _ hn => nomatch hn
  · rintro rfl
    rw [show G2Affine.decompressUnchecked (0xc0 :: List.replicate 95 0) = some G2Affine.zero by decide +kernel] at h
    obtain rfl := Option.some.inj h
    rcases hd with ⟨_, h⟩ | ⟨h, _⟩
    · exact h
    · cases h

/-- On accepted strings, and a message whose hash is a point of the subgroup other than infinity, `Verify` panics
exactly if the key or the signature is the encoding of infinity, `c0 00 … 00`. -/
theorem C64_bytes_g1pubs (sha : List UInt8 → List UInt8) (m : List UInt8) (H : E2) (hm : G1Pubs.HashesTo sha m H)
    (bp bs : List UInt8) (hlp : bp.length = 48) (hls : bs.length = 96) (pub : G1Pubs.PublicKey)
    (hp : G1Pubs.deserializePublicKey bp = some pub) (sig : G1Pubs.Signature)
    (hs : G1Pubs.deserializeSignature bs = some sig) :
    G1Pubs.verify sha m pub sig = none ↔ bp = 0xc0 :: List.replicate 47 0 ∨ bs = 0xc0 :: List.replicate 95 0 := by
  obtain ⟨h, hh, hd, hH, hr⟩ := hm
  obtain ⟨a, ha, rfl⟩ := Option.map_eq_some_iff.mp hp
  obtain ⟨b, hb, rfl⟩ := Option.map_eq_some_iff.mp hs
  obtain ⟨P, hP, _⟩ := (C26_g1 bp hlp a).2 ha
  obtain ⟨S, hS, hSr⟩ := (C26_g2 bs hls b).2 hb
  rw [C64_verify_g1pubs sha m h H hh hd hr ⟨a.toProjective⟩ P
    (G1Projective.denotes_iff.mpr (G1Affine.denotes_iff.mp hP).toProjective) ⟨b.toProjective⟩ S
    (G2Projective.denotes_iff.mpr (G2Affine.denotes_iff.mp hS).toProjective), thirteen_of_r hSr,
    inf_g1 hlp (G1Affine.decompress_iff.mp ha).1 hP, inf_g2 hls (G2Affine.decompress_iff.mp hb).1 hS,
    or_iff_left hH]

/-- The same for g2pubs. -/
theorem C64_bytes_g2pubs (sha : List UInt8 → List UInt8) (m : List UInt8) (H : E1) (hm : G2Pubs.HashesTo sha m H)
    (bp bs : List UInt8) (hlp : bp.length = 96) (hls : bs.length = 48) (pub : G2Pubs.PublicKey)
    (hp : G2Pubs.deserializePublicKey bp = some pub) (sig : G2Pubs.Signature)
    (hs : G2Pubs.deserializeSignature bs = some sig) :
    G2Pubs.verify sha m pub sig = none ↔ bp = 0xc0 :: List.replicate 95 0 ∨ bs = 0xc0 :: List.replicate 47 0 := by
  obtain ⟨h, hh, hd, hH, hr⟩ := hm
  obtain ⟨a, ha, rfl⟩ := Option.map_eq_some_iff.mp hp
  obtain ⟨b, hb, rfl⟩ := Option.map_eq_some_iff.mp hs
  obtain ⟨P, hP, hPr⟩ := (C26_g2 bp hlp a).2 ha
  obtain ⟨S, hS, _⟩ := (C26_g1 bs hls b).2 hb
  rw [C64_verify_g2pubs sha m h H hh hd ⟨a.toProjective⟩ P
    (G2Projective.denotes_iff.mpr (G2Affine.denotes_iff.mp hP).toProjective) ⟨b.toProjective⟩ S
    (G1Projective.denotes_iff.mpr (G1Affine.denotes_iff.mp hS).toProjective), thirteen_of_r hPr,
    inf_g2 hlp (G2Affine.decompress_iff.mp ha).1 hP, inf_g1 hls (G1Affine.decompress_iff.mp hb).1 hS,
    or_iff_right hH, or_comm]

/-- Both strings are accepted, so a received key or signature can make `Verify` panic. -/
example : (G1Pubs.deserializePublicKey (0xc0 :: List.replicate 47 0)).isSome ∧
    (G1Pubs.deserializeSignature (0xc0 :: List.replicate 95 0)).isSome ∧
    (G2Pubs.deserializePublicKey (0xc0 :: List.replicate 95 0)).isSome ∧
    (G2Pubs.deserializeSignature (0xc0 :: List.replicate 47 0)).isSome := by
  have h1 : G1Affine.decompress (0xc0 :: List.replicate 47 0) = some G1Affine.zero :=
    G1Affine.decompress_iff.mpr ⟨by decide +kernel, (G1Affine.Rep.isInCorrectSubgroup .zero).mpr (nsmul_zero _)⟩
  have h2 : G2Affine.decompress (0xc0 :: List.replicate 95 0) = some G2Affine.zero :=
    G2Affine.decompress_iff.mpr ⟨by decide +kernel, (G2Affine.Rep.isInCorrectSubgroup .zero).mpr (nsmul_zero _)⟩
  simp only [G1Pubs.deserializePublicKey, G1Pubs.deserializeSignature, G2Pubs.deserializePublicKey,
    G2Pubs.deserializeSignature, h1, h2, Option.map_some, Option.isSome_some, and_self]

/-- `Sign` and `PrivToPub` with a secret key read from 32 bytes panic exactly if the number is r or more: reading such a
key reports no error, and the first use of it panics. -/
theorem C64_signBytes_g1pubs (sha : List UInt8 → List UInt8) (m b : List UInt8) (hl : b.length = 32) :
    (G1Pubs.sign sha m (G1Pubs.deserializeSecretKey b) = none ↔ r ≤ beNat b) ∧
    (G1Pubs.privToPub (G1Pubs.deserializeSecretKey b) = none ↔ r ≤ beNat b) := by
  have key : (G1Pubs.deserializeSecretKey b).f = none ↔ r ≤ beNat b := by
    obtain ⟨_, h1, h2⟩ := C13_deserialize_g1pubs b hl
    refine ⟨fun h => ?_, h2⟩
    by_contra hlt
    obtain ⟨⟨f, hf, _⟩, _⟩ := h1 (not_le.mp hlt)
    rw [h] at hf
    cases hf
  obtain ⟨h1, h2⟩ := C64_sign_g1pubs sha m (G1Pubs.deserializeSecretKey b)
  exact ⟨h1.trans key, h2.trans key⟩

theorem C64_signBytes_g2pubs (sha : List UInt8 → List UInt8) (m b : List UInt8) (hl : b.length = 32) :
    (G2Pubs.sign sha m (G2Pubs.deserializeSecretKey b) = none ↔ r ≤ beNat b) ∧
    (G2Pubs.privToPub (G2Pubs.deserializeSecretKey b) = none ↔ r ≤ beNat b) := by
  have key : (G2Pubs.deserializeSecretKey b).f = none ↔ r ≤ beNat b := by
    obtain ⟨_, h1, h2⟩ := C13_deserialize_g2pubs b hl
    refine ⟨fun h => ?_, h2⟩
    by_contra hlt
    obtain ⟨⟨f, hf, _⟩, _⟩ := h1 (not_le.mp hlt)
    rw [h] at hf
    cases hf
  obtain ⟨h1, h2⟩ := C64_sign_g2pubs sha m (G2Pubs.deserializeSecretKey b)
  exact ⟨h1.trans key, h2.trans key⟩

/-- Both cases occur. -/
example : (∃ b : List UInt8, b.length = 32 ∧ r ≤ beNat b) ∧ ∃ b : List UInt8, b.length = 32 ∧ ¬ r ≤ beNat b :=
  ⟨⟨List.replicate 32 255, rfl, by decide +kernel⟩, List.replicate 32 1, rfl, by decide +kernel⟩

/-- There is a string of 96 bytes that `DecompressG2Unchecked` reads as a finite point of the curve and `DecompressG2`
refuses. A public key of g2pubs or a signature of g1pubs made from this point makes `Verify` panic, whatever the message
and the other argument (among those that are points of the curve). -/
theorem C64_unchecked : ∃ (b : List UInt8) (a : G2Affine), b.length = 96 ∧ G2Affine.decompressUnchecked b = some a ∧
    a.infinity = false ∧ a.isOnCurve = true ∧ G2Affine.decompress b = none ∧
    (∀ (sha : List UInt8 → List UInt8) (m : List UInt8) (h : G1Affine) (H : E1), hashG1 sha m = some h → h.Denotes H →
      ∀ (sig : G2Pubs.Signature) (S : E1), sig.s.Denotes S → G2Pubs.verify sha m (G2Pubs.newPublicKeyFromG2 a) sig = none) ∧
    ∀ (sha : List UInt8 → List UInt8) (m : List UInt8) (h : G2Affine) (H : E2), hashG2 sha m = some h → h.Denotes H →
      r • H = 0 → ∀ (pub : G1Pubs.PublicKey) (P : E1), pub.p.Denotes P →
        G1Pubs.verify sha m pub (G1Pubs.newSignatureFromG2 a) = none := by
  obtain ⟨Q, h0, h13⟩ := thirteen_exists
  obtain ⟨a, ha⟩ := G2Affine.exists_rep Q
  have hp : a.toProjective.Denotes Q := G2Projective.denotes_iff.mpr ha.toProjective
  refine ⟨a.compress, a, ha.compress_length, ha.decompressUnchecked_compress, (ha.resolve_left fun k => h0 k.2).1,
    ha.isOnCurve, ?_, ?_, ?_⟩
  · cases k : G2Affine.decompress a.compress with
    | none => rfl
    | some a' =>
      obtain ⟨k1, k2⟩ := G2Affine.decompress_iff.mp k
      rw [ha.decompressUnchecked_compress] at k1
      obtain rfl := Option.some.inj k1
      exact absurd ((thirteen_of_r ((G2Affine.Rep.isInCorrectSubgroup ha).mp k2)).mp h13) h0
  · intro sha m h H hh hd sig S hs
    exact (C64_verify_g2pubs sha m h H hh hd (G2Pubs.newPublicKeyFromG2 a) Q hp sig S hs).mpr (.inr (.inr h13))
  · intro sha m h H hh hd hr pub P hP
    exact (C64_verify_g1pubs sha m h H hh hd hr pub P hP (G1Pubs.newSignatureFromG2 a) Q hp).mpr (.inr (.inl h13))

end Bls.Props
