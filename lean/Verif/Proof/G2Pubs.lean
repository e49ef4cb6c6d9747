import Verif.Proof.G1Pubs
import Verif.Proof.MillerMul
import Verif.Proof.Nondegen
import Verif.Proof.Int
import Verif.Proof.Denote
import Verif.Proof.Sort
/-
The signature scheme of g2pubs.
-/
namespace Bls.G2Pubs
open G1Pubs (torsion_nsmul)

variable {sha : List UInt8 → List UInt8} {m : List UInt8} {H S : E1} {P : E2} {sk : SecretKey} {pub : PublicKey}
  {sig : Signature} {k : ℕ}

theorem SecretKey.Holds.lt (h : sk.Holds k) : k < r := by
  obtain ⟨f, _, hv, rfl⟩ := h
  exact (FR.rep_int hv).int_lt

theorem SecretKey.Holds.toPub (h : sk.Holds k) : ∃ pub, privToPub sk = some pub ∧ pub.p.Rep (k • g2Gen) := by
  obtain ⟨f, hf, hv, rfl⟩ := h
  exact ⟨_, by rw [privToPub, hf]; rfl, G2Affine.one_rep.mulFR f.toRepr⟩

theorem SecretKey.Holds.sign (h : sk.Holds k) (hm : HashesTo sha m H) :
    ∃ sig, sign sha m sk = some sig ∧ sig.s.Rep (k • H) := by
  obtain ⟨f, hf, hv, rfl⟩ := h
  obtain ⟨a, ha, hd, _⟩ := hm
  exact ⟨_, by rw [G2Pubs.sign, ha, hf]; rfl, (G1Affine.denotes_iff.mp hd).mulFR f.toRepr⟩

/-- Comparison of pairings for a key that is a multiple of the generator. -/
theorem compare_spec {g h : G1Projective} {p : G2Projective} (hg : g.Rep S) (hp : p.Rep (k • g2Gen)) (hh : h.Rep H)
    (hS : r • S = 0) (H0 : H ≠ 0) (hH : r • H = 0) (hk : k • g2Gen ≠ 0) :
    (compareTwoPairings g G2Projective.one h p = some true ↔ S = k • H) ∧
    (S ≠ 0 → compareTwoPairings g G2Projective.one h p ≠ none) := by
  have e0 : ee H (k • g2Gen) = ee (k • H) g2Gen := by
    rw [ee_nsmul_right _ r_smul_g2Gen, ee_nsmul_left _ r_smul_g2Gen]
  have hkH : k • H ≠ 0 := by
    intro e
    rw [e, ee_zero_left] at e0
    exact ee_ne_one hH (torsion_nsmul r_smul_g2Gen k) H0 hk e0
  by_cases hS0 : S = 0
  · rw [G2Projective.one, compareTwoPairings_none hg G2Affine.one_rep.toProjective hh hp (Or.inl hS0)]
    exact ⟨⟨fun e => (Option.some_ne_none _ e.symm).elim, fun e => absurd (e.symm.trans hS0) hkH⟩, fun n => absurd hS0 n⟩
  · obtain ⟨c, e, hc⟩ := compareTwoPairings_spec hg G2Affine.one_rep.toProjective hh hp hS0 H0
      ⟨g2Gen_ne_zero, r_smul_g2Gen⟩ ⟨hk, torsion_nsmul r_smul_g2Gen k⟩
    rw [G2Projective.one, e, Option.some_inj, hc, e0]
    exact ⟨⟨fun e => ee_left_inj hS (torsion_nsmul hH k) r_smul_g2Gen g2Gen_ne_zero e, fun e => by rw [e]⟩,
      fun _ => Option.some_ne_none _⟩

theorem verify_spec (hm : HashesTo sha m H) (hp : pub.p.Rep (k • g2Gen)) (hk : k • g2Gen ≠ 0) (hs : sig.s.Rep S)
    (hS : r • S = 0) :
    (verify sha m pub sig = some true ↔ S = k • H) ∧ (S ≠ 0 → verify sha m pub sig ≠ none) := by
  obtain ⟨a, ha, hd, H0, hH⟩ := hm
  rw [verify, ha, Option.bind_some]
  exact compare_spec hs hp (G1Affine.denotes_iff.mp hd).toProjective hS H0 hH hk

/-! ### Aggregation -/

theorem foldl_sig {l : List Signature} {Ss : List E1} (h : List.Forall₂ (fun g S => g.s.Rep S) l Ss) {s : Signature}
    (hs : s.s.Rep S) : (l.foldl Signature.aggregate s).s.Rep (S + Ss.sum) := by
  induction h generalizing s S with
  | nil => rw [List.sum_nil, add_zero]; exact hs
  | cons h _ ih =>
    rw [List.foldl_cons, List.sum_cons, ← add_assoc]
    exact ih (hs.add h)

theorem foldl_pub {l : List PublicKey} {Ps : List E2} (h : List.Forall₂ (fun g P => g.p.Rep P) l Ps) {p : PublicKey}
    (hp : p.p.Rep P) : (l.foldl PublicKey.aggregate p).p.Rep (P + Ps.sum) := by
  induction h generalizing p P with
  | nil => rw [List.sum_nil, add_zero]; exact hp
  | cons h _ ih =>
    rw [List.foldl_cons, List.sum_cons, ← add_assoc]
    exact ih (hp.add h)

theorem aggregateSignatures_spec {l : List Signature} {Ss : List E1} (h : List.Forall₂ (fun g S => g.s.Rep S) l Ss) :
    (aggregateSignatures l).s.Rep Ss.sum := by
  have := foldl_sig h (s := ⟨G1Projective.zero⟩) G1Projective.Rep.zero
  rwa [zero_add] at this

theorem aggregatePublicKeys_spec {l : List PublicKey} {Ps : List E2} (h : List.Forall₂ (fun g P => g.p.Rep P) l Ps) :
    (aggregatePublicKeys l).p.Rep Ps.sum := by
  have := foldl_pub h (p := ⟨G2Projective.zero⟩) G2Projective.Rep.zero
  rwa [zero_add] at this

/-! ### The product of pairings -/

/-- One entry of a batch: the key is `k·g2`, not infinity, and the message hashes to `H`. -/
structure Entry (Hash : List UInt8 → E1 → Prop) (pk : PublicKey) (m : List UInt8) (d : ℕ × E1) : Prop where
  pub : pk.p.Rep (d.1 • g2Gen)
  ne : d.1 • g2Gen ≠ 0
  hash : Hash m d.2

/-- The entries of a batch. -/
inductive Entries (Hash : List UInt8 → E1 → Prop) : List PublicKey → List (List UInt8) → List (ℕ × E1) → Prop
  | nil : Entries Hash [] [] []
  | cons {pk m d pks ms ds} : Entry Hash pk m d → Entries Hash pks ms ds → Entries Hash (pk :: pks) (m :: ms) (d :: ds)

/-- The point the aggregate signature of a batch must be. -/
noncomputable def total (ds : List (ℕ × E1)) : E1 := (ds.map fun d => d.1 • d.2).sum

theorem pairingProduct_spec {pks : List PublicKey} {ms : List (List UInt8)} {ds : List (ℕ × E1)}
    (h : Entries (HashesTo sha) pks ms ds) {e : FQ12} {a : GT} (he : e.Rep a.val) :
    ∃ e', pairingProduct sha pks ms e = some e' ∧ e'.Rep (a * ee (total ds) g2Gen).val ∧ r • total ds = 0 := by
  induction h generalizing e a with
  | nil =>
    have h0 : total [] = 0 := rfl
    refine ⟨e, rfl, ?_, by rw [h0, nsmul_zero]⟩
    rw [h0, ee_zero_left, mul_one]; exact he
  | @cons pk m d pks ms ds h _ ih =>
    obtain ⟨g, hg, hd, H0, hH⟩ := h.hash
    obtain ⟨x, h1, h2⟩ := pairing_spec (G1Affine.denotes_iff.mp hd).toProjective h.pub H0 ⟨h.ne, torsion_nsmul r_smul_g2Gen _⟩
    have he' := he.mul h2
    rw [← GT.val_mul] at he'
    obtain ⟨e', m1, m2, m3⟩ := ih he'
    have et : total (d :: ds) = d.1 • d.2 + total ds := by rw [total, total, List.map_cons, List.sum_cons]
    have hdr : r • (d.1 • d.2) = 0 := torsion_nsmul hH _
    refine ⟨e', ?_, ?_, by rw [et, nsmul_add, hdr, m3, add_zero]⟩
    · rw [pairingProduct, hg, Option.bind_some, h1]; exact m1
    · rw [et, ee_add_left _ _ (eig_of_torsion r_smul_g2Gen), ee_nsmul_left _ r_smul_g2Gen,
        ← ee_nsmul_right _ r_smul_g2Gen, ← mul_assoc]
      exact m2

theorem Entries.length {Hash : List UInt8 → E1 → Prop} {pks : List PublicKey} {ms : List (List UInt8)}
    {ds : List (ℕ × E1)} (h : Entries Hash pks ms ds) : pks.length = ms.length := by
  induction h with
  | nil => rfl
  | cons _ _ ih => rw [List.length_cons, List.length_cons, ih]

/-- The final comparison. -/
theorem final_spec {s : G1Projective} {T : E1} {e : FQ12} (hs : s.Rep S) (hS : r • S = 0) (hT : r • T = 0)
    (he : e.Rep (ee T g2Gen).val) (S0 : S ≠ 0) :
    ∃ c, ((pairing s G2Projective.one).bind fun lhs => (some e).bind fun rhs => lhs.map fun l => l.equals rhs) = some c ∧
      (c = true ↔ S = T) := by
  obtain ⟨x, h1, h2⟩ := pairing_spec hs G2Affine.one_rep.toProjective S0 ⟨g2Gen_ne_zero, r_smul_g2Gen⟩
  rw [G2Projective.one, h1]
  refine ⟨_, rfl, ?_⟩
  rw [h2.equals he]
  exact ⟨fun h => ee_left_inj hS hT r_smul_g2Gen g2Gen_ne_zero (GT.ext h), fun h => by rw [h]⟩

theorem final_none {s : G1Projective} {e : Option FQ12} (hs : s.Rep (0 : E1)) :
    ((pairing s G2Projective.one).bind fun lhs => e.bind fun rhs => lhs.map fun l => l.equals rhs) = none := by
  rw [G2Projective.one, pairing_none hs G2Affine.one_rep.toProjective (Or.inl rfl)]; rfl

theorem verifyAggregate_spec {pks : List PublicKey} {ms : List (List UInt8)} {ds : List (ℕ × E1)}
    (h : Entries (HashesTo sha) pks ms ds) (hs : sig.s.Rep S) (hS : r • S = 0) (S0 : S ≠ 0) (hn : ms.Nodup)
    (he : [] ∉ ms) : ∃ c, sig.verifyAggregate sha pks ms = some c ∧ (c = true ↔ S = total ds) := by
  obtain ⟨e, h1, h2, h3⟩ := pairingProduct_spec h (e := FQ12.one) (a := 1) (by rw [GT.val_one]; exact FQ12.one_rep)
  rw [one_mul] at h2
  rw [Signature.verifyAggregate, if_neg (by rw [bne_iff_ne, not_not]; exact h.length),
    if_neg (by rw [(noRepeat_sort ms).mpr ⟨hn, he⟩]; decide), h1]
  exact final_spec hs hS h3 h2 S0

end Bls.G2Pubs
