import Verif.Proof.Spread
import Verif.Proof.Threshold
import Verif.Props.Panics
import Verif.Spec.Batch
import Verif.Spec.Keys
/-
C76: what an accepted aggregate says about the single signatures. Without weights nothing; with random weights, that all
are valid but with probability 1/(r - 1).
-/
namespace Bls.Props

/-! ## Counting weights -/

private theorem cons_count {α : Type} {V : Set α} (hV : V.Finite) {S : α → Set (List α)} {k : ℕ}
    (h : ∀ a ∈ V, (S a).Finite ∧ (S a).ncard ≤ k) :
    {l | ∃ a ∈ V, ∃ t ∈ S a, l = a :: t}.Finite ∧ {l | ∃ a ∈ V, ∃ t ∈ S a, l = a :: t}.ncard ≤ k * V.ncard :=
  Spread.ncard_fib (R := fun l a => ∃ t ∈ S a, l = a :: t) hV fun a ha => by
    have e : {l | ∃ t ∈ S a, l = a :: t} = (fun t => a :: t) '' S a := by
      ext l
      constructor
      · rintro ⟨t, ht, rfl⟩
        exact ⟨t, ht, rfl⟩
      · rintro ⟨t, ht, rfl⟩
        exact ⟨t, ht, rfl⟩
    rw [e]
    exact ⟨(h a ha).1.image _, (Set.ncard_image_le (h a ha).1).trans (h a ha).2⟩

private def V : Set FR := {f | f.isValid ∧ f.int ≠ 0}

private theorem V_finite : V.Finite :=
  Set.Finite.of_injOn (t := Set.univ) (f := FR.val) (fun _ _ => trivial)
    (fun _ ha _ hb e => FR.Valid.ext (FR.isValid_iff.mp ha.1) (FR.isValid_iff.mp hb.1) e) Set.finite_univ

private theorem V_ncard : V.ncard = r - 1 := by
  have hb : Set.BijOn FR.val V {x : Fr | x ≠ 0} := by
    refine ⟨fun a ha e => ha.2 ?_, fun _ ha _ hb e => FR.Valid.ext (FR.isValid_iff.mp ha.1) (FR.isValid_iff.mp hb.1) e,
      fun x hx => ?_⟩
    · rw [(FR.rep_val ha.1).int, e, ZMod.val_zero]
    · obtain ⟨a, ha⟩ := FR.exists_rep x
      refine ⟨a, ⟨ha.isValid, fun e => hx ?_⟩, ha.eq⟩
      rw [ha.int] at e
      exact (ZMod.val_eq_zero x).mp e
  rw [← Set.InjOn.ncard_image hb.injOn, hb.image_eq]
  have h := Set.ncard_add_ncard_compl ({0} : Set Fr)
  rw [Set.ncard_singleton, Nat.card_eq_fintype_card, ZMod.card] at h
  exact Nat.eq_sub_of_add_eq' h

private theorem weights_zero : weights 0 = {[]} := by
  ext l
  constructor
  · rintro ⟨h, _⟩
    exact List.length_eq_zero_iff.mp h
  · rintro rfl
    exact ⟨rfl, nofun⟩

private theorem weights_succ (n : ℕ) : weights (n + 1) = {l | ∃ a ∈ V, ∃ t ∈ weights n, l = a :: t} := by
  ext l
  constructor
  · rintro ⟨h, hv⟩
    cases l with
    | nil => cases h
    | cons a t =>
      exact ⟨a, hv a List.mem_cons_self, t, ⟨Nat.succ.inj h, fun w m => hv w (List.mem_cons_of_mem _ m)⟩, rfl⟩
  · rintro ⟨a, ha, t, ht, rfl⟩
    refine ⟨congrArg Nat.succ ht.1, fun w m => ?_⟩
    rcases List.mem_cons.mp m with rfl | m
    · exact ha
    · exact ht.2 w m

private theorem weights_card (n : ℕ) : (weights n).Finite ∧ (weights n).ncard = (r - 1) ^ n := by
  induction n with
  | zero =>
    rw [weights_zero]
    exact ⟨Set.finite_singleton _, by rw [Set.ncard_singleton, pow_zero]⟩
  | succ n ih =>
    have e : weights (n + 1) = (fun p : FR × List FR => p.1 :: p.2) '' (V ×ˢ weights n) := by
      rw [weights_succ]
      ext l
      constructor
      · rintro ⟨a, ha, t, ht, rfl⟩
        exact ⟨(a, t), ⟨ha, ht⟩, rfl⟩
      · rintro ⟨⟨a, t⟩, ⟨ha, ht⟩, rfl⟩
        exact ⟨a, ha, t, ht, rfl⟩
    rw [e]
    refine ⟨(V_finite.prod ih.1).image _, ?_⟩
    rw [Set.ncard_image_of_injective _ (by rintro ⟨a, t⟩ ⟨b, u⟩ h; injection h with h1 h2; exact Prod.ext h1 h2),
      Set.ncard_prod, V_ncard, ih.2, pow_succ, mul_comm]

/-- The number of lists of weights. -/
theorem C76_weights (n : ℕ) : (weights n).ncard = (r - 1) ^ n := (weights_card n).2

private def comb (ws : List FR) (ds : List Fr) : Fr := (List.zipWith (fun (w : FR) d => w.val * d) ws ds).sum

private theorem comb_count {ds : List Fr} (h : ∃ d ∈ ds, d ≠ 0) (c : Fr) :
    {ws | ws ∈ weights ds.length ∧ comb ws ds = c}.Finite ∧
      {ws | ws ∈ weights ds.length ∧ comb ws ds = c}.ncard ≤ (r - 1) ^ (ds.length - 1) := by
  induction ds generalizing c with
  | nil => obtain ⟨d, m, _⟩ := h; cases m
  | cons d ds ih =>
    refine ⟨(weights_card _).1.subset fun ws h => h.1, ?_⟩
    rw [List.length_cons, Nat.add_sub_cancel]
    by_cases hd : d = 0
    · obtain ⟨d', m, hd'⟩ := h
      have h' : ∃ d ∈ ds, d ≠ 0 := by
        rcases List.mem_cons.mp m with rfl | m
        · exact absurd hd hd'
        · exact ⟨d', m, hd'⟩
      have hl : ds.length - 1 + 1 = ds.length := Nat.sub_add_cancel (List.length_pos_of_mem h'.choose_spec.1)
      obtain ⟨h1, h2⟩ := cons_count V_finite (S := fun _ => {ws | ws ∈ weights ds.length ∧ comb ws ds = c})
        fun _ _ => ih h' c
      rw [V_ncard, ← pow_succ, hl] at h2
      refine le_trans (Set.ncard_le_ncard ?_ h1) h2
      rintro ws ⟨hw, e⟩
      rw [weights_succ] at hw
      obtain ⟨a, ha, t, ht, rfl⟩ := hw
      refine ⟨a, ha, t, ⟨ht, ?_⟩, rfl⟩
      rw [comb, List.zipWith_cons_cons, List.sum_cons, hd, mul_zero, zero_add] at e
      exact e
    · obtain ⟨h1, h2⟩ := Spread.ncard_fib (R := fun (ws : List FR) t => ∃ a ∈ V, ws = a :: t ∧ comb ws (d :: ds) = c) (k := 1)
        (weights_card ds.length).1 fun t _ => by
          have hs : {ws | ∃ a ∈ V, ws = a :: t ∧ comb ws (d :: ds) = c}.Subsingleton := by
            rintro _ ⟨a, ha, rfl, e⟩ _ ⟨a', ha', rfl, e'⟩
            rw [comb, List.zipWith_cons_cons, List.sum_cons] at e e'
            have e := mul_right_cancel₀ hd (add_right_cancel (e.trans e'.symm))
            rw [FR.Valid.ext (FR.isValid_iff.mp ha.1) (FR.isValid_iff.mp ha'.1) e]
          have hf : {ws | ∃ a ∈ V, ws = a :: t ∧ comb ws (d :: ds) = c}.Finite := hs.finite
          exact ⟨hf, (Set.ncard_le_one hf).mpr fun a ha c hc => hs ha hc⟩
      refine le_trans (Set.ncard_le_ncard ?_ h1) (h2.trans (((one_mul _).trans (weights_card ds.length).2).le))
      rintro ws ⟨hw, e⟩
      rw [weights_succ] at hw
      obtain ⟨a, ha, t, ht, rfl⟩ := hw
      exact ⟨t, ht, a, ha, rfl, e⟩

private theorem comb_smul {A : Type} [AddCommGroup A] {B : A} (hB : r • B = 0) {ws : List FR} (hw : ∀ w ∈ ws, w.isValid)
    {Ds : List A} {ds : List Fr} (h : List.Forall₂ (fun D d => D = d.val • B) Ds ds) :
    (List.zipWith (fun (w : FR) D => w.toRepr.toNat • D) ws Ds).sum = (comb ws ds).val • B := by
  induction h generalizing ws with
  | nil => rw [comb, List.zipWith_nil_right, List.zipWith_nil_right, List.sum_nil, List.sum_nil, ZMod.val_zero, zero_nsmul]
  | @cons D d Ds ds e _ ih =>
    cases ws with
    | nil => rw [comb, List.zipWith_nil_left, List.zipWith_nil_left, List.sum_nil, List.sum_nil, ZMod.val_zero, zero_nsmul]
    | cons w ws =>
      rw [List.zipWith_cons_cons, List.sum_cons, ih fun w m => hw w (List.mem_cons_of_mem _ m), comb, comb,
        List.zipWith_cons_cons, List.sum_cons, (FR.rep_val (hw w List.mem_cons_self)).toRepr, e, ← mul_nsmul', ← add_nsmul]
      exact val_nsmul hB (by push_cast; rw [ZMod.natCast_zmod_val, ZMod.natCast_zmod_val, ZMod.natCast_zmod_val])

/-! ## g1pubs -/

private structure Ent1 (sha : List UInt8 → List UInt8) (b : G1Pubs.PublicKey × List UInt8 × G1Pubs.Signature)
    (e : ℕ × E2 × E2) : Prop where
  key : b.1.p.Rep (e.1 • g1Gen)
  ne : ¬ r ∣ e.1
  hash : G1Pubs.HashesTo sha b.2.1 e.2.1
  sig : b.2.2.s.Rep e.2.2
  tor : r • e.2.2 = 0

private theorem ents1 {sha : List UInt8 → List UInt8} {batch : List (G1Pubs.PublicKey × List UInt8 × G1Pubs.Signature)}
    (h : ∀ b ∈ batch, (∃ P, b.1.p.Denotes P ∧ P ≠ 0 ∧ r • P = 0) ∧ (∃ H, G1Pubs.HashesTo sha b.2.1 H) ∧
      ∃ S, b.2.2.s.Denotes S ∧ r • S = 0) : ∃ es, List.Forall₂ (Ent1 sha) batch es := by
  induction batch with
  | nil => exact ⟨[], .nil⟩
  | cons b l ih =>
    obtain ⟨es, hes⟩ := ih fun c m => h c (List.mem_cons_of_mem _ m)
    obtain ⟨⟨P, h1, h2, h3⟩, ⟨H, h4⟩, S, h5, h6⟩ := h b List.mem_cons_self
    obtain ⟨k, rfl⟩ := E1.torsion h3
    refine ⟨(k, H, S) :: es, .cons ⟨G1Projective.denotes_iff.mp h1, fun ⟨c, hc⟩ => h2 ?_, h4, G2Projective.denotes_iff.mp h5, h6⟩ hes⟩
    rw [show k = r * c from hc, mul_comm, mul_nsmul', r_smul_g1Gen, nsmul_zero]

private theorem ent1_valid {sha : List UInt8 → List UInt8} {b : G1Pubs.PublicKey × List UInt8 × G1Pubs.Signature}
    {e : ℕ × E2 × E2} (h : Ent1 sha b e) : G1Pubs.verify sha b.2.1 b.1 b.2.2 = some true ↔ e.2.2 = e.1 • e.2.1 :=
  (G1Pubs.verify_spec h.hash h.key (fun hc => h.ne (by
    have := addOrderOf_dvd_of_nsmul_eq_zero hc
    rwa [addOrderOf_g1Gen] at this)) h.sig h.tor).1

private theorem weighted_entries1 {sha : List UInt8 → List UInt8} {batch : List (G1Pubs.PublicKey × List UInt8 × G1Pubs.Signature)}
    {es : List (ℕ × E2 × E2)} (h : List.Forall₂ (Ent1 sha) batch es) {ws : List FR} (hw : ws ∈ weights batch.length) :
    G1Pubs.Entries (G1Pubs.HashesTo sha)
      ((ws.zip batch).map fun b => G1Pubs.newPublicKeyFromG1 (b.2.1.getPoint.mulFR b.1.toRepr).toAffine)
      ((ws.zip batch).map fun b => b.2.2.1) (List.zipWith (fun (w : FR) e => (w.toRepr.toNat * e.1, e.2.1)) ws es) ∧
    List.Forall₂ (fun (g : G1Pubs.Signature) S => g.s.Rep S)
      ((ws.zip batch).map fun b => G1Pubs.newSignatureFromG2 (b.2.2.2.getPoint.mulFR b.1.toRepr).toAffine)
      (List.zipWith (fun (w : FR) e => w.toRepr.toNat • e.2.2) ws es) ∧
    ((ws.zip batch).map fun b => b.2.2.1) = batch.map fun b => b.2.1 := by
  induction h generalizing ws with
  | nil =>
    rw [List.length_nil, weights_zero] at hw
    cases hw
    exact ⟨.nil, .nil, rfl⟩
  | @cons b e bs es he _ ih =>
    rw [List.length_cons, weights_succ] at hw
    obtain ⟨w, hv, ws, hws, rfl⟩ := hw
    obtain ⟨h1, h2, h3⟩ := ih hws
    refine ⟨.cons ⟨?_, ?_, he.hash⟩ h1, .cons ?_ h2, congrArg _ h3⟩
    · have := G1Affine.Rep.toProjective (G1Projective.Rep.toAffine (G1Projective.Rep.mulFR he.key w.toRepr))
      rw [← mul_nsmul'] at this
      exact this
    · intro hc
      have := addOrderOf_dvd_of_nsmul_eq_zero hc
      rw [addOrderOf_g1Gen] at this
      rcases (Nat.Prime.dvd_mul r_prime).mp this with hd | hd
      · have e1 := (FR.rep_val hv.1).toRepr
        have e2 := (FR.rep_val hv.1).int
        rw [e1] at hd
        exact hv.2 (e2.trans (Nat.eq_zero_of_dvd_of_lt hd (ZMod.val_lt _)))
      · exact he.ne hd
    · exact G2Affine.Rep.toProjective (G2Projective.Rep.toAffine (G2Projective.Rep.mulFR he.sig w.toRepr))

private theorem total_sub1 (ws : List FR) (es : List (ℕ × E2 × E2)) :
    (List.zipWith (fun (w : FR) e => w.toRepr.toNat • e.2.2) ws es).sum =
      G1Pubs.total (List.zipWith (fun (w : FR) e => (w.toRepr.toNat * e.1, e.2.1)) ws es) ↔
    (List.zipWith (fun (w : FR) D => w.toRepr.toNat • D) ws (es.map fun e => e.2.2 - e.1 • e.2.1)).sum = 0 := by
  have : (List.zipWith (fun (w : FR) e => w.toRepr.toNat • e.2.2) ws es).sum -
      G1Pubs.total (List.zipWith (fun (w : FR) e => (w.toRepr.toNat * e.1, e.2.1)) ws es) =
    (List.zipWith (fun (w : FR) D => w.toRepr.toNat • D) ws (es.map fun e => e.2.2 - e.1 • e.2.1)).sum := by
    induction ws generalizing es with
    | nil => simp [G1Pubs.total]
    | cons w ws ih =>
      cases es with
      | nil => simp [G1Pubs.total]
      | cons e es =>
        have := ih es
        rw [G1Pubs.total] at this ⊢
        rw [List.map_cons, List.zipWith_cons_cons, List.zipWith_cons_cons, List.zipWith_cons_cons, List.map_cons,
          List.sum_cons, List.sum_cons, List.sum_cons, ← this, mul_nsmul', nsmul_sub]
        abel
  rw [← this, sub_eq_zero]

private theorem sum_tor1 {sha : List UInt8 → List UInt8} {batch : List (G1Pubs.PublicKey × List UInt8 × G1Pubs.Signature)}
    {es : List (ℕ × E2 × E2)} (h : List.Forall₂ (Ent1 sha) batch es) (ws : List FR) :
    r • (List.zipWith (fun (w : FR) (e : ℕ × E2 × E2) => w.toRepr.toNat • e.2.2) ws es).sum = 0 := by
  induction h generalizing ws with
  | nil => rw [List.zipWith_nil_right, List.sum_nil, nsmul_zero]
  | @cons b e bs es he _ ih =>
    cases ws with
    | nil => rw [List.zipWith_nil_left, List.sum_nil, nsmul_zero]
    | cons w ws => rw [List.zipWith_cons_cons, List.sum_cons, nsmul_add, ih, smul_comm, he.tor, nsmul_zero, add_zero]

/-- What the weighted check computes. -/
private theorem weighted1 {sha : List UInt8 → List UInt8} {batch : List (G1Pubs.PublicKey × List UInt8 × G1Pubs.Signature)}
    {es : List (ℕ × E2 × E2)} (h : List.Forall₂ (Ent1 sha) batch es) (hn : (batch.map fun b => b.2.1).Nodup)
    (he : [] ∉ batch.map fun b => b.2.1) {ws : List FR} (hw : ws ∈ weights batch.length) :
    ((List.zipWith (fun (w : FR) e => w.toRepr.toNat • e.2.2) ws es).sum = 0 → G1Pubs.verifyWeighted sha (ws.zip batch) = none) ∧
    ((List.zipWith (fun (w : FR) e => w.toRepr.toNat • e.2.2) ws es).sum ≠ 0 →
      ∃ c, G1Pubs.verifyWeighted sha (ws.zip batch) = some c ∧ (c = true ↔
        (List.zipWith (fun (w : FR) D => w.toRepr.toNat • D) ws (es.map fun e => e.2.2 - e.1 • e.2.1)).sum = 0)) := by
  obtain ⟨h1, h2, h3⟩ := weighted_entries1 h hw
  have h4 := G1Pubs.aggregateSignatures_spec h2
  constructor
  · intro h0
    rw [h0] at h4
    rw [G1Pubs.verifyWeighted]
    rw [G1Pubs.Signature.verifyAggregate, if_neg (by rw [bne_iff_ne, not_not]; exact h1.length),
      if_neg (by rw [(noRepeat_sort _).mpr ⟨h3 ▸ hn, h3 ▸ he⟩]; decide)]
    exact G1Pubs.final_none h4
  · intro h0
    obtain ⟨c, hc, hc'⟩ := G1Pubs.verifyAggregate_spec h1 h4 (sum_tor1 h ws) h0 (h3 ▸ hn) (h3 ▸ he)
    exact ⟨c, hc, hc'.trans (total_sub1 ws es)⟩

/-- If some signature of the batch is not valid, at most one in r - 1 lists of weights makes the check accept. -/
theorem C76_sound_g1pubs (sha : List UInt8 → List UInt8) (batch : List (G1Pubs.PublicKey × List UInt8 × G1Pubs.Signature))
    (h : ∀ b ∈ batch, (∃ P, b.1.p.Denotes P ∧ P ≠ 0 ∧ r • P = 0) ∧ (∃ H, G1Pubs.HashesTo sha b.2.1 H) ∧
      ∃ S, b.2.2.s.Denotes S ∧ r • S = 0)
    (hn : (batch.map fun b => b.2.1).Nodup) (he : [] ∉ batch.map fun b => b.2.1)
    (hb : ∃ b ∈ batch, G1Pubs.verify sha b.2.1 b.1 b.2.2 ≠ some true) :
    {ws ∈ weights batch.length | G1Pubs.verifyWeighted sha (ws.zip batch) = some true}.ncard * (r - 1) ≤
      (weights batch.length).ncard := by
  obtain ⟨es, hes⟩ := ents1 h
  have hds : ∃ ds : List Fr, List.Forall₂ (fun D d => D = d.val • g2Gen) (es.map fun e => e.2.2 - e.1 • e.2.1) ds ∧
      ∃ d ∈ ds, d ≠ 0 := by
    clear h hn he
    induction hes with
    | nil => obtain ⟨b, m, _⟩ := hb; cases m
    | @cons b e bs es h1 h2 ih =>
      obtain ⟨k, hk⟩ := E2.torsion (P := e.2.2 - e.1 • e.2.1) (by
        obtain ⟨_, _, _, _, hr⟩ := h1.hash
        rw [nsmul_sub, h1.tor, smul_comm, hr, nsmul_zero, sub_zero])
      have hk' := hk.trans (val_nsmul r_smul_g2Gen (k := k) rfl)
      by_cases hv : e.2.2 = e.1 • e.2.1
      · obtain ⟨c, m, hc⟩ := hb
        rcases List.mem_cons.mp m with rfl | m
        · exact absurd ((ent1_valid h1).mpr hv) hc
        · obtain ⟨ds, g1, d, m', hd⟩ := ih ⟨c, m, hc⟩
          exact ⟨_ :: ds, .cons hk' g1, d, List.mem_cons_of_mem _ m', hd⟩
      · have : ∃ ds : List Fr, List.Forall₂ (fun D d => D = d.val • g2Gen) (es.map fun e => e.2.2 - e.1 • e.2.1) ds := by
          clear ih hb
          induction h2 with
          | nil => exact ⟨[], .nil⟩
          | @cons b e bs es h1 h2 ih =>
            obtain ⟨ds, hds⟩ := ih
            obtain ⟨k, hk⟩ := E2.torsion (P := e.2.2 - e.1 • e.2.1) (by
              obtain ⟨_, _, _, _, hr⟩ := h1.hash
              rw [nsmul_sub, h1.tor, smul_comm, hr, nsmul_zero, sub_zero])
            exact ⟨_ :: ds, .cons (hk.trans (val_nsmul r_smul_g2Gen (k := k) rfl)) hds⟩
        obtain ⟨ds, hds⟩ := this
        refine ⟨_ :: ds, .cons hk' hds, _, List.mem_cons_self, fun h0 => hv ?_⟩
        rw [h0, ZMod.val_zero, zero_nsmul] at hk'
        exact sub_eq_zero.mp hk'
  obtain ⟨ds, h1, h2⟩ := hds
  have hl : ds.length = batch.length := by rw [← h1.length_eq, List.length_map, hes.length_eq]
  obtain ⟨c1, c2⟩ := comb_count h2 0
  rw [hl] at c1 c2
  rw [C76_weights]
  have hp : 0 < batch.length := List.length_pos_of_mem hb.choose_spec.1
  calc _ ≤ (r - 1) ^ (batch.length - 1) * (r - 1) := Nat.mul_le_mul_right _ (le_trans (Set.ncard_le_ncard ?_ c1) c2)
    _ = (r - 1) ^ batch.length := by rw [← pow_succ, Nat.sub_add_cancel hp]
  rintro ws ⟨hw, hv⟩
  refine ⟨hw, ?_⟩
  obtain ⟨k1, k2⟩ := weighted1 hes hn he hw
  by_cases h0 : (List.zipWith (fun (w : FR) (e : ℕ × E2 × E2) => w.toRepr.toNat • e.2.2) ws es).sum = 0
  · rw [k1 h0] at hv; cases hv
  · obtain ⟨c, hc, hc'⟩ := k2 h0
    rw [hv] at hc
    cases hc
    have := hc'.mp rfl
    rw [comb_smul r_smul_g2Gen (fun w m => (hw.2 w m).1) h1] at this
    have := addOrderOf_dvd_of_nsmul_eq_zero this
    rw [addOrderOf_g2Gen] at this
    exact (ZMod.val_eq_zero _).mp (Nat.eq_zero_of_dvd_of_lt this (ZMod.val_lt _))

/-- If all signatures are valid, the check accepts with all weights, but panics if the weighted sum is infinity. -/
theorem C76_complete_g1pubs (sha : List UInt8 → List UInt8) (batch : List (G1Pubs.PublicKey × List UInt8 × G1Pubs.Signature))
    (h : ∀ b ∈ batch, (∃ P, b.1.p.Denotes P ∧ P ≠ 0 ∧ r • P = 0) ∧ (∃ H, G1Pubs.HashesTo sha b.2.1 H) ∧
      ∃ S, b.2.2.s.Denotes S ∧ r • S = 0)
    (hn : (batch.map fun b => b.2.1).Nodup) (he : [] ∉ batch.map fun b => b.2.1)
    (hb : ∀ b ∈ batch, G1Pubs.verify sha b.2.1 b.1 b.2.2 = some true) (ws : List FR) (hw : ws ∈ weights batch.length) :
    G1Pubs.verifyWeighted sha (ws.zip batch) = (if (G1Pubs.aggregateSignatures ((ws.zip batch).map fun b =>
      G1Pubs.newSignatureFromG2 (b.2.2.2.getPoint.mulFR b.1.toRepr).toAffine)).s.isZero then none else some true) := by
  obtain ⟨es, hes⟩ := ents1 h
  obtain ⟨k1, k2⟩ := weighted1 hes hn he hw
  have h4 := G1Pubs.aggregateSignatures_spec (weighted_entries1 hes hw).2.1
  by_cases h0 : (List.zipWith (fun (w : FR) (e : ℕ × E2 × E2) => w.toRepr.toNat • e.2.2) ws es).sum = 0
  · rw [if_pos (h4.isZero.mpr h0)]
    exact k1 h0
  · rw [if_neg fun hz => h0 (h4.isZero.mp hz)]
    obtain ⟨c, hc, hc'⟩ := k2 h0
    rw [hc]
    refine congrArg some (hc'.mpr ?_)
    clear h hn he hw k1 k2 h4 h0 hc hc'
    induction hes generalizing ws with
    | nil => rw [List.map_nil, List.zipWith_nil_right, List.sum_nil]
    | @cons b e bs es h1 h2 ih =>
      cases ws with
      | nil => rw [List.zipWith_nil_left, List.sum_nil]
      | cons w ws =>
        rw [List.map_cons, List.zipWith_cons_cons, List.sum_cons, ih (fun b m => hb b (List.mem_cons_of_mem _ m)),
          (ent1_valid h1).mp (hb b List.mem_cons_self), sub_self, nsmul_zero, add_zero]

/-- Without weights an accepted aggregate says nothing about the single signatures: for any two keys and messages there are
two signatures that `Verify` rejects and whose aggregate `VerifyAggregate` accepts. They come from two valid ones `t₁`, `t₂`
(which do not add up to infinity) by adding a point to one and subtracting it from the other. -/
theorem C76_unweighted_g1pubs (sha : List UInt8 → List UInt8) (m₁ m₂ : List UInt8) (hm : m₁ ≠ m₂) (n₁ : m₁ ≠ []) (n₂ : m₂ ≠ [])
    (H₁ H₂ T₁ T₂ : E2) (h₁ : G1Pubs.HashesTo sha m₁ H₁) (h₂ : G1Pubs.HashesTo sha m₂ H₂) (p₁ p₂ : G1Pubs.PublicKey)
    (P₁ P₂ : E1) (k₁ : p₁.p.Denotes P₁) (k₂ : p₂.p.Denotes P₂) (o₁ : P₁ ≠ 0 ∧ r • P₁ = 0) (o₂ : P₂ ≠ 0 ∧ r • P₂ = 0)
    (t₁ t₂ : G1Pubs.Signature) (d₁ : t₁.s.Denotes T₁) (d₂ : t₂.s.Denotes T₂) (u₁ : r • T₁ = 0) (u₂ : r • T₂ = 0)
    (v₁ : G1Pubs.verify sha m₁ p₁ t₁ = some true) (v₂ : G1Pubs.verify sha m₂ p₂ t₂ = some true) (h0 : T₁ + T₂ ≠ 0) :
    ∃ s₁ s₂, G1Pubs.verify sha m₁ p₁ s₁ = some false ∧ G1Pubs.verify sha m₂ p₂ s₂ = some false ∧
      (G1Pubs.aggregateSignatures [s₁, s₂]).verifyAggregate sha [p₁, p₂] [m₁, m₂] = some true := by
  obtain ⟨a, rfl⟩ := E1.torsion o₁.2
  obtain ⟨b, rfl⟩ := E1.torsion o₂.2
  have k₁ := G1Projective.denotes_iff.mp k₁
  have k₂ := G1Projective.denotes_iff.mp k₂
  have e₁ := (G1Pubs.verify_spec h₁ k₁ o₁.1 (G2Projective.denotes_iff.mp d₁) u₁).1.mp v₁
  have e₂ := (G1Pubs.verify_spec h₂ k₂ o₂.1 (G2Projective.denotes_iff.mp d₂) u₂).1.mp v₂
  have hD : ∃ D : E2, r • D = 0 ∧ D ≠ 0 ∧ T₁ + D ≠ 0 ∧ T₂ - D ≠ 0 := by
    have ho : ∀ n : ℕ, 0 < n → n < 4 → n • g2Gen ≠ 0 := fun n h1 h2 h => by
      have := addOrderOf_dvd_of_nsmul_eq_zero h
      rw [addOrderOf_g2Gen] at this
      exact absurd (Nat.le_of_dvd h1 this) (Nat.not_le_of_lt (h2.trans (by rw [r_eq]; decide +kernel)))
    by_contra hc
    have key : ∀ n : ℕ, 0 < n → n < 4 → n • g2Gen = -T₁ ∨ n • g2Gen = T₂ := fun n h1 h2 => by
      by_contra hd
      push Not at hd
      exact hc ⟨n • g2Gen, by rw [smul_comm, r_smul_g2Gen, nsmul_zero], ho n h1 h2,
        fun e => hd.1 (eq_neg_of_add_eq_zero_right e), fun e => hd.2 (sub_eq_zero.mp e).symm⟩
    have g1 : g2Gen ≠ 0 := g2Gen_ne_zero
    have hd : ∀ n m : ℕ, n < m → m < 4 → n • g2Gen ≠ m • g2Gen := fun n m h1 h2 e => by
      refine ho (m - n) (Nat.sub_pos_of_lt h1) (lt_of_le_of_lt (Nat.sub_le _ _) h2) ?_
      obtain ⟨c, rfl⟩ := Nat.exists_eq_add_of_lt h1
      rw [show n + c + 1 - n = c + 1 by omega]
      rw [add_assoc, add_nsmul] at e
      exact (left_eq_add.mp e)
    rcases key 1 (by decide) (by decide) with a1 | a1 <;> rcases key 2 (by decide) (by decide) with a2 | a2 <;>
      rcases key 3 (by decide) (by decide) with a3 | a3
    · exact hd 1 2 (by decide) (by decide) (a1.trans a2.symm)
    · exact hd 1 2 (by decide) (by decide) (a1.trans a2.symm)
    · exact hd 1 3 (by decide) (by decide) (a1.trans a3.symm)
    · exact hd 2 3 (by decide) (by decide) (a2.trans a3.symm)
    · exact hd 2 3 (by decide) (by decide) (a2.trans a3.symm)
    · exact hd 1 3 (by decide) (by decide) (a1.trans a3.symm)
    · exact hd 1 2 (by decide) (by decide) (a1.trans a2.symm)
    · exact hd 1 2 (by decide) (by decide) (a1.trans a2.symm)
  obtain ⟨D, w1, w2, w3, w4⟩ := hD
  obtain ⟨x₁, x1⟩ := G2Affine.exists_rep (T₁ + D)
  obtain ⟨x₂, x2⟩ := G2Affine.exists_rep (T₂ - D)
  have reject : ∀ {m : List UInt8} {H S : E2} {p : G1Pubs.PublicKey} {s : G1Pubs.Signature} {k : ℕ},
      G1Pubs.HashesTo sha m H → p.p.Rep (k • g1Gen) → k • g1Gen ≠ 0 → s.s.Rep S → r • S = 0 → S ≠ 0 → S ≠ k • H →
      G1Pubs.verify sha m p s = some false := fun {m H S p s k} c1 c2 c3 c4 c5 c6 c7 => by
    obtain ⟨q1, q2⟩ := G1Pubs.verify_spec c1 c2 c3 c4 c5
    rcases hv : G1Pubs.verify sha m p s with _ | _ | _
    · exact absurd hv (q2 c6)
    · rfl
    · exact absurd (q1.mp hv) c7
  refine ⟨⟨x₁.toProjective⟩, ⟨x₂.toProjective⟩, reject h₁ k₁ o₁.1 x1.toProjective (by rw [nsmul_add, u₁, w1, add_zero]) w3 ?_,
    reject h₂ k₂ o₂.1 x2.toProjective (by rw [nsmul_sub, u₂, w1, sub_zero]) w4 ?_, ?_⟩
  · rw [← e₁]
    exact fun e => w2 (add_eq_left.mp e)
  · rw [← e₂]
    exact fun e => w2 (sub_eq_self.mp e)
  · have hs := G1Pubs.aggregateSignatures_spec (l := [⟨x₁.toProjective⟩, ⟨x₂.toProjective⟩])
      (.cons x1.toProjective (.cons x2.toProjective .nil))
    have es : [T₁ + D, T₂ - D].sum = T₁ + T₂ := by
      rw [List.sum_cons, List.sum_cons, List.sum_nil]
      abel
    rw [es] at hs
    obtain ⟨c, hc, hc'⟩ := G1Pubs.verifyAggregate_spec (sha := sha) (ms := [m₁, m₂]) (ds := [(a, H₁), (b, H₂)])
      (.cons ⟨k₁, o₁.1, h₁⟩ (.cons ⟨k₂, o₂.1, h₂⟩ .nil)) hs (by rw [nsmul_add, u₁, u₂, add_zero]) h0
      (by simpa using hm) (by simpa using ⟨n₁, n₂⟩)
    rw [hc, hc'.mpr (by rw [e₁, e₂, G1Pubs.total]; simp)]

/-! ## g1pubs with domains -/

private structure Ent1d (sha : List UInt8 → List UInt8) (dom : List UInt8) (b : G1Pubs.PublicKey × List UInt8 × G1Pubs.Signature)
    (e : ℕ × E2 × E2) : Prop where
  key : b.1.p.Rep (e.1 • g1Gen)
  ne : ¬ r ∣ e.1
  hash : G1Pubs.HashesToIn sha dom b.2.1 e.2.1
  sig : b.2.2.s.Rep e.2.2
  tor : r • e.2.2 = 0

private theorem ents1d {sha : List UInt8 → List UInt8} {dom : List UInt8} {batch : List (G1Pubs.PublicKey × List UInt8 × G1Pubs.Signature)}
    (h : ∀ b ∈ batch, (∃ P, b.1.p.Denotes P ∧ P ≠ 0 ∧ r • P = 0) ∧ (∃ H, G1Pubs.HashesToIn sha dom b.2.1 H) ∧
      ∃ S, b.2.2.s.Denotes S ∧ r • S = 0) : ∃ es, List.Forall₂ (Ent1d sha dom) batch es := by
  induction batch with
  | nil => exact ⟨[], .nil⟩
  | cons b l ih =>
    obtain ⟨es, hes⟩ := ih fun c m => h c (List.mem_cons_of_mem _ m)
    obtain ⟨⟨P, h1, h2, h3⟩, ⟨H, h4⟩, S, h5, h6⟩ := h b List.mem_cons_self
    obtain ⟨k, rfl⟩ := E1.torsion h3
    refine ⟨(k, H, S) :: es, .cons ⟨G1Projective.denotes_iff.mp h1, fun ⟨c, hc⟩ => h2 ?_, h4, G2Projective.denotes_iff.mp h5, h6⟩ hes⟩
    rw [show k = r * c from hc, mul_comm, mul_nsmul', r_smul_g1Gen, nsmul_zero]

private theorem ent1_validd {sha : List UInt8 → List UInt8} {dom : List UInt8} {b : G1Pubs.PublicKey × List UInt8 × G1Pubs.Signature}
    {e : ℕ × E2 × E2} (h : Ent1d sha dom b e) : G1Pubs.verifyWithDomain sha b.2.1 b.1 b.2.2 dom = some true ↔ e.2.2 = e.1 • e.2.1 :=
  (G1Pubs.verifyWithDomain_spec h.hash h.key (fun hc => h.ne (by
    have := addOrderOf_dvd_of_nsmul_eq_zero hc
    rwa [addOrderOf_g1Gen] at this)) h.sig h.tor).1

private theorem weighted_entries1d {sha : List UInt8 → List UInt8} {dom : List UInt8} {batch : List (G1Pubs.PublicKey × List UInt8 × G1Pubs.Signature)}
    {es : List (ℕ × E2 × E2)} (h : List.Forall₂ (Ent1d sha dom) batch es) {ws : List FR} (hw : ws ∈ weights batch.length) :
    G1Pubs.Entries (G1Pubs.HashesToIn sha dom)
      ((ws.zip batch).map fun b => G1Pubs.newPublicKeyFromG1 (b.2.1.getPoint.mulFR b.1.toRepr).toAffine)
      ((ws.zip batch).map fun b => b.2.2.1) (List.zipWith (fun (w : FR) e => (w.toRepr.toNat * e.1, e.2.1)) ws es) ∧
    List.Forall₂ (fun (g : G1Pubs.Signature) S => g.s.Rep S)
      ((ws.zip batch).map fun b => G1Pubs.newSignatureFromG2 (b.2.2.2.getPoint.mulFR b.1.toRepr).toAffine)
      (List.zipWith (fun (w : FR) e => w.toRepr.toNat • e.2.2) ws es) ∧
    ((ws.zip batch).map fun b => b.2.2.1) = batch.map fun b => b.2.1 := by
  induction h generalizing ws with
  | nil =>
    rw [List.length_nil, weights_zero] at hw
    cases hw
    exact ⟨.nil, .nil, rfl⟩
  | @cons b e bs es he _ ih =>
    rw [List.length_cons, weights_succ] at hw
    obtain ⟨w, hv, ws, hws, rfl⟩ := hw
    obtain ⟨h1, h2, h3⟩ := ih hws
    refine ⟨.cons ⟨?_, ?_, he.hash⟩ h1, .cons ?_ h2, congrArg _ h3⟩
    · have := G1Affine.Rep.toProjective (G1Projective.Rep.toAffine (G1Projective.Rep.mulFR he.key w.toRepr))
      rw [← mul_nsmul'] at this
      exact this
    · intro hc
      have := addOrderOf_dvd_of_nsmul_eq_zero hc
      rw [addOrderOf_g1Gen] at this
      rcases (Nat.Prime.dvd_mul r_prime).mp this with hd | hd
      · have e1 := (FR.rep_val hv.1).toRepr
        have e2 := (FR.rep_val hv.1).int
        rw [e1] at hd
        exact hv.2 (e2.trans (Nat.eq_zero_of_dvd_of_lt hd (ZMod.val_lt _)))
      · exact he.ne hd
    · exact G2Affine.Rep.toProjective (G2Projective.Rep.toAffine (G2Projective.Rep.mulFR he.sig w.toRepr))

private theorem total_sub1d (ws : List FR) (es : List (ℕ × E2 × E2)) :
    (List.zipWith (fun (w : FR) e => w.toRepr.toNat • e.2.2) ws es).sum =
      G1Pubs.total (List.zipWith (fun (w : FR) e => (w.toRepr.toNat * e.1, e.2.1)) ws es) ↔
    (List.zipWith (fun (w : FR) D => w.toRepr.toNat • D) ws (es.map fun e => e.2.2 - e.1 • e.2.1)).sum = 0 := by
  have : (List.zipWith (fun (w : FR) e => w.toRepr.toNat • e.2.2) ws es).sum -
      G1Pubs.total (List.zipWith (fun (w : FR) e => (w.toRepr.toNat * e.1, e.2.1)) ws es) =
    (List.zipWith (fun (w : FR) D => w.toRepr.toNat • D) ws (es.map fun e => e.2.2 - e.1 • e.2.1)).sum := by
    induction ws generalizing es with
    | nil => simp [G1Pubs.total]
    | cons w ws ih =>
      cases es with
      | nil => simp [G1Pubs.total]
      | cons e es =>
        have := ih es
        rw [G1Pubs.total] at this ⊢
        rw [List.map_cons, List.zipWith_cons_cons, List.zipWith_cons_cons, List.zipWith_cons_cons, List.map_cons,
          List.sum_cons, List.sum_cons, List.sum_cons, ← this, mul_nsmul', nsmul_sub]
        abel
  rw [← this, sub_eq_zero]

private theorem sum_tor1d {sha : List UInt8 → List UInt8} {dom : List UInt8} {batch : List (G1Pubs.PublicKey × List UInt8 × G1Pubs.Signature)}
    {es : List (ℕ × E2 × E2)} (h : List.Forall₂ (Ent1d sha dom) batch es) (ws : List FR) :
    r • (List.zipWith (fun (w : FR) (e : ℕ × E2 × E2) => w.toRepr.toNat • e.2.2) ws es).sum = 0 := by
  induction h generalizing ws with
  | nil => rw [List.zipWith_nil_right, List.sum_nil, nsmul_zero]
  | @cons b e bs es he _ ih =>
    cases ws with
    | nil => rw [List.zipWith_nil_left, List.sum_nil, nsmul_zero]
    | cons w ws => rw [List.zipWith_cons_cons, List.sum_cons, nsmul_add, ih, smul_comm, he.tor, nsmul_zero, add_zero]

/-- What the weighted check computes. -/
private theorem weighted1d {sha : List UInt8 → List UInt8} {dom : List UInt8} {batch : List (G1Pubs.PublicKey × List UInt8 × G1Pubs.Signature)}
    {es : List (ℕ × E2 × E2)} (h : List.Forall₂ (Ent1d sha dom) batch es) {ws : List FR} (hw : ws ∈ weights batch.length) :
    ((List.zipWith (fun (w : FR) e => w.toRepr.toNat • e.2.2) ws es).sum = 0 → G1Pubs.verifyWeightedWithDomain sha (ws.zip batch) dom = none) ∧
    ((List.zipWith (fun (w : FR) e => w.toRepr.toNat • e.2.2) ws es).sum ≠ 0 →
      ∃ c, G1Pubs.verifyWeightedWithDomain sha (ws.zip batch) dom = some c ∧ (c = true ↔
        (List.zipWith (fun (w : FR) D => w.toRepr.toNat • D) ws (es.map fun e => e.2.2 - e.1 • e.2.1)).sum = 0)) := by
  obtain ⟨h1, h2, _⟩ := weighted_entries1d h hw
  have h4 := G1Pubs.aggregateSignatures_spec h2
  constructor
  · intro h0
    rw [h0] at h4
    rw [G1Pubs.verifyWeightedWithDomain]
    rw [G1Pubs.Signature.verifyAggregateWithDomain, if_neg (by rw [bne_iff_ne, not_not]; exact h1.length)]
    exact G1Pubs.final_none h4
  · intro h0
    obtain ⟨c, hc, hc'⟩ := G1Pubs.verifyAggregateWithDomain_spec h1 h4 (sum_tor1d h ws) h0
    exact ⟨c, hc, hc'.trans (total_sub1d ws es)⟩

/-- If some signature of the batch is not valid, at most one in r - 1 lists of weights makes the check accept. -/
theorem C76_soundDomain_g1pubs (sha : List UInt8 → List UInt8) (dom : List UInt8) (batch : List (G1Pubs.PublicKey × List UInt8 × G1Pubs.Signature))
    (h : ∀ b ∈ batch, (∃ P, b.1.p.Denotes P ∧ P ≠ 0 ∧ r • P = 0) ∧ (∃ H, G1Pubs.HashesToIn sha dom b.2.1 H) ∧
      ∃ S, b.2.2.s.Denotes S ∧ r • S = 0)
    (hb : ∃ b ∈ batch, G1Pubs.verifyWithDomain sha b.2.1 b.1 b.2.2 dom ≠ some true) :
    {ws ∈ weights batch.length | G1Pubs.verifyWeightedWithDomain sha (ws.zip batch) dom = some true}.ncard * (r - 1) ≤
      (weights batch.length).ncard := by
  obtain ⟨es, hes⟩ := ents1d h
  have hds : ∃ ds : List Fr, List.Forall₂ (fun D d => D = d.val • g2Gen) (es.map fun e => e.2.2 - e.1 • e.2.1) ds ∧
      ∃ d ∈ ds, d ≠ 0 := by
    clear h
    induction hes with
    | nil => obtain ⟨b, m, _⟩ := hb; cases m
    | @cons b e bs es h1 h2 ih =>
      obtain ⟨k, hk⟩ := E2.torsion (P := e.2.2 - e.1 • e.2.1) (by
        obtain ⟨_, _, _, _, hr⟩ := h1.hash
        rw [nsmul_sub, h1.tor, smul_comm, hr, nsmul_zero, sub_zero])
      have hk' := hk.trans (val_nsmul r_smul_g2Gen (k := k) rfl)
      by_cases hv : e.2.2 = e.1 • e.2.1
      · obtain ⟨c, m, hc⟩ := hb
        rcases List.mem_cons.mp m with rfl | m
        · exact absurd ((ent1_validd h1).mpr hv) hc
        · obtain ⟨ds, g1, d, m', hd⟩ := ih ⟨c, m, hc⟩
          exact ⟨_ :: ds, .cons hk' g1, d, List.mem_cons_of_mem _ m', hd⟩
      · have : ∃ ds : List Fr, List.Forall₂ (fun D d => D = d.val • g2Gen) (es.map fun e => e.2.2 - e.1 • e.2.1) ds := by
          clear ih hb
          induction h2 with
          | nil => exact ⟨[], .nil⟩
          | @cons b e bs es h1 h2 ih =>
            obtain ⟨ds, hds⟩ := ih
            obtain ⟨k, hk⟩ := E2.torsion (P := e.2.2 - e.1 • e.2.1) (by
              obtain ⟨_, _, _, _, hr⟩ := h1.hash
              rw [nsmul_sub, h1.tor, smul_comm, hr, nsmul_zero, sub_zero])
            exact ⟨_ :: ds, .cons (hk.trans (val_nsmul r_smul_g2Gen (k := k) rfl)) hds⟩
        obtain ⟨ds, hds⟩ := this
        refine ⟨_ :: ds, .cons hk' hds, _, List.mem_cons_self, fun h0 => hv ?_⟩
        rw [h0, ZMod.val_zero, zero_nsmul] at hk'
        exact sub_eq_zero.mp hk'
  obtain ⟨ds, h1, h2⟩ := hds
  have hl : ds.length = batch.length := by rw [← h1.length_eq, List.length_map, hes.length_eq]
  obtain ⟨c1, c2⟩ := comb_count h2 0
  rw [hl] at c1 c2
  rw [C76_weights]
  have hp : 0 < batch.length := List.length_pos_of_mem hb.choose_spec.1
  calc _ ≤ (r - 1) ^ (batch.length - 1) * (r - 1) := Nat.mul_le_mul_right _ (le_trans (Set.ncard_le_ncard ?_ c1) c2)
    _ = (r - 1) ^ batch.length := by rw [← pow_succ, Nat.sub_add_cancel hp]
  rintro ws ⟨hw, hv⟩
  refine ⟨hw, ?_⟩
  obtain ⟨k1, k2⟩ := weighted1d hes hw
  by_cases h0 : (List.zipWith (fun (w : FR) (e : ℕ × E2 × E2) => w.toRepr.toNat • e.2.2) ws es).sum = 0
  · rw [k1 h0] at hv; cases hv
  · obtain ⟨c, hc, hc'⟩ := k2 h0
    rw [hv] at hc
    cases hc
    have := hc'.mp rfl
    rw [comb_smul r_smul_g2Gen (fun w m => (hw.2 w m).1) h1] at this
    have := addOrderOf_dvd_of_nsmul_eq_zero this
    rw [addOrderOf_g2Gen] at this
    exact (ZMod.val_eq_zero _).mp (Nat.eq_zero_of_dvd_of_lt this (ZMod.val_lt _))

/-- If all signatures are valid, the check accepts with all weights, but panics if the weighted sum is infinity. -/
theorem C76_completeDomain_g1pubs (sha : List UInt8 → List UInt8) (dom : List UInt8) (batch : List (G1Pubs.PublicKey × List UInt8 × G1Pubs.Signature))
    (h : ∀ b ∈ batch, (∃ P, b.1.p.Denotes P ∧ P ≠ 0 ∧ r • P = 0) ∧ (∃ H, G1Pubs.HashesToIn sha dom b.2.1 H) ∧
      ∃ S, b.2.2.s.Denotes S ∧ r • S = 0)
    (hb : ∀ b ∈ batch, G1Pubs.verifyWithDomain sha b.2.1 b.1 b.2.2 dom = some true) (ws : List FR) (hw : ws ∈ weights batch.length) :
    G1Pubs.verifyWeightedWithDomain sha (ws.zip batch) dom = (if (G1Pubs.aggregateSignatures ((ws.zip batch).map fun b =>
      G1Pubs.newSignatureFromG2 (b.2.2.2.getPoint.mulFR b.1.toRepr).toAffine)).s.isZero then none else some true) := by
  obtain ⟨es, hes⟩ := ents1d h
  obtain ⟨k1, k2⟩ := weighted1d hes hw
  have h4 := G1Pubs.aggregateSignatures_spec (weighted_entries1d hes hw).2.1
  by_cases h0 : (List.zipWith (fun (w : FR) (e : ℕ × E2 × E2) => w.toRepr.toNat • e.2.2) ws es).sum = 0
  · rw [if_pos (h4.isZero.mpr h0)]
    exact k1 h0
  · rw [if_neg fun hz => h0 (h4.isZero.mp hz)]
    obtain ⟨c, hc, hc'⟩ := k2 h0
    rw [hc]
    refine congrArg some (hc'.mpr ?_)
    clear h hw k1 k2 h4 h0 hc hc'
    induction hes generalizing ws with
    | nil => rw [List.map_nil, List.zipWith_nil_right, List.sum_nil]
    | @cons b e bs es h1 h2 ih =>
      cases ws with
      | nil => rw [List.zipWith_nil_left, List.sum_nil]
      | cons w ws =>
        rw [List.map_cons, List.zipWith_cons_cons, List.sum_cons, ih (fun b m => hb b (List.mem_cons_of_mem _ m)),
          (ent1_validd h1).mp (hb b List.mem_cons_self), sub_self, nsmul_zero, add_zero]

/-- Without weights an accepted aggregate says nothing about the single signatures: for any two keys and messages, equal or not, there are
two signatures that `VerifyWithDomain` rejects and whose aggregate `VerifyAggregateWithDomain` accepts. They come from two valid ones `t₁`, `t₂`
(which do not add up to infinity) by adding a point to one and subtracting it from the other. -/
theorem C76_unweightedDomain_g1pubs (sha : List UInt8 → List UInt8) (dom : List UInt8) (m₁ m₂ : List UInt8)
    (H₁ H₂ T₁ T₂ : E2) (h₁ : G1Pubs.HashesToIn sha dom m₁ H₁) (h₂ : G1Pubs.HashesToIn sha dom m₂ H₂) (p₁ p₂ : G1Pubs.PublicKey)
    (P₁ P₂ : E1) (k₁ : p₁.p.Denotes P₁) (k₂ : p₂.p.Denotes P₂) (o₁ : P₁ ≠ 0 ∧ r • P₁ = 0) (o₂ : P₂ ≠ 0 ∧ r • P₂ = 0)
    (t₁ t₂ : G1Pubs.Signature) (d₁ : t₁.s.Denotes T₁) (d₂ : t₂.s.Denotes T₂) (u₁ : r • T₁ = 0) (u₂ : r • T₂ = 0)
    (v₁ : G1Pubs.verifyWithDomain sha m₁ p₁ t₁ dom = some true) (v₂ : G1Pubs.verifyWithDomain sha m₂ p₂ t₂ dom = some true) (h0 : T₁ + T₂ ≠ 0) :
    ∃ s₁ s₂, G1Pubs.verifyWithDomain sha m₁ p₁ s₁ dom = some false ∧ G1Pubs.verifyWithDomain sha m₂ p₂ s₂ dom = some false ∧
      (G1Pubs.aggregateSignatures [s₁, s₂]).verifyAggregateWithDomain sha [p₁, p₂] [m₁, m₂] dom = some true := by
  obtain ⟨a, rfl⟩ := E1.torsion o₁.2
  obtain ⟨b, rfl⟩ := E1.torsion o₂.2
  have k₁ := G1Projective.denotes_iff.mp k₁
  have k₂ := G1Projective.denotes_iff.mp k₂
  have e₁ := (G1Pubs.verifyWithDomain_spec h₁ k₁ o₁.1 (G2Projective.denotes_iff.mp d₁) u₁).1.mp v₁
  have e₂ := (G1Pubs.verifyWithDomain_spec h₂ k₂ o₂.1 (G2Projective.denotes_iff.mp d₂) u₂).1.mp v₂
  have hD : ∃ D : E2, r • D = 0 ∧ D ≠ 0 ∧ T₁ + D ≠ 0 ∧ T₂ - D ≠ 0 := by
    have ho : ∀ n : ℕ, 0 < n → n < 4 → n • g2Gen ≠ 0 := fun n h1 h2 h => by
      have := addOrderOf_dvd_of_nsmul_eq_zero h
      rw [addOrderOf_g2Gen] at this
      exact absurd (Nat.le_of_dvd h1 this) (Nat.not_le_of_lt (h2.trans (by rw [r_eq]; decide +kernel)))
    by_contra hc
    have key : ∀ n : ℕ, 0 < n → n < 4 → n • g2Gen = -T₁ ∨ n • g2Gen = T₂ := fun n h1 h2 => by
      by_contra hd
      push Not at hd
      exact hc ⟨n • g2Gen, by rw [smul_comm, r_smul_g2Gen, nsmul_zero], ho n h1 h2,
        fun e => hd.1 (eq_neg_of_add_eq_zero_right e), fun e => hd.2 (sub_eq_zero.mp e).symm⟩
    have g1 : g2Gen ≠ 0 := g2Gen_ne_zero
    have hd : ∀ n m : ℕ, n < m → m < 4 → n • g2Gen ≠ m • g2Gen := fun n m h1 h2 e => by
      refine ho (m - n) (Nat.sub_pos_of_lt h1) (lt_of_le_of_lt (Nat.sub_le _ _) h2) ?_
      obtain ⟨c, rfl⟩ := Nat.exists_eq_add_of_lt h1
      rw [show n + c + 1 - n = c + 1 by omega]
      rw [add_assoc, add_nsmul] at e
      exact (left_eq_add.mp e)
    rcases key 1 (by decide) (by decide) with a1 | a1 <;> rcases key 2 (by decide) (by decide) with a2 | a2 <;>
      rcases key 3 (by decide) (by decide) with a3 | a3
    · exact hd 1 2 (by decide) (by decide) (a1.trans a2.symm)
    · exact hd 1 2 (by decide) (by decide) (a1.trans a2.symm)
    · exact hd 1 3 (by decide) (by decide) (a1.trans a3.symm)
    · exact hd 2 3 (by decide) (by decide) (a2.trans a3.symm)
    · exact hd 2 3 (by decide) (by decide) (a2.trans a3.symm)
    · exact hd 1 3 (by decide) (by decide) (a1.trans a3.symm)
    · exact hd 1 2 (by decide) (by decide) (a1.trans a2.symm)
    · exact hd 1 2 (by decide) (by decide) (a1.trans a2.symm)
  obtain ⟨D, w1, w2, w3, w4⟩ := hD
  obtain ⟨x₁, x1⟩ := G2Affine.exists_rep (T₁ + D)
  obtain ⟨x₂, x2⟩ := G2Affine.exists_rep (T₂ - D)
  have reject : ∀ {m : List UInt8} {H S : E2} {p : G1Pubs.PublicKey} {s : G1Pubs.Signature} {k : ℕ},
      G1Pubs.HashesToIn sha dom m H → p.p.Rep (k • g1Gen) → k • g1Gen ≠ 0 → s.s.Rep S → r • S = 0 → S ≠ 0 → S ≠ k • H →
      G1Pubs.verifyWithDomain sha m p s dom = some false := fun {m H S p s k} c1 c2 c3 c4 c5 c6 c7 => by
    obtain ⟨q1, q2⟩ := G1Pubs.verifyWithDomain_spec c1 c2 c3 c4 c5
    rcases hv : G1Pubs.verifyWithDomain sha m p s dom with _ | _ | _
    · exact absurd hv (q2 c6)
    · rfl
    · exact absurd (q1.mp hv) c7
  refine ⟨⟨x₁.toProjective⟩, ⟨x₂.toProjective⟩, reject h₁ k₁ o₁.1 x1.toProjective (by rw [nsmul_add, u₁, w1, add_zero]) w3 ?_,
    reject h₂ k₂ o₂.1 x2.toProjective (by rw [nsmul_sub, u₂, w1, sub_zero]) w4 ?_, ?_⟩
  · rw [← e₁]
    exact fun e => w2 (add_eq_left.mp e)
  · rw [← e₂]
    exact fun e => w2 (sub_eq_self.mp e)
  · have hs := G1Pubs.aggregateSignatures_spec (l := [⟨x₁.toProjective⟩, ⟨x₂.toProjective⟩])
      (.cons x1.toProjective (.cons x2.toProjective .nil))
    have es : [T₁ + D, T₂ - D].sum = T₁ + T₂ := by
      rw [List.sum_cons, List.sum_cons, List.sum_nil]
      abel
    rw [es] at hs
    obtain ⟨c, hc, hc'⟩ := G1Pubs.verifyAggregateWithDomain_spec (sha := sha) (ms := [m₁, m₂]) (ds := [(a, H₁), (b, H₂)])
      (.cons ⟨k₁, o₁.1, h₁⟩ (.cons ⟨k₂, o₂.1, h₂⟩ .nil)) hs (by rw [nsmul_add, u₁, u₂, add_zero]) h0
    rw [hc, hc'.mpr (by rw [e₁, e₂, G1Pubs.total]; simp)]

/-! ## g2pubs -/

private structure Ent2 (sha : List UInt8 → List UInt8) (b : G2Pubs.PublicKey × List UInt8 × G2Pubs.Signature)
    (e : ℕ × E1 × E1) : Prop where
  key : b.1.p.Rep (e.1 • g2Gen)
  ne : ¬ r ∣ e.1
  hash : G2Pubs.HashesTo sha b.2.1 e.2.1
  sig : b.2.2.s.Rep e.2.2
  tor : r • e.2.2 = 0

private theorem ents2 {sha : List UInt8 → List UInt8} {batch : List (G2Pubs.PublicKey × List UInt8 × G2Pubs.Signature)}
    (h : ∀ b ∈ batch, (∃ P, b.1.p.Denotes P ∧ P ≠ 0 ∧ r • P = 0) ∧ (∃ H, G2Pubs.HashesTo sha b.2.1 H) ∧
      ∃ S, b.2.2.s.Denotes S ∧ r • S = 0) : ∃ es, List.Forall₂ (Ent2 sha) batch es := by
  induction batch with
  | nil => exact ⟨[], .nil⟩
  | cons b l ih =>
    obtain ⟨es, hes⟩ := ih fun c m => h c (List.mem_cons_of_mem _ m)
    obtain ⟨⟨P, h1, h2, h3⟩, ⟨H, h4⟩, S, h5, h6⟩ := h b List.mem_cons_self
    obtain ⟨k, rfl⟩ := E2.torsion h3
    refine ⟨(k, H, S) :: es, .cons ⟨G2Projective.denotes_iff.mp h1, fun ⟨c, hc⟩ => h2 ?_, h4, G1Projective.denotes_iff.mp h5, h6⟩ hes⟩
    rw [show k = r * c from hc, mul_comm, mul_nsmul', r_smul_g2Gen, nsmul_zero]

private theorem ent2_valid {sha : List UInt8 → List UInt8} {b : G2Pubs.PublicKey × List UInt8 × G2Pubs.Signature}
    {e : ℕ × E1 × E1} (h : Ent2 sha b e) : G2Pubs.verify sha b.2.1 b.1 b.2.2 = some true ↔ e.2.2 = e.1 • e.2.1 :=
  (G2Pubs.verify_spec h.hash h.key (fun hc => h.ne (by
    have := addOrderOf_dvd_of_nsmul_eq_zero hc
    rwa [addOrderOf_g2Gen] at this)) h.sig h.tor).1

private theorem weighted_entries2 {sha : List UInt8 → List UInt8} {batch : List (G2Pubs.PublicKey × List UInt8 × G2Pubs.Signature)}
    {es : List (ℕ × E1 × E1)} (h : List.Forall₂ (Ent2 sha) batch es) {ws : List FR} (hw : ws ∈ weights batch.length) :
    G2Pubs.Entries (G2Pubs.HashesTo sha)
      ((ws.zip batch).map fun b => G2Pubs.newPublicKeyFromG2 (b.2.1.getPoint.mulFR b.1.toRepr).toAffine)
      ((ws.zip batch).map fun b => b.2.2.1) (List.zipWith (fun (w : FR) e => (w.toRepr.toNat * e.1, e.2.1)) ws es) ∧
    List.Forall₂ (fun (g : G2Pubs.Signature) S => g.s.Rep S)
      ((ws.zip batch).map fun b => G2Pubs.newSignatureFromG1 (b.2.2.2.getPoint.mulFR b.1.toRepr).toAffine)
      (List.zipWith (fun (w : FR) e => w.toRepr.toNat • e.2.2) ws es) ∧
    ((ws.zip batch).map fun b => b.2.2.1) = batch.map fun b => b.2.1 := by
  induction h generalizing ws with
  | nil =>
    rw [List.length_nil, weights_zero] at hw
    cases hw
    exact ⟨.nil, .nil, rfl⟩
  | @cons b e bs es he _ ih =>
    rw [List.length_cons, weights_succ] at hw
    obtain ⟨w, hv, ws, hws, rfl⟩ := hw
    obtain ⟨h1, h2, h3⟩ := ih hws
    refine ⟨.cons ⟨?_, ?_, he.hash⟩ h1, .cons ?_ h2, congrArg _ h3⟩
    · have := G2Affine.Rep.toProjective (G2Projective.Rep.toAffine (G2Projective.Rep.mulFR he.key w.toRepr))
      rw [← mul_nsmul'] at this
      exact this
    · intro hc
      have := addOrderOf_dvd_of_nsmul_eq_zero hc
      rw [addOrderOf_g2Gen] at this
      rcases (Nat.Prime.dvd_mul r_prime).mp this with hd | hd
      · have e1 := (FR.rep_val hv.1).toRepr
        have e2 := (FR.rep_val hv.1).int
        rw [e1] at hd
        exact hv.2 (e2.trans (Nat.eq_zero_of_dvd_of_lt hd (ZMod.val_lt _)))
      · exact he.ne hd
    · exact G1Affine.Rep.toProjective (G1Projective.Rep.toAffine (G1Projective.Rep.mulFR he.sig w.toRepr))

private theorem total_sub2 (ws : List FR) (es : List (ℕ × E1 × E1)) :
    (List.zipWith (fun (w : FR) e => w.toRepr.toNat • e.2.2) ws es).sum =
      G2Pubs.total (List.zipWith (fun (w : FR) e => (w.toRepr.toNat * e.1, e.2.1)) ws es) ↔
    (List.zipWith (fun (w : FR) D => w.toRepr.toNat • D) ws (es.map fun e => e.2.2 - e.1 • e.2.1)).sum = 0 := by
  have : (List.zipWith (fun (w : FR) e => w.toRepr.toNat • e.2.2) ws es).sum -
      G2Pubs.total (List.zipWith (fun (w : FR) e => (w.toRepr.toNat * e.1, e.2.1)) ws es) =
    (List.zipWith (fun (w : FR) D => w.toRepr.toNat • D) ws (es.map fun e => e.2.2 - e.1 • e.2.1)).sum := by
    induction ws generalizing es with
    | nil => simp [G2Pubs.total]
    | cons w ws ih =>
      cases es with
      | nil => simp [G2Pubs.total]
      | cons e es =>
        have := ih es
        rw [G2Pubs.total] at this ⊢
        rw [List.map_cons, List.zipWith_cons_cons, List.zipWith_cons_cons, List.zipWith_cons_cons, List.map_cons,
          List.sum_cons, List.sum_cons, List.sum_cons, ← this, mul_nsmul', nsmul_sub]
        abel
  rw [← this, sub_eq_zero]

private theorem sum_tor2 {sha : List UInt8 → List UInt8} {batch : List (G2Pubs.PublicKey × List UInt8 × G2Pubs.Signature)}
    {es : List (ℕ × E1 × E1)} (h : List.Forall₂ (Ent2 sha) batch es) (ws : List FR) :
    r • (List.zipWith (fun (w : FR) (e : ℕ × E1 × E1) => w.toRepr.toNat • e.2.2) ws es).sum = 0 := by
  induction h generalizing ws with
  | nil => rw [List.zipWith_nil_right, List.sum_nil, nsmul_zero]
  | @cons b e bs es he _ ih =>
    cases ws with
    | nil => rw [List.zipWith_nil_left, List.sum_nil, nsmul_zero]
    | cons w ws => rw [List.zipWith_cons_cons, List.sum_cons, nsmul_add, ih, smul_comm, he.tor, nsmul_zero, add_zero]

/-- What the weighted check computes. -/
private theorem weighted2 {sha : List UInt8 → List UInt8} {batch : List (G2Pubs.PublicKey × List UInt8 × G2Pubs.Signature)}
    {es : List (ℕ × E1 × E1)} (h : List.Forall₂ (Ent2 sha) batch es) (hn : (batch.map fun b => b.2.1).Nodup)
    (he : [] ∉ batch.map fun b => b.2.1) {ws : List FR} (hw : ws ∈ weights batch.length) :
    ((List.zipWith (fun (w : FR) e => w.toRepr.toNat • e.2.2) ws es).sum = 0 → G2Pubs.verifyWeighted sha (ws.zip batch) = none) ∧
    ((List.zipWith (fun (w : FR) e => w.toRepr.toNat • e.2.2) ws es).sum ≠ 0 →
      ∃ c, G2Pubs.verifyWeighted sha (ws.zip batch) = some c ∧ (c = true ↔
        (List.zipWith (fun (w : FR) D => w.toRepr.toNat • D) ws (es.map fun e => e.2.2 - e.1 • e.2.1)).sum = 0)) := by
  obtain ⟨h1, h2, h3⟩ := weighted_entries2 h hw
  have h4 := G2Pubs.aggregateSignatures_spec h2
  constructor
  · intro h0
    rw [h0] at h4
    rw [G2Pubs.verifyWeighted]
    rw [G2Pubs.Signature.verifyAggregate, if_neg (by rw [bne_iff_ne, not_not]; exact h1.length),
      if_neg (by rw [(noRepeat_sort _).mpr ⟨h3 ▸ hn, h3 ▸ he⟩]; decide)]
    exact G2Pubs.final_none h4
  · intro h0
    obtain ⟨c, hc, hc'⟩ := G2Pubs.verifyAggregate_spec h1 h4 (sum_tor2 h ws) h0 (h3 ▸ hn) (h3 ▸ he)
    exact ⟨c, hc, hc'.trans (total_sub2 ws es)⟩

/-- If some signature of the batch is not valid, at most one in r - 1 lists of weights makes the check accept. -/
theorem C76_sound_g2pubs (sha : List UInt8 → List UInt8) (batch : List (G2Pubs.PublicKey × List UInt8 × G2Pubs.Signature))
    (h : ∀ b ∈ batch, (∃ P, b.1.p.Denotes P ∧ P ≠ 0 ∧ r • P = 0) ∧ (∃ H, G2Pubs.HashesTo sha b.2.1 H) ∧
      ∃ S, b.2.2.s.Denotes S ∧ r • S = 0)
    (hn : (batch.map fun b => b.2.1).Nodup) (he : [] ∉ batch.map fun b => b.2.1)
    (hb : ∃ b ∈ batch, G2Pubs.verify sha b.2.1 b.1 b.2.2 ≠ some true) :
    {ws ∈ weights batch.length | G2Pubs.verifyWeighted sha (ws.zip batch) = some true}.ncard * (r - 1) ≤
      (weights batch.length).ncard := by
  obtain ⟨es, hes⟩ := ents2 h
  have hds : ∃ ds : List Fr, List.Forall₂ (fun D d => D = d.val • g1Gen) (es.map fun e => e.2.2 - e.1 • e.2.1) ds ∧
      ∃ d ∈ ds, d ≠ 0 := by
    clear h hn he
    induction hes with
    | nil => obtain ⟨b, m, _⟩ := hb; cases m
    | @cons b e bs es h1 h2 ih =>
      obtain ⟨k, hk⟩ := E1.torsion (P := e.2.2 - e.1 • e.2.1) (by
        obtain ⟨_, _, _, _, hr⟩ := h1.hash
        rw [nsmul_sub, h1.tor, smul_comm, hr, nsmul_zero, sub_zero])
      have hk' := hk.trans (val_nsmul r_smul_g1Gen (k := k) rfl)
      by_cases hv : e.2.2 = e.1 • e.2.1
      · obtain ⟨c, m, hc⟩ := hb
        rcases List.mem_cons.mp m with rfl | m
        · exact absurd ((ent2_valid h1).mpr hv) hc
        · obtain ⟨ds, g1, d, m', hd⟩ := ih ⟨c, m, hc⟩
          exact ⟨_ :: ds, .cons hk' g1, d, List.mem_cons_of_mem _ m', hd⟩
      · have : ∃ ds : List Fr, List.Forall₂ (fun D d => D = d.val • g1Gen) (es.map fun e => e.2.2 - e.1 • e.2.1) ds := by
          clear ih hb
          induction h2 with
          | nil => exact ⟨[], .nil⟩
          | @cons b e bs es h1 h2 ih =>
            obtain ⟨ds, hds⟩ := ih
            obtain ⟨k, hk⟩ := E1.torsion (P := e.2.2 - e.1 • e.2.1) (by
              obtain ⟨_, _, _, _, hr⟩ := h1.hash
              rw [nsmul_sub, h1.tor, smul_comm, hr, nsmul_zero, sub_zero])
            exact ⟨_ :: ds, .cons (hk.trans (val_nsmul r_smul_g1Gen (k := k) rfl)) hds⟩
        obtain ⟨ds, hds⟩ := this
        refine ⟨_ :: ds, .cons hk' hds, _, List.mem_cons_self, fun h0 => hv ?_⟩
        rw [h0, ZMod.val_zero, zero_nsmul] at hk'
        exact sub_eq_zero.mp hk'
  obtain ⟨ds, h1, h2⟩ := hds
  have hl : ds.length = batch.length := by rw [← h1.length_eq, List.length_map, hes.length_eq]
  obtain ⟨c1, c2⟩ := comb_count h2 0
  rw [hl] at c1 c2
  rw [C76_weights]
  have hp : 0 < batch.length := List.length_pos_of_mem hb.choose_spec.1
  calc _ ≤ (r - 1) ^ (batch.length - 1) * (r - 1) := Nat.mul_le_mul_right _ (le_trans (Set.ncard_le_ncard ?_ c1) c2)
    _ = (r - 1) ^ batch.length := by rw [← pow_succ, Nat.sub_add_cancel hp]
  rintro ws ⟨hw, hv⟩
  refine ⟨hw, ?_⟩
  obtain ⟨k1, k2⟩ := weighted2 hes hn he hw
  by_cases h0 : (List.zipWith (fun (w : FR) (e : ℕ × E1 × E1) => w.toRepr.toNat • e.2.2) ws es).sum = 0
  · rw [k1 h0] at hv; cases hv
  · obtain ⟨c, hc, hc'⟩ := k2 h0
    rw [hv] at hc
    cases hc
    have := hc'.mp rfl
    rw [comb_smul r_smul_g1Gen (fun w m => (hw.2 w m).1) h1] at this
    have := addOrderOf_dvd_of_nsmul_eq_zero this
    rw [addOrderOf_g1Gen] at this
    exact (ZMod.val_eq_zero _).mp (Nat.eq_zero_of_dvd_of_lt this (ZMod.val_lt _))

/-- If all signatures are valid, the check accepts with all weights, but panics if the weighted sum is infinity. -/
theorem C76_complete_g2pubs (sha : List UInt8 → List UInt8) (batch : List (G2Pubs.PublicKey × List UInt8 × G2Pubs.Signature))
    (h : ∀ b ∈ batch, (∃ P, b.1.p.Denotes P ∧ P ≠ 0 ∧ r • P = 0) ∧ (∃ H, G2Pubs.HashesTo sha b.2.1 H) ∧
      ∃ S, b.2.2.s.Denotes S ∧ r • S = 0)
    (hn : (batch.map fun b => b.2.1).Nodup) (he : [] ∉ batch.map fun b => b.2.1)
    (hb : ∀ b ∈ batch, G2Pubs.verify sha b.2.1 b.1 b.2.2 = some true) (ws : List FR) (hw : ws ∈ weights batch.length) :
    G2Pubs.verifyWeighted sha (ws.zip batch) = (if (G2Pubs.aggregateSignatures ((ws.zip batch).map fun b =>
      G2Pubs.newSignatureFromG1 (b.2.2.2.getPoint.mulFR b.1.toRepr).toAffine)).s.isZero then none else some true) := by
  obtain ⟨es, hes⟩ := ents2 h
  obtain ⟨k1, k2⟩ := weighted2 hes hn he hw
  have h4 := G2Pubs.aggregateSignatures_spec (weighted_entries2 hes hw).2.1
  by_cases h0 : (List.zipWith (fun (w : FR) (e : ℕ × E1 × E1) => w.toRepr.toNat • e.2.2) ws es).sum = 0
  · rw [if_pos (h4.isZero.mpr h0)]
    exact k1 h0
  · rw [if_neg fun hz => h0 (h4.isZero.mp hz)]
    obtain ⟨c, hc, hc'⟩ := k2 h0
    rw [hc]
    refine congrArg some (hc'.mpr ?_)
    clear h hn he hw k1 k2 h4 h0 hc hc'
    induction hes generalizing ws with
    | nil => rw [List.map_nil, List.zipWith_nil_right, List.sum_nil]
    | @cons b e bs es h1 h2 ih =>
      cases ws with
      | nil => rw [List.zipWith_nil_left, List.sum_nil]
      | cons w ws =>
        rw [List.map_cons, List.zipWith_cons_cons, List.sum_cons, ih (fun b m => hb b (List.mem_cons_of_mem _ m)),
          (ent2_valid h1).mp (hb b List.mem_cons_self), sub_self, nsmul_zero, add_zero]

/-- Without weights an accepted aggregate says nothing about the single signatures: for any two keys and messages there are
two signatures that `Verify` rejects and whose aggregate `VerifyAggregate` accepts. They come from two valid ones `t₁`, `t₂`
(which do not add up to infinity) by adding a point to one and subtracting it from the other. -/
theorem C76_unweighted_g2pubs (sha : List UInt8 → List UInt8) (m₁ m₂ : List UInt8) (hm : m₁ ≠ m₂) (n₁ : m₁ ≠ []) (n₂ : m₂ ≠ [])
    (H₁ H₂ T₁ T₂ : E1) (h₁ : G2Pubs.HashesTo sha m₁ H₁) (h₂ : G2Pubs.HashesTo sha m₂ H₂) (p₁ p₂ : G2Pubs.PublicKey)
    (P₁ P₂ : E2) (k₁ : p₁.p.Denotes P₁) (k₂ : p₂.p.Denotes P₂) (o₁ : P₁ ≠ 0 ∧ r • P₁ = 0) (o₂ : P₂ ≠ 0 ∧ r • P₂ = 0)
    (t₁ t₂ : G2Pubs.Signature) (d₁ : t₁.s.Denotes T₁) (d₂ : t₂.s.Denotes T₂) (u₁ : r • T₁ = 0) (u₂ : r • T₂ = 0)
    (v₁ : G2Pubs.verify sha m₁ p₁ t₁ = some true) (v₂ : G2Pubs.verify sha m₂ p₂ t₂ = some true) (h0 : T₁ + T₂ ≠ 0) :
    ∃ s₁ s₂, G2Pubs.verify sha m₁ p₁ s₁ = some false ∧ G2Pubs.verify sha m₂ p₂ s₂ = some false ∧
      (G2Pubs.aggregateSignatures [s₁, s₂]).verifyAggregate sha [p₁, p₂] [m₁, m₂] = some true := by
  obtain ⟨a, rfl⟩ := E2.torsion o₁.2
  obtain ⟨b, rfl⟩ := E2.torsion o₂.2
  have k₁ := G2Projective.denotes_iff.mp k₁
  have k₂ := G2Projective.denotes_iff.mp k₂
  have e₁ := (G2Pubs.verify_spec h₁ k₁ o₁.1 (G1Projective.denotes_iff.mp d₁) u₁).1.mp v₁
  have e₂ := (G2Pubs.verify_spec h₂ k₂ o₂.1 (G1Projective.denotes_iff.mp d₂) u₂).1.mp v₂
  have hD : ∃ D : E1, r • D = 0 ∧ D ≠ 0 ∧ T₁ + D ≠ 0 ∧ T₂ - D ≠ 0 := by
    have ho : ∀ n : ℕ, 0 < n → n < 4 → n • g1Gen ≠ 0 := fun n h1 h2 h => by
      have := addOrderOf_dvd_of_nsmul_eq_zero h
      rw [addOrderOf_g1Gen] at this
      exact absurd (Nat.le_of_dvd h1 this) (Nat.not_le_of_lt (h2.trans (by rw [r_eq]; decide +kernel)))
    by_contra hc
    have key : ∀ n : ℕ, 0 < n → n < 4 → n • g1Gen = -T₁ ∨ n • g1Gen = T₂ := fun n h1 h2 => by
      by_contra hd
      push Not at hd
      exact hc ⟨n • g1Gen, by rw [smul_comm, r_smul_g1Gen, nsmul_zero], ho n h1 h2,
        fun e => hd.1 (eq_neg_of_add_eq_zero_right e), fun e => hd.2 (sub_eq_zero.mp e).symm⟩
    have g1 : g1Gen ≠ 0 := g1Gen_ne_zero
    have hd : ∀ n m : ℕ, n < m → m < 4 → n • g1Gen ≠ m • g1Gen := fun n m h1 h2 e => by
      refine ho (m - n) (Nat.sub_pos_of_lt h1) (lt_of_le_of_lt (Nat.sub_le _ _) h2) ?_
      obtain ⟨c, rfl⟩ := Nat.exists_eq_add_of_lt h1
      rw [show n + c + 1 - n = c + 1 by omega]
      rw [add_assoc, add_nsmul] at e
      exact (left_eq_add.mp e)
    rcases key 1 (by decide) (by decide) with a1 | a1 <;> rcases key 2 (by decide) (by decide) with a2 | a2 <;>
      rcases key 3 (by decide) (by decide) with a3 | a3
    · exact hd 1 2 (by decide) (by decide) (a1.trans a2.symm)
    · exact hd 1 2 (by decide) (by decide) (a1.trans a2.symm)
    · exact hd 1 3 (by decide) (by decide) (a1.trans a3.symm)
    · exact hd 2 3 (by decide) (by decide) (a2.trans a3.symm)
    · exact hd 2 3 (by decide) (by decide) (a2.trans a3.symm)
    · exact hd 1 3 (by decide) (by decide) (a1.trans a3.symm)
    · exact hd 1 2 (by decide) (by decide) (a1.trans a2.symm)
    · exact hd 1 2 (by decide) (by decide) (a1.trans a2.symm)
  obtain ⟨D, w1, w2, w3, w4⟩ := hD
  obtain ⟨x₁, x1⟩ := G1Affine.exists_rep (T₁ + D)
  obtain ⟨x₂, x2⟩ := G1Affine.exists_rep (T₂ - D)
  have reject : ∀ {m : List UInt8} {H S : E1} {p : G2Pubs.PublicKey} {s : G2Pubs.Signature} {k : ℕ},
      G2Pubs.HashesTo sha m H → p.p.Rep (k • g2Gen) → k • g2Gen ≠ 0 → s.s.Rep S → r • S = 0 → S ≠ 0 → S ≠ k • H →
      G2Pubs.verify sha m p s = some false := fun {m H S p s k} c1 c2 c3 c4 c5 c6 c7 => by
    obtain ⟨q1, q2⟩ := G2Pubs.verify_spec c1 c2 c3 c4 c5
    rcases hv : G2Pubs.verify sha m p s with _ | _ | _
    · exact absurd hv (q2 c6)
    · rfl
    · exact absurd (q1.mp hv) c7
  refine ⟨⟨x₁.toProjective⟩, ⟨x₂.toProjective⟩, reject h₁ k₁ o₁.1 x1.toProjective (by rw [nsmul_add, u₁, w1, add_zero]) w3 ?_,
    reject h₂ k₂ o₂.1 x2.toProjective (by rw [nsmul_sub, u₂, w1, sub_zero]) w4 ?_, ?_⟩
  · rw [← e₁]
    exact fun e => w2 (add_eq_left.mp e)
  · rw [← e₂]
    exact fun e => w2 (sub_eq_self.mp e)
  · have hs := G2Pubs.aggregateSignatures_spec (l := [⟨x₁.toProjective⟩, ⟨x₂.toProjective⟩])
      (.cons x1.toProjective (.cons x2.toProjective .nil))
    have es : [T₁ + D, T₂ - D].sum = T₁ + T₂ := by
      rw [List.sum_cons, List.sum_cons, List.sum_nil]
      abel
    rw [es] at hs
    obtain ⟨c, hc, hc'⟩ := G2Pubs.verifyAggregate_spec (sha := sha) (ms := [m₁, m₂]) (ds := [(a, H₁), (b, H₂)])
      (.cons ⟨k₁, o₁.1, h₁⟩ (.cons ⟨k₂, o₂.1, h₂⟩ .nil)) hs (by rw [nsmul_add, u₁, u₂, add_zero]) h0
      (by simpa using hm) (by simpa using ⟨n₁, n₂⟩)
    rw [hc, hc'.mpr (by rw [e₁, e₂, G2Pubs.total]; simp)]

/-- Hypotheses of C76 that hold together: a batch of two with a valid and an invalid signature. -/
example : ∃ (sha : List UInt8 → List UInt8) (batch : List (G1Pubs.PublicKey × List UInt8 × G1Pubs.Signature)),
    batch.length = 2 ∧
    (∀ b ∈ batch, (∃ P, b.1.p.Denotes P ∧ P ≠ 0 ∧ r • P = 0) ∧ (∃ H, G1Pubs.HashesTo sha b.2.1 H) ∧
      ∃ S, b.2.2.s.Denotes S ∧ r • S = 0) ∧
    (batch.map fun b => b.2.1).Nodup ∧ [] ∉ (batch.map fun b => b.2.1) ∧
    (∃ b ∈ batch, G1Pubs.verify sha b.2.1 b.1 b.2.2 ≠ some true) ∧
    (∃ b ∈ batch, G1Pubs.verify sha b.2.1 b.1 b.2.2 = some true) ∧
    (weights batch.length).Nonempty := by
  obtain ⟨H, hH⟩ := Cases.case2
  obtain ⟨_, _, _, H0, hr⟩ := id (hH [])
  have hp : (⟨G1Affine.one.toProjective⟩ : G1Pubs.PublicKey).p.Rep (1 • g1Gen) := by
    rw [one_nsmul]; exact G1Affine.one_rep.toProjective
  have hp0 : (1 : ℕ) • g1Gen ≠ 0 := by rw [one_nsmul]; exact g1Gen_ne_zero
  obtain ⟨x, hx⟩ := G2Affine.exists_rep H
  obtain ⟨y, hy⟩ := G2Affine.exists_rep (2 • H)
  have hr2 : r • (2 • H) = 0 := by rw [smul_comm, hr, nsmul_zero]
  have hpd : ∃ P, G1Affine.one.toProjective.Denotes P ∧ P ≠ 0 ∧ r • P = 0 :=
    ⟨g1Gen, G1Projective.denotes_iff.mpr G1Affine.one_rep.toProjective, g1Gen_ne_zero, r_smul_g1Gen⟩
  refine ⟨Cases.sha2, [(⟨G1Affine.one.toProjective⟩, [1], ⟨x.toProjective⟩), (⟨G1Affine.one.toProjective⟩, [2], ⟨y.toProjective⟩)],
    rfl, ?_, (by decide : ([[1], [2]] : List (List UInt8)).Nodup),
    (by decide : [] ∉ ([[1], [2]] : List (List UInt8))), ⟨_, List.mem_cons_of_mem _ List.mem_cons_self, ?_⟩, ⟨_, List.mem_cons_self, ?_⟩, ?_⟩
  · intro b hb
    rcases List.mem_cons.mp hb with rfl | hb
    · exact ⟨hpd, ⟨H, hH _⟩, H, G2Projective.denotes_iff.mpr hx.toProjective, hr⟩
    · cases List.mem_singleton.mp hb
      exact ⟨hpd, ⟨H, hH _⟩, 2 • H, G2Projective.denotes_iff.mpr hy.toProjective, hr2⟩
  · intro h
    have := (G1Pubs.verify_spec (hH _) hp hp0 hy.toProjective hr2).1.mp h
    rw [two_nsmul, one_nsmul] at this
    exact H0 (add_eq_left.mp this)
  · exact (G1Pubs.verify_spec (hH _) hp hp0 hx.toProjective hr).1.mpr (one_nsmul H).symm
  · exact ⟨[FR.one, FR.one], rfl, by decide +kernel⟩

end Bls.Props
