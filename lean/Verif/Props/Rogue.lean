import Verif.Props.SigG1
import Verif.Props.SigG2
/-
C62: `VerifyAggregateCommon` without proofs of possession. Whoever picks a public key last can pick it so that a signature of
their own is accepted for a whole list of keys, without any signature by the others. The key is computed here by calls of
the library on public keys only.
-/
namespace Bls.Props

/-- `v := AggregatePublicKeys(victims).GetPoint().ToAffine(); v.NegAssign();
NewPublicKeyFromG1(own.GetPoint().Add(v.ToProjective()).ToAffine())`. -/
def rogueG1 (victims : List G1Pubs.PublicKey) (own : G1Pubs.PublicKey) : G1Pubs.PublicKey :=
  G1Pubs.newPublicKeyFromG1
    (own.getPoint.add (G1Pubs.aggregatePublicKeys victims).getPoint.toAffine.neg.toProjective).toAffine

/-- The same in g2pubs. -/
def rogueG2 (victims : List G2Pubs.PublicKey) (own : G2Pubs.PublicKey) : G2Pubs.PublicKey :=
  G2Pubs.newPublicKeyFromG2
    (own.getPoint.add (G2Pubs.aggregatePublicKeys victims).getPoint.toAffine.neg.toProjective).toAffine

theorem rogueG1_rep {victims : List G1Pubs.PublicKey} {Ps : List E1} (hv : List.Forall₂ (fun p P => p.p.Rep P) victims Ps)
    {own : G1Pubs.PublicKey} {P : E1} (ho : own.p.Rep P) : (rogueG1 victims own).p.Rep (P + -Ps.sum) :=
  (ho.add (G1Pubs.aggregatePublicKeys_spec hv).toAffine.neg.toProjective).toAffine.toProjective

theorem rogueG2_rep {victims : List G2Pubs.PublicKey} {Ps : List E2} (hv : List.Forall₂ (fun p P => p.p.Rep P) victims Ps)
    {own : G2Pubs.PublicKey} {P : E2} (ho : own.p.Rep P) : (rogueG2 victims own).p.Rep (P + -Ps.sum) :=
  (ho.add (G2Pubs.aggregatePublicKeys_spec hv).toAffine.neg.toProjective).toAffine.toProjective

theorem sum_torsion {A : Type} [AddCommGroup A] {Ps : List A} (h : ∀ P ∈ Ps, r • P = 0) : r • Ps.sum = 0 := by
  induction Ps with
  | nil => exact smul_zero _
  | cons P Ps ih =>
    rw [List.sum_cons, smul_add, h P List.mem_cons_self, ih fun Q hQ => h Q (List.mem_cons_of_mem _ hQ), add_zero]

theorem torsion_neg {A : Type} [AddCommGroup A] {P : A} (h : r • P = 0) : r • -P = 0 := by
  rw [smul_neg, h, neg_zero]

/-- For all public keys of others, every secret key and every message: the signature of one's own is accepted for the
others' keys together with the computed one, which is accepted on the wire. -/
theorem C62_rogue_g1pubs (sha : List UInt8 → List UInt8) (m : List UInt8) (H : E2) (hm : G1Pubs.HashesTo sha m H)
    (victims : List G1Pubs.PublicKey) (Ps : List E1) (hv : List.Forall₂ (fun p P => p.p.Denotes P) victims Ps)
    (hr : ∀ P ∈ Ps, r • P = 0) (sk : G1Pubs.SecretKey) (k : ℕ) (hk : sk.Holds k) (h0 : k ≠ 0) :
    ∃ own sig, G1Pubs.privToPub sk = some own ∧ G1Pubs.sign sha m sk = some sig ∧
      sig.verifyAggregateCommon sha (victims ++ [rogueG1 victims own]) m = some true ∧
      ∃ p, G1Pubs.deserializePublicKey (rogueG1 victims own).serialize = some p ∧
        sig.verifyAggregateCommon sha (victims ++ [p]) m = some true := by
  have hv := hv.imp fun _ _ h => G1Projective.denotes_iff.mp h
  obtain ⟨own, h1, h2⟩ := hk.toPub
  obtain ⟨sig, h3, h4⟩ := hk.sign hm
  obtain ⟨_, _, _, H0, hH⟩ := id hm
  have hkg := G1Pubs.nsmul_ne_of_lt g1Gen_ne_zero r_smul_g1Gen h0 hk.lt
  have hq := rogueG1_rep hv h2
  have acc : ∀ p : G1Pubs.PublicKey, p.p.Rep (k • g1Gen + -Ps.sum) →
      sig.verifyAggregateCommon sha (victims ++ [p]) m = some true := by
    intro p hp
    have ha := G1Pubs.aggregatePublicKeys_spec (List.rel_append hv (.cons hp .nil))
    rw [List.sum_append, List.sum_singleton, show Ps.sum + (k • g1Gen + -Ps.sum) = k • g1Gen by abel] at ha
    exact (G1Pubs.verify_spec hm ha hkg h4 (G1Pubs.torsion_nsmul hH k)).1.mpr rfl
  have ht : r • (k • g1Gen + -Ps.sum) = 0 := by
    rw [nsmul_add, G1Pubs.torsion_nsmul r_smul_g1Gen k, zero_add]
    exact torsion_neg (sum_torsion hr)
  obtain ⟨p, hp, hd⟩ := (C25_publicKey_g1pubs _ _ (G1Projective.denotes_iff.mpr hq) ht).2
  exact ⟨own, sig, h1, h3, acc _ hq, p, hp, acc _ (G1Projective.denotes_iff.mp hd)⟩

/-- The same in g2pubs. -/
theorem C62_rogue_g2pubs (sha : List UInt8 → List UInt8) (m : List UInt8) (H : E1) (hm : G2Pubs.HashesTo sha m H)
    (victims : List G2Pubs.PublicKey) (Ps : List E2) (hv : List.Forall₂ (fun p P => p.p.Denotes P) victims Ps)
    (hr : ∀ P ∈ Ps, r • P = 0) (sk : G2Pubs.SecretKey) (k : ℕ) (hk : sk.Holds k) (h0 : k ≠ 0) :
    ∃ own sig, G2Pubs.privToPub sk = some own ∧ G2Pubs.sign sha m sk = some sig ∧
      sig.verifyAggregateCommon sha (victims ++ [rogueG2 victims own]) m = some true ∧
      ∃ p, G2Pubs.deserializePublicKey (rogueG2 victims own).serialize = some p ∧
        sig.verifyAggregateCommon sha (victims ++ [p]) m = some true := by
  have hv := hv.imp fun _ _ h => G2Projective.denotes_iff.mp h
  obtain ⟨own, h1, h2⟩ := hk.toPub
  obtain ⟨sig, h3, h4⟩ := hk.sign hm
  obtain ⟨_, _, _, H0, hH⟩ := id hm
  have hkg := G1Pubs.nsmul_ne_of_lt g2Gen_ne_zero r_smul_g2Gen h0 hk.lt
  have hq := rogueG2_rep hv h2
  have acc : ∀ p : G2Pubs.PublicKey, p.p.Rep (k • g2Gen + -Ps.sum) →
      sig.verifyAggregateCommon sha (victims ++ [p]) m = some true := by
    intro p hp
    have ha := G2Pubs.aggregatePublicKeys_spec (List.rel_append hv (.cons hp .nil))
    rw [List.sum_append, List.sum_singleton, show Ps.sum + (k • g2Gen + -Ps.sum) = k • g2Gen by abel] at ha
    exact (G2Pubs.verify_spec hm ha hkg h4 (G1Pubs.torsion_nsmul hH k)).1.mpr rfl
  have ht : r • (k • g2Gen + -Ps.sum) = 0 := by
    rw [nsmul_add, G1Pubs.torsion_nsmul r_smul_g2Gen k, zero_add]
    exact torsion_neg (sum_torsion hr)
  obtain ⟨p, hp, hd⟩ := (C25_publicKey_g2pubs _ _ (G2Projective.denotes_iff.mpr hq) ht).2
  exact ⟨own, sig, h1, h3, acc _ hq, p, hp, acc _ (G2Projective.denotes_iff.mp hd)⟩

/-- With a domain. -/
theorem C62_rogue_domain_g1pubs (sha : List UInt8 → List UInt8) (m d : List UInt8) (H : E2)
    (hm : G1Pubs.HashesToIn sha d m H) (victims : List G1Pubs.PublicKey) (Ps : List E1)
    (hv : List.Forall₂ (fun p P => p.p.Denotes P) victims Ps) (sk : G1Pubs.SecretKey) (k : ℕ) (hk : sk.Holds k)
    (h0 : k ≠ 0) :
    ∃ own sig, G1Pubs.privToPub sk = some own ∧ G1Pubs.signWithDomain sha m sk d = some sig ∧
      sig.verifyAggregateCommonWithDomain sha (victims ++ [rogueG1 victims own]) m d = some true := by
  have hv := hv.imp fun _ _ h => G1Projective.denotes_iff.mp h
  obtain ⟨own, h1, h2⟩ := hk.toPub
  obtain ⟨sig, h3, h4⟩ := hk.signIn hm
  obtain ⟨_, _, _, H0, hH⟩ := id hm
  have hkg := G1Pubs.nsmul_ne_of_lt g1Gen_ne_zero r_smul_g1Gen h0 hk.lt
  have ha := G1Pubs.aggregatePublicKeys_spec (List.rel_append hv (.cons (rogueG1_rep hv h2) .nil))
  rw [List.sum_append, List.sum_singleton, show Ps.sum + (k • g1Gen + -Ps.sum) = k • g1Gen by abel] at ha
  exact ⟨own, sig, h1, h3, (G1Pubs.verifyWithDomain_spec hm ha hkg h4 (G1Pubs.torsion_nsmul hH k)).1.mpr rfl⟩

/-- `VerifyAggregateWithDomain`, which does not ask for distinct messages: the signature of one's own on `m` is accepted
as an aggregate of signatures on `m` by the others and by the computed key. -/
theorem C62_rogue_repeated_g1pubs (sha : List UInt8 → List UInt8) (m d : List UInt8) (H : E2)
    (hm : G1Pubs.HashesToIn sha d m H) (victims : List G1Pubs.PublicKey) (ks : List ℕ)
    (hv : List.Forall₂ (fun p k => p.p.Denotes (k • g1Gen)) victims ks) (hks : ∀ k ∈ ks, ¬ r ∣ k)
    (sk : G1Pubs.SecretKey) (k : ℕ) (hk : sk.Holds k) (h0 : k ≠ 0) (hne : k ≠ ks.sum % r) :
    ∃ own sig, G1Pubs.privToPub sk = some own ∧ G1Pubs.signWithDomain sha m sk d = some sig ∧
      sig.verifyAggregateWithDomain sha (victims ++ [rogueG1 victims own]) (victims.map (fun _ => m) ++ [m]) d =
        some true := by
  obtain ⟨own, h1, h2⟩ := hk.toPub
  obtain ⟨sig, h3, h4⟩ := hk.signIn hm
  obtain ⟨_, _, _, H0, hH⟩ := id hm
  have hlt := hk.lt
  have hsr := Nat.mod_lt ks.sum r_prime.pos
  have hj : ¬ r ∣ k + (r - ks.sum % r) := by
    rintro ⟨c, hc⟩
    rcases c with _ | _ | c
    · omega
    · omega
    · have : r * 2 ≤ r * (c + 1 + 1) := Nat.mul_le_mul_left r (by omega)
      omega
  have cancel : ∀ {A : Type} [AddCommGroup A] (x : A), r • x = 0 → ks.sum • x + (k + (r - ks.sum % r)) • x = k • x := by
    intro A _ x hx
    have h := Nat.mod_add_div ks.sum r
    rw [← add_nsmul, show ks.sum + (k + (r - ks.sum % r)) = k + (r * (ks.sum / r) + r) by omega, add_nsmul, add_nsmul,
      hx, mul_nsmul, hx, nsmul_zero, add_zero, add_zero]
  have hq := rogueG1_rep (List.forall₂_map_right_iff.mpr (hv.imp fun _ _ h => G1Projective.denotes_iff.mp h)) h2
  rw [← sum_nsmul_eq, ← cancel g1Gen r_smul_g1Gen, add_right_comm, add_neg_cancel, zero_add] at hq
  obtain ⟨batch, e1, e2, hb, e3⟩ : ∃ batch : List (G1Pubs.PublicKey × List UInt8 × ℕ × E2),
      (batch.map fun b => b.1) = victims ∧ (batch.map fun b => b.2.1) = victims.map (fun _ => m) ∧
      (∀ b ∈ batch, b.1.p.Denotes (b.2.2.1 • g1Gen) ∧ ¬ r ∣ b.2.2.1 ∧ G1Pubs.HashesToIn sha d b.2.1 b.2.2.2) ∧
      (batch.map fun b => b.2.2.1 • b.2.2.2).sum = ks.sum • H := by
    clear hj cancel hq hne hsr
    induction hv with
    | nil => exact ⟨[], rfl, rfl, fun _ h => (List.not_mem_nil h).elim, (zero_nsmul _).symm⟩
    | @cons p k' _ _ hp _ ih =>
      obtain ⟨batch, e1, e2, hb, e3⟩ := ih fun k hk => hks k (List.mem_cons_of_mem _ hk)
      refine ⟨(p, m, k', H) :: batch, by simp only [List.map_cons, e1], by simp only [List.map_cons, e2], ?_, ?_⟩
      · intro b hb'
        rcases List.mem_cons.mp hb' with rfl | hb'
        · exact ⟨hp, hks _ List.mem_cons_self, hm⟩
        · exact hb b hb'
      · rw [List.map_cons, List.sum_cons, List.sum_cons, e3, add_nsmul]
  obtain ⟨c, h5, h6⟩ := C39_domain_g1pubs sha d (batch ++ [(rogueG1 victims own, m, k + (r - ks.sum % r), H)])
    (by
      intro b hb'
      rcases List.mem_append.mp hb' with hb' | hb'
      · exact hb b hb'
      · obtain rfl := List.mem_singleton.mp hb'
        exact ⟨G1Projective.denotes_iff.mpr hq, hj, hm⟩)
    sig _ (G2Projective.denotes_iff.mpr h4) (G1Pubs.torsion_nsmul hH k) (G1Pubs.nsmul_ne_of_lt H0 hH h0 hlt)
  rw [List.map_append, List.map_append, e1, e2] at h5
  rw [List.map_append, List.sum_append, e3, List.map_singleton, List.sum_singleton, cancel H hH] at h6
  exact ⟨own, sig, h1, h3, by rw [← h6.mpr rfl]; exact h5⟩

/-- The hypotheses are met: one victim with the key 2, and the own key 5. -/
example : ∃ (sha : List UInt8 → List UInt8) (m d : List UInt8) (H : E2), G1Pubs.HashesToIn sha d m H ∧
    ∃ (p : G1Pubs.PublicKey) (sk : G1Pubs.SecretKey), p.p.Denotes (2 • g1Gen) ∧ ¬ r ∣ 2 ∧ sk.Holds 5 ∧
      5 ≠ [2].sum % r := by
  obtain ⟨H, hH⟩ := Cases.case3 [1] [2]
  obtain ⟨p, _, hp⟩ := ((C13_keyFromFQRepr_g1pubs (.new 2)).1 (by rw [r_eq]; decide +kernel)).toPub
  have h5 := (C13_keyFromFQRepr_g1pubs (.new 5)).1 (by rw [r_eq]; decide +kernel)
  exact ⟨_, _, _, H, hH, p, _, G1Projective.denotes_iff.mpr hp, by rw [r_eq]; decide +kernel, h5,
    by rw [r_eq]; decide +kernel⟩

/-- The victims may be any keys that `PrivToPub` returns: none of them signs, and the signature is not the sum that C37
asks of honest signers. -/
example : ∃ (sha : List UInt8 → List UInt8) (H : E2), (∀ m, G1Pubs.HashesTo sha m H) ∧ H ≠ 0 ∧
    (∀ (sk : G1Pubs.SecretKey) (k : ℕ), sk.Holds k → ∃ p, G1Pubs.privToPub sk = some p ∧ p.p.Denotes (k • g1Gen) ∧
      r • (k • g1Gen) = 0) := by
  obtain ⟨H, hH⟩ := Cases.case2
  obtain ⟨_, _, _, h0, _⟩ := hH []
  refine ⟨_, H, hH, h0, fun sk k hk => ?_⟩
  obtain ⟨p, h1, h2⟩ := hk.toPub
  exact ⟨p, h1, G1Projective.denotes_iff.mpr h2, G1Pubs.torsion_nsmul r_smul_g1Gen k⟩

end Bls.Props
