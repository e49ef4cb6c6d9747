import Verif.Props.SigG1
import Verif.Props.SigG2
/-
C66: for which other messages, domains and keys a signature verifies.
-/
set_option exponentiation.threshold 1000
namespace Bls.Props

/-- Equal multiples, below r and not 0, of points of order r: the points determine the factors and the factors the
points. -/
theorem nsmul_eq_iff {G : Type*} [AddCommGroup G] {k k' : ℕ} {H H' : G} (hH : H ≠ 0) (hr : r • H = 0)
    (hr' : r • H' = 0) (hk : k < r) (hk' : k' < r) (h0 : k ≠ 0) :
    (k • H = k' • H ↔ k = k') ∧ (k • H = k • H' ↔ H = H') := by
  have ho : addOrderOf H = r := addOrderOf_eq_prime (hp := ⟨r_prime⟩) hr hH
  constructor
  · rw [nsmul_eq_nsmul_iff_modEq, ho]
    exact ⟨fun h => by rwa [Nat.ModEq, Nat.mod_eq_of_lt hk, Nat.mod_eq_of_lt hk'] at h, fun h => h ▸ rfl⟩
  · refine ⟨fun h => ?_, fun h => h ▸ rfl⟩
    have h1 : k • (H - H') = 0 := by rw [nsmul_sub, h, sub_self]
    have h2 : r • (H - H') = 0 := by rw [nsmul_sub, hr, hr', sub_self]
    by_contra hne
    have := addOrderOf_dvd_of_nsmul_eq_zero h1
    rw [addOrderOf_eq_prime (hp := ⟨r_prime⟩) h2 (sub_ne_zero.mpr hne)] at this
    exact absurd (Nat.le_of_dvd (Nat.pos_of_ne_zero h0) this) (not_le.mpr hk)

/-- `Verify(m', PrivToPub(sk'), Sign(m, sk))` returns, and it is true exactly if `k·H(m) = k'·H(m')`; with one key,
exactly if the two messages hash to one point; with one message, exactly if the keys are equal. -/
theorem C66_transfer_g1pubs (sha : List UInt8 → List UInt8) (sk sk' : G1Pubs.SecretKey) (k k' : ℕ)
    (hk : sk.Holds k) (hk' : sk'.Holds k') (h0 : k ≠ 0) (h0' : k' ≠ 0) (m m' : List UInt8) (H H' : E2)
    (hm : G1Pubs.HashesTo sha m H) (hm' : G1Pubs.HashesTo sha m' H') :
    ∃ pub pub' sig c₁ c₂ c₃, G1Pubs.privToPub sk = some pub ∧ G1Pubs.privToPub sk' = some pub' ∧
      G1Pubs.sign sha m sk = some sig ∧
      G1Pubs.verify sha m' pub' sig = some c₁ ∧ (c₁ = true ↔ k • H = k' • H') ∧
      G1Pubs.verify sha m' pub sig = some c₂ ∧ (c₂ = true ↔ H = H') ∧
      G1Pubs.verify sha m pub' sig = some c₃ ∧ (c₃ = true ↔ k = k') := by
  obtain ⟨pub, p1, p2⟩ := hk.toPub
  obtain ⟨pub', p1', p2'⟩ := hk'.toPub
  obtain ⟨sig, s1, s2⟩ := hk.sign hm
  obtain ⟨_, _, _, H0, hr⟩ := id hm
  obtain ⟨_, _, _, H0', hr'⟩ := id hm'
  have hkg := G1Pubs.nsmul_ne_of_lt g1Gen_ne_zero r_smul_g1Gen h0 hk.lt
  have hkg' := G1Pubs.nsmul_ne_of_lt g1Gen_ne_zero r_smul_g1Gen h0' hk'.lt
  have hS := G1Pubs.nsmul_ne_of_lt H0 hr h0 hk.lt
  have hSr : r • (k • H) = 0 := G1Pubs.torsion_nsmul hr k
  obtain ⟨a1, b1⟩ := G1Pubs.verify_spec hm' p2' hkg' s2 hSr
  obtain ⟨a2, b2⟩ := G1Pubs.verify_spec hm' p2 hkg s2 hSr
  obtain ⟨c₁, e1⟩ := Option.ne_none_iff_exists'.mp (b1 hS)
  obtain ⟨c₂, e2⟩ := Option.ne_none_iff_exists'.mp (b2 hS)
  rw [e1, Option.some_inj] at a1
  rw [e2, Option.some_inj, (nsmul_eq_iff H0 hr hr' hk.lt hk.lt h0).2] at a2
  obtain ⟨a3, b3⟩ := G1Pubs.verify_spec hm p2' hkg' s2 hSr
  obtain ⟨c₃, e3⟩ := Option.ne_none_iff_exists'.mp (b3 hS)
  rw [e3, Option.some_inj, (nsmul_eq_iff H0 hr hr hk.lt hk'.lt h0).1] at a3
  exact ⟨pub, pub', sig, c₁, c₂, c₃, p1, p1', s1, e1, a1, e2, a2, e3, a3⟩

/-- `Verify(m', PrivToPub(sk'), Sign(m, sk))` returns, and it is true exactly if `k·H(m) = k'·H(m')`; with one key,
exactly if the two messages hash to one point; with one message, exactly if the keys are equal. -/
theorem C66_transfer_g2pubs (sha : List UInt8 → List UInt8) (sk sk' : G2Pubs.SecretKey) (k k' : ℕ)
    (hk : sk.Holds k) (hk' : sk'.Holds k') (h0 : k ≠ 0) (h0' : k' ≠ 0) (m m' : List UInt8) (H H' : E1)
    (hm : G2Pubs.HashesTo sha m H) (hm' : G2Pubs.HashesTo sha m' H') :
    ∃ pub pub' sig c₁ c₂ c₃, G2Pubs.privToPub sk = some pub ∧ G2Pubs.privToPub sk' = some pub' ∧
      G2Pubs.sign sha m sk = some sig ∧
      G2Pubs.verify sha m' pub' sig = some c₁ ∧ (c₁ = true ↔ k • H = k' • H') ∧
      G2Pubs.verify sha m' pub sig = some c₂ ∧ (c₂ = true ↔ H = H') ∧
      G2Pubs.verify sha m pub' sig = some c₃ ∧ (c₃ = true ↔ k = k') := by
  obtain ⟨pub, p1, p2⟩ := hk.toPub
  obtain ⟨pub', p1', p2'⟩ := hk'.toPub
  obtain ⟨sig, s1, s2⟩ := hk.sign hm
  obtain ⟨_, _, _, H0, hr⟩ := id hm
  obtain ⟨_, _, _, H0', hr'⟩ := id hm'
  have hkg := G1Pubs.nsmul_ne_of_lt g2Gen_ne_zero r_smul_g2Gen h0 hk.lt
  have hkg' := G1Pubs.nsmul_ne_of_lt g2Gen_ne_zero r_smul_g2Gen h0' hk'.lt
  have hS := G1Pubs.nsmul_ne_of_lt H0 hr h0 hk.lt
  have hSr : r • (k • H) = 0 := G1Pubs.torsion_nsmul hr k
  obtain ⟨a1, b1⟩ := G2Pubs.verify_spec hm' p2' hkg' s2 hSr
  obtain ⟨a2, b2⟩ := G2Pubs.verify_spec hm' p2 hkg s2 hSr
  obtain ⟨c₁, e1⟩ := Option.ne_none_iff_exists'.mp (b1 hS)
  obtain ⟨c₂, e2⟩ := Option.ne_none_iff_exists'.mp (b2 hS)
  rw [e1, Option.some_inj] at a1
  rw [e2, Option.some_inj, (nsmul_eq_iff H0 hr hr' hk.lt hk.lt h0).2] at a2
  obtain ⟨a3, b3⟩ := G2Pubs.verify_spec hm p2' hkg' s2 hSr
  obtain ⟨c₃, e3⟩ := Option.ne_none_iff_exists'.mp (b3 hS)
  rw [e3, Option.some_inj, (nsmul_eq_iff H0 hr hr hk.lt hk'.lt h0).1] at a3
  exact ⟨pub, pub', sig, c₁, c₂, c₃, p1, p1', s1, e1, a1, e2, a2, e3, a3⟩

/-- The same with domains: a signature made in the domain `d` verifies in the domain `d'` exactly if the two pairs of
message and domain hash to one point. -/
theorem C66_domain_g1pubs (sha : List UInt8 → List UInt8) (sk sk' : G1Pubs.SecretKey) (k k' : ℕ)
    (hk : sk.Holds k) (hk' : sk'.Holds k') (h0 : k ≠ 0) (h0' : k' ≠ 0) (m m' d d' : List UInt8) (H H' : E2)
    (hm : G1Pubs.HashesToIn sha d m H) (hm' : G1Pubs.HashesToIn sha d' m' H') :
    ∃ pub pub' sig c₁ c₂ c₃, G1Pubs.privToPub sk = some pub ∧ G1Pubs.privToPub sk' = some pub' ∧
      G1Pubs.signWithDomain sha m sk d = some sig ∧
      G1Pubs.verifyWithDomain sha m' pub' sig d' = some c₁ ∧ (c₁ = true ↔ k • H = k' • H') ∧
      G1Pubs.verifyWithDomain sha m' pub sig d' = some c₂ ∧ (c₂ = true ↔ H = H') ∧
      G1Pubs.verifyWithDomain sha m pub' sig d = some c₃ ∧ (c₃ = true ↔ k = k') := by
  obtain ⟨pub, p1, p2⟩ := hk.toPub
  obtain ⟨pub', p1', p2'⟩ := hk'.toPub
  obtain ⟨sig, s1, s2⟩ := hk.signIn hm
  obtain ⟨_, _, _, H0, hr⟩ := id hm
  obtain ⟨_, _, _, H0', hr'⟩ := id hm'
  have hkg := G1Pubs.nsmul_ne_of_lt g1Gen_ne_zero r_smul_g1Gen h0 hk.lt
  have hkg' := G1Pubs.nsmul_ne_of_lt g1Gen_ne_zero r_smul_g1Gen h0' hk'.lt
  have hS := G1Pubs.nsmul_ne_of_lt H0 hr h0 hk.lt
  have hSr : r • (k • H) = 0 := G1Pubs.torsion_nsmul hr k
  obtain ⟨a1, b1⟩ := G1Pubs.verifyWithDomain_spec hm' p2' hkg' s2 hSr
  obtain ⟨a2, b2⟩ := G1Pubs.verifyWithDomain_spec hm' p2 hkg s2 hSr
  obtain ⟨c₁, e1⟩ := Option.ne_none_iff_exists'.mp (b1 hS)
  obtain ⟨c₂, e2⟩ := Option.ne_none_iff_exists'.mp (b2 hS)
  rw [e1, Option.some_inj] at a1
  rw [e2, Option.some_inj, (nsmul_eq_iff H0 hr hr' hk.lt hk.lt h0).2] at a2
  obtain ⟨a3, b3⟩ := G1Pubs.verifyWithDomain_spec hm p2' hkg' s2 hSr
  obtain ⟨c₃, e3⟩ := Option.ne_none_iff_exists'.mp (b3 hS)
  rw [e3, Option.some_inj, (nsmul_eq_iff H0 hr hr hk.lt hk'.lt h0).1] at a3
  exact ⟨pub, pub', sig, c₁, c₂, c₃, p1, p1', s1, e1, a1, e2, a2, e3, a3⟩

/-- A signature made without a domain verifies in a domain exactly if the two hash functions meet. -/
theorem C66_toDomain_g1pubs (sha : List UInt8 → List UInt8) (sk sk' : G1Pubs.SecretKey) (k k' : ℕ)
    (hk : sk.Holds k) (hk' : sk'.Holds k') (h0 : k ≠ 0) (h0' : k' ≠ 0) (m m' d' : List UInt8) (H H' : E2)
    (hm : G1Pubs.HashesTo sha m H) (hm' : G1Pubs.HashesToIn sha d' m' H') :
    ∃ pub pub' sig c₁ c₂, G1Pubs.privToPub sk = some pub ∧ G1Pubs.privToPub sk' = some pub' ∧
      G1Pubs.sign sha m sk = some sig ∧
      G1Pubs.verifyWithDomain sha m' pub' sig d' = some c₁ ∧ (c₁ = true ↔ k • H = k' • H') ∧
      G1Pubs.verifyWithDomain sha m' pub sig d' = some c₂ ∧ (c₂ = true ↔ H = H') := by
  obtain ⟨pub, p1, p2⟩ := hk.toPub
  obtain ⟨pub', p1', p2'⟩ := hk'.toPub
  obtain ⟨sig, s1, s2⟩ := hk.sign hm
  obtain ⟨_, _, _, H0, hr⟩ := id hm
  obtain ⟨_, _, _, H0', hr'⟩ := id hm'
  have hkg := G1Pubs.nsmul_ne_of_lt g1Gen_ne_zero r_smul_g1Gen h0 hk.lt
  have hkg' := G1Pubs.nsmul_ne_of_lt g1Gen_ne_zero r_smul_g1Gen h0' hk'.lt
  have hS := G1Pubs.nsmul_ne_of_lt H0 hr h0 hk.lt
  have hSr : r • (k • H) = 0 := G1Pubs.torsion_nsmul hr k
  obtain ⟨a1, b1⟩ := G1Pubs.verifyWithDomain_spec hm' p2' hkg' s2 hSr
  obtain ⟨a2, b2⟩ := G1Pubs.verifyWithDomain_spec hm' p2 hkg s2 hSr
  obtain ⟨c₁, e1⟩ := Option.ne_none_iff_exists'.mp (b1 hS)
  obtain ⟨c₂, e2⟩ := Option.ne_none_iff_exists'.mp (b2 hS)
  rw [e1, Option.some_inj] at a1
  rw [e2, Option.some_inj, (nsmul_eq_iff H0 hr hr' hk.lt hk.lt h0).2] at a2
  exact ⟨pub, pub', sig, c₁, c₂, p1, p1', s1, e1, a1, e2, a2⟩

/-- A signature made in a domain verifies without one exactly if the two hash functions meet. -/
theorem C66_fromDomain_g1pubs (sha : List UInt8 → List UInt8) (sk sk' : G1Pubs.SecretKey) (k k' : ℕ)
    (hk : sk.Holds k) (hk' : sk'.Holds k') (h0 : k ≠ 0) (h0' : k' ≠ 0) (m m' d : List UInt8) (H H' : E2)
    (hm : G1Pubs.HashesToIn sha d m H) (hm' : G1Pubs.HashesTo sha m' H') :
    ∃ pub pub' sig c₁ c₂, G1Pubs.privToPub sk = some pub ∧ G1Pubs.privToPub sk' = some pub' ∧
      G1Pubs.signWithDomain sha m sk d = some sig ∧
      G1Pubs.verify sha m' pub' sig = some c₁ ∧ (c₁ = true ↔ k • H = k' • H') ∧
      G1Pubs.verify sha m' pub sig = some c₂ ∧ (c₂ = true ↔ H = H') := by
  obtain ⟨pub, p1, p2⟩ := hk.toPub
  obtain ⟨pub', p1', p2'⟩ := hk'.toPub
  obtain ⟨sig, s1, s2⟩ := hk.signIn hm
  obtain ⟨_, _, _, H0, hr⟩ := id hm
  obtain ⟨_, _, _, H0', hr'⟩ := id hm'
  have hkg := G1Pubs.nsmul_ne_of_lt g1Gen_ne_zero r_smul_g1Gen h0 hk.lt
  have hkg' := G1Pubs.nsmul_ne_of_lt g1Gen_ne_zero r_smul_g1Gen h0' hk'.lt
  have hS := G1Pubs.nsmul_ne_of_lt H0 hr h0 hk.lt
  have hSr : r • (k • H) = 0 := G1Pubs.torsion_nsmul hr k
  obtain ⟨a1, b1⟩ := G1Pubs.verify_spec hm' p2' hkg' s2 hSr
  obtain ⟨a2, b2⟩ := G1Pubs.verify_spec hm' p2 hkg s2 hSr
  obtain ⟨c₁, e1⟩ := Option.ne_none_iff_exists'.mp (b1 hS)
  obtain ⟨c₂, e2⟩ := Option.ne_none_iff_exists'.mp (b2 hS)
  rw [e1, Option.some_inj] at a1
  rw [e2, Option.some_inj, (nsmul_eq_iff H0 hr hr' hk.lt hk.lt h0).2] at a2
  exact ⟨pub, pub', sig, c₁, c₂, p1, p1', s1, e1, a1, e2, a2⟩

/-- There are two different keys, and messages and hash functions as in the theorems. -/
example : (∃ (sk sk' : G1Pubs.SecretKey) (k k' : ℕ), sk.Holds k ∧ sk'.Holds k' ∧ k ≠ 0 ∧ k' ≠ 0 ∧ k ≠ k') ∧
    (∃ sha H, ∀ m, G1Pubs.HashesTo sha m H) ∧ (∃ sha H, ∀ m, G2Pubs.HashesTo sha m H) ∧
    ∃ sha, ∀ m d, ∃ H, G1Pubs.HashesToIn sha d m H := by
  refine ⟨⟨_, _, 1, 2, (C13_keyFromFQRepr_g1pubs (.new 1)).1 (by decide +kernel),
    (C13_keyFromFQRepr_g1pubs (.new 2)).1 (by decide +kernel), by decide, by decide, by decide⟩, ?_, ?_, _, Cases.case3⟩
  · obtain ⟨H, hH⟩ := Cases.case2
    exact ⟨_, H, hH⟩
  · obtain ⟨H, hH⟩ := Cases.case1
    exact ⟨_, H, hH⟩

end Bls.Props
