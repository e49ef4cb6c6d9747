import Verif.Spec.Steps
import Verif.Props.SigG1
import Verif.Props.SigG2
import Mathlib.Data.Nat.Size
/-
C67: what the sequence of point operations of `PrivToPub`, `Sign` and `SignWithDomain` reveals.
-/
set_option exponentiation.threshold 1000
namespace Bls.Props

/-- The steps for the digits `k - 1, …, 0` of `b`. -/
def lowSteps (b : ℕ) : ℕ → List Step
  | 0 => []
  | k + 1 => (if b.testBit k then [.double, .add] else [.double]) ++ lowSteps b k

theorem scalarLoop_logged {α : Type} (dbl add : α → α) {bit : ℕ → Option Bool} {n b : ℕ}
    (hbit : ∀ i < n, bit i = some (b.testBit i)) : ∀ (k i : ℕ) (res : α) (log : List Step), i + k = n →
      scalarLoop (logged .double dbl) (logged .add add) bit n k i (res, log) =
        (scalarLoop dbl add bit n k i res).map fun o => (o, log ++ lowSteps b k)
  | 0, i, res, log, _ => by simp [scalarLoop, lowSteps]
  | k + 1, i, res, log, h => by
    have e : n - i - 1 = k := by omega
    rw [scalarLoop, scalarLoop, e, hbit k (by omega)]
    cases hb : b.testBit k
    · simp only [logged, Bool.false_eq_true, if_false]
      rw [scalarLoop_logged dbl add hbit k (i + 1) _ _ (by omega)]
      simp [lowSteps, hb]
    · simp only [logged, if_true]
      rw [scalarLoop_logged dbl add hbit k (i + 1) _ _ (by omega)]
      simp [lowSteps, hb]

theorem lowSteps_eq (b k : ℕ) : lowSteps b k =
    ((List.range k).map b.testBit).reverse.flatMap fun b => if b then [.double, .add] else [.double] := by
  induction k with
  | zero => rfl
  | succ k ih => rw [lowSteps, ih, List.range_succ]; simp

theorem bits_eq (b : ℕ) : b.bits = (List.range b.size).map b.testBit := by
  apply List.ext_getElem
  · simp [Nat.size_eq_bits_len]
  · intro i h1 h2
    rw [List.getElem_map, List.getElem_range, Nat.testBit_eq_inth, List.getI_eq_getElem _ h1]

theorem lowSteps_size (b : ℕ) : lowSteps b b.size = digitSteps b := by rw [lowSteps_eq, digitSteps, bits_eq]

theorem natBitLen_size (b : ℕ) : natBitLen b = b.size :=
  le_antisymm (natBitLen_le.mpr (Nat.lt_size_self b)) (Nat.size_le.mpr (lt_natBitLen b))

/-- The steps determine the number. -/
theorem C67_observed (k : ℕ) : observed (digitSteps k) = k := by
  have key : ∀ j n, (lowSteps k j).foldl Step.guess n =
      n * 2 ^ j + k % 2 ^ j := by
    intro j
    induction j with
    | zero => intro n; simp [lowSteps, Nat.mod_one]
    | succ j ih =>
      intro n
      rw [lowSteps, List.foldl_append, ih]
      have h := Nat.mod_pow_succ (b := 2) (k := j) (x := k)
      have ht : k / 2 ^ j % 2 = (k.testBit j).toNat := by
        rw [Nat.testBit_eq_decide_div_mod_eq]
        rcases Nat.mod_two_eq_zero_or_one (k / 2 ^ j) with h | h <;> simp [h]
      rw [h, ht, pow_succ]
      cases k.testBit j <;> simp [Step.guess] <;> ring
  rw [observed, ← lowSteps_size, key, zero_mul, zero_add, Nat.mod_eq_of_lt (Nat.lt_size_self k)]

/-- They are as many doublings as the number has binary digits, and as many additions as it has ones. -/
theorem C67_counts (k : ℕ) : (digitSteps k).count .double = k.size ∧ (digitSteps k).count .add = k.bits.count true := by
  rw [digitSteps, ← Nat.size_eq_bits_len]
  generalize k.bits = l
  constructor
  · induction l with
    | nil => rfl
    | cons b l ih => cases b <;> simp_all
  · induction l with
    | nil => rfl
    | cons b l ih => cases b <;> simp_all

theorem frLoop_logged {α : Type} (dbl add : α → α) (zero : α) (b : FRRepr) :
    scalarLoop (logged .double dbl) (logged .add add) b.bit b.bitLen b.bitLen 0 (zero, []) =
      (scalarLoop dbl add b.bit b.bitLen b.bitLen 0 zero).map fun o => (o, digitSteps b.toNat) := by
  rw [scalarLoop_logged (b := b.toNat) dbl add ?_ _ _ _ _ (zero_add _)]
  · rw [List.nil_append, FRRepr.bitLen_spec, natBitLen_size, lowSteps_size]
  · intro i hi
    rw [FRRepr.bit_spec, if_pos]
    have := natBitLen_le.mpr b.toNat_lt
    rw [FRRepr.bitLen_spec] at hi
    omega

/-- Deriving the public key of the scalar `k` makes the steps of the digits of `k`, so an observer of the steps
learns the key. The first component is what `PrivToPub` returns. -/
theorem C67_privToPub_g1pubs (sk : G1Pubs.SecretKey) (k : ℕ) (hk : sk.Holds k) :
    ∃ pub, G1Pubs.privToPub sk = some pub ∧ G1Pubs.privToPubLogged sk = some (pub, digitSteps k) ∧
      observed (digitSteps k) = k := by
  obtain ⟨f, hf, _, rfl⟩ := hk
  obtain ⟨o, h, _⟩ := G1Affine.one_rep.mulFR? f.toRepr
  refine ⟨⟨o⟩, ?_, ?_, C67_observed _⟩
  · rw [G1Pubs.privToPub, hf, Option.map_some, G1Affine.mulFR, h]; rfl
  · rw [G1Affine.mulFR?] at h
    rw [G1Pubs.privToPubLogged, hf, Option.bind_some, G1Affine.mulFRLogged, frLoop_logged, h]; rfl

/-- Deriving the public key of the scalar `k` makes the steps of the digits of `k`, so an observer of the steps
learns the key. The first component is what `PrivToPub` returns. -/
theorem C67_privToPub_g2pubs (sk : G2Pubs.SecretKey) (k : ℕ) (hk : sk.Holds k) :
    ∃ pub, G2Pubs.privToPub sk = some pub ∧ G2Pubs.privToPubLogged sk = some (pub, digitSteps k) ∧
      observed (digitSteps k) = k := by
  obtain ⟨f, hf, _, rfl⟩ := hk
  obtain ⟨o, h, _⟩ := G2Affine.one_rep.mulFR? f.toRepr
  refine ⟨⟨o⟩, ?_, ?_, C67_observed _⟩
  · rw [G2Pubs.privToPub, hf, Option.map_some, G2Affine.mulFR, h]; rfl
  · rw [G2Affine.mulFR?] at h
    rw [G2Pubs.privToPubLogged, hf, Option.bind_some, G2Affine.mulFRLogged, frLoop_logged, h]; rfl

/-- Signing makes the steps of the digits of the key, whatever the message. -/
theorem C67_sign_g1pubs (sha : List UInt8 → List UInt8) (m : List UInt8) (H : E2) (hm : G1Pubs.HashesTo sha m H)
    (sk : G1Pubs.SecretKey) (k : ℕ) (hk : sk.Holds k) :
    ∃ sig, G1Pubs.sign sha m sk = some sig ∧ G1Pubs.signLogged sha m sk = some (sig, digitSteps k) ∧
      observed (digitSteps k) = k := by
  obtain ⟨f, hf, _, rfl⟩ := hk
  obtain ⟨a, ha, hd, _⟩ := hm
  obtain ⟨o, h, _⟩ := (G2Affine.denotes_iff.mp hd).mulFR? f.toRepr
  refine ⟨⟨o⟩, ?_, ?_, C67_observed _⟩
  · rw [G1Pubs.sign, ha, hf, Option.bind_some, Option.map_some, G2Affine.mulFR, h]; rfl
  · rw [G2Affine.mulFR?] at h
    rw [G1Pubs.signLogged, ha, hf, Option.bind_some, Option.bind_some, G2Affine.mulFRLogged, frLoop_logged, h]; rfl

/-- Signing makes the steps of the digits of the key, whatever the message. -/
theorem C67_sign_g2pubs (sha : List UInt8 → List UInt8) (m : List UInt8) (H : E1) (hm : G2Pubs.HashesTo sha m H)
    (sk : G2Pubs.SecretKey) (k : ℕ) (hk : sk.Holds k) :
    ∃ sig, G2Pubs.sign sha m sk = some sig ∧ G2Pubs.signLogged sha m sk = some (sig, digitSteps k) ∧
      observed (digitSteps k) = k := by
  obtain ⟨f, hf, _, rfl⟩ := hk
  obtain ⟨a, ha, hd, _⟩ := hm
  obtain ⟨o, h, _⟩ := (G1Affine.denotes_iff.mp hd).mulFR? f.toRepr
  refine ⟨⟨o⟩, ?_, ?_, C67_observed _⟩
  · rw [G2Pubs.sign, ha, hf, Option.bind_some, Option.map_some, G1Affine.mulFR, h]; rfl
  · rw [G1Affine.mulFR?] at h
    rw [G2Pubs.signLogged, ha, hf, Option.bind_some, Option.bind_some, G1Affine.mulFRLogged, frLoop_logged, h]; rfl

/-- The same with a domain. -/
theorem C67_signWithDomain_g1pubs (sha : List UInt8 → List UInt8) (m d : List UInt8) (H : E2)
    (hm : G1Pubs.HashesToIn sha d m H) (sk : G1Pubs.SecretKey) (k : ℕ) (hk : sk.Holds k) :
    ∃ sig, G1Pubs.signWithDomain sha m sk d = some sig ∧
      G1Pubs.signWithDomainLogged sha m sk d = some (sig, digitSteps k) ∧ observed (digitSteps k) = k := by
  obtain ⟨f, hf, _, rfl⟩ := hk
  obtain ⟨a, ha, hd, _⟩ := hm
  obtain ⟨o, h, _⟩ := (G2Projective.denotes_iff.mp hd).mulFR? f.toRepr
  refine ⟨⟨o⟩, ?_, ?_, C67_observed _⟩
  · rw [G1Pubs.signWithDomain, ha, hf, Option.bind_some, Option.map_some, G2Projective.mulFR, h]; rfl
  · rw [G2Projective.mulFR?] at h
    rw [G1Pubs.signWithDomainLogged, ha, hf, Option.bind_some, Option.bind_some, G2Projective.mulFRLogged,
      frLoop_logged, h]
    rfl

/-- So the steps are not the same for all keys: keys 1 and 2 make different numbers of them. -/
theorem C67_not_constant : ¬ ∀ sk sk' : G1Pubs.SecretKey, ∀ k k', sk.Holds k → sk'.Holds k' → k ≠ 0 → k' ≠ 0 →
    (G1Pubs.privToPubLogged sk).map (fun o => o.2.length) = (G1Pubs.privToPubLogged sk').map fun o => o.2.length := by
  intro h
  have h1 := (C13_keyFromFQRepr_g1pubs (.new 1)).1 (by decide +kernel)
  have h2 := (C13_keyFromFQRepr_g1pubs (.new 2)).1 (by decide +kernel)
  obtain ⟨_, _, e1, _⟩ := C67_privToPub_g1pubs _ _ h1
  obtain ⟨_, _, e2, _⟩ := C67_privToPub_g1pubs _ _ h2
  have := h _ _ _ _ h1 h2 (by decide) (by decide)
  rw [e1, e2, Option.map_some, Option.map_some, Option.some_inj] at this
  revert this
  change (digitSteps (FRRepr.new 1).toNat).length = (digitSteps (FRRepr.new 2).toNat).length → False
  have t : (FRRepr.new 1).toNat = 1 ∧ (FRRepr.new 2).toNat = 2 := by decide +kernel
  rw [t.1, t.2]
  decide

/-- Keys, messages and hash functions as in the theorems. -/
example : (∃ (sk : G1Pubs.SecretKey) (k : ℕ), sk.Holds k ∧ k = 5 ∧
      digitSteps k = [.double, .add, .double, .double, .add]) ∧
    (∃ sha H, ∀ m, G1Pubs.HashesTo sha m H) ∧ (∃ sha H, ∀ m, G2Pubs.HashesTo sha m H) ∧
    ∃ sha, ∀ m d, ∃ H, G1Pubs.HashesToIn sha d m H := by
  refine ⟨⟨_, 5, (C13_keyFromFQRepr_g1pubs (.new 5)).1 (by decide +kernel), rfl, by decide⟩,
    ?_, ?_, _, Cases.case3⟩
  · obtain ⟨H, hH⟩ := Cases.case2
    exact ⟨_, H, hH⟩
  · obtain ⟨H, hH⟩ := Cases.case1
    exact ⟨_, H, hH⟩

end Bls.Props
