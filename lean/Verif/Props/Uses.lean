import Verif.Proof.UsesLib2
import Verif.Proof.HashCases
/-
C85: a program that uses g1pubs or g2pubs sees what it would see with the ideal signature scheme. Programs and the ideal
scheme: Verif/Spec/Uses.lean.
-/
namespace Bls.Props

open Uses

theorem uses_of_rel {K P S K' P' S' : Type} {s : Setting} {G : Package K P S} {G' : Package K' P' S'} {RK : K → K' → Prop}
    {RP : P → P' → Prop} {RS : S → S' → Prop} (H : Related s G G' RK RP RS) (p : Prog s) {v : Vars K P S} {w : Vars K' P' S'}
    (h : Match RK RP RS v w) :
    (p.run G v = none ↔ p.run G' w = none) ∧
      ∀ v' o, p.run G v = some (v', o) → ∃ w', p.run G' w = some (w', o) ∧ Match RK RP RS v' w' := by
  have hr := H.run p h
  generalize p.run G v = y at hr
  generalize p.run G' w = x at hr
  cases hr with
  | none => exact ⟨⟨fun _ => rfl, fun _ => rfl⟩, fun _ _ e => by cases e⟩
  | some hx =>
    refine ⟨⟨fun h => (Option.some_ne_none _ h).elim, fun h => (Option.some_ne_none _ h).elim⟩, fun v' o e => ?_⟩
    rw [Option.some.injEq] at e
    subst e
    exact ⟨_, congrArg some (Prod.ext rfl hx.2.symm), hx.1⟩

/-- g1pubs: there are points for the messages and encodings, of which that of public keys is unique, with which every program
sees what it would see with the ideal scheme, and panics exactly if it would panic there; the keys and signatures it makes are
those of the ideal scheme. -/
theorem C85_g1pubs (sha : List UInt8 → List UInt8) : ∃ (c : Choice E2) (G : E1), (G ≠ 0 ∧ r • G = 0) ∧
    c.Lawful (setting1 sha) (G1Pubs.HashesTo sha) (G1Pubs.HashesToIn sha) ∧
    (∀ b x, b.length = 48 → c.decPub b = some x → b = c.encPub x) ∧
    ∀ (p : Prog (setting1 sha)) (v : Vars G1Pubs.SecretKey G1Pubs.PublicKey G1Pubs.Signature)
      (w : Vars (Option (ZMod r)) (ZMod r) E2), Match Key1 (Pub1 G) Sig1 v w →
      (p.run (g1pubs sha) v = none ↔ p.run (ideal sha c) w = none) ∧
      ∀ v' o, p.run (g1pubs sha) v = some (v', o) →
        ∃ w', p.run (ideal sha c) w = some (w', o) ∧ Match Key1 (Pub1 G) Sig1 v' w' :=
  ⟨choice1 sha, g1Gen, ⟨g1Gen_ne_zero, r_smul_g1Gen⟩, lawful1, fun _ x hb h => (decPub1 hb x).mp h,
    fun p _ _ h => uses_of_rel related1 p h⟩

/-- g2pubs: the same; here the encoding of signatures is unique. -/
theorem C85_g2pubs (sha : List UInt8 → List UInt8) : ∃ (c : Choice E1) (G : E2), (G ≠ 0 ∧ r • G = 0) ∧
    c.Lawful (setting2 sha) (G2Pubs.HashesTo sha) (fun _ _ _ => True) ∧
    (∀ b S, b.length = 48 → c.decSig b = some S → b = c.encSig S) ∧
    ∀ (p : Prog (setting2 sha)) (v : Vars G2Pubs.SecretKey G2Pubs.PublicKey G2Pubs.Signature)
      (w : Vars (Option (ZMod r)) (ZMod r) E1), Match Key2 (Pub2 G) Sig2 v w →
      (p.run (g2pubs sha) v = none ↔ p.run (ideal sha c) w = none) ∧
      ∀ v' o, p.run (g2pubs sha) v = some (v', o) →
        ∃ w', p.run (ideal sha c) w = some (w', o) ∧ Match Key2 (Pub2 G) Sig2 v' w' :=
  ⟨choice2 sha, g2Gen, ⟨g2Gen_ne_zero, r_smul_g2Gen⟩, lawful2, fun _ _ hb h => decSig2 hb h,
    fun p _ _ h => uses_of_rel related2 p h⟩

/-- A program that starts with no keys and signatures. -/
theorem match_nil {K P S K' P' S' : Type} {RK : K → K' → Prop} {RP : P → P' → Prop} {RS : S → S' → Prop} :
    Match RK RP RS ⟨[], [], []⟩ ⟨[], [], []⟩ := ⟨.nil, .nil, .nil⟩

/-! ## Cases that meet the hypotheses -/

/-- Reads a key, signs a message and verifies; writes the public key and reads it back; then verifies twice the signature as a
signature of the two equal keys together, and last as a signature of one of them. -/
def progSign {s : Setting} (k : List UInt8) (hk : k.length = 32) (m : List UInt8) (hm : s.msg m) : Prog s :=
  .readKey k hk (.privToPub 0 (.sign m hm 0 (.verify m hm 0 0 fun _ => .writePub 0 fun b =>
    if hb : b.length = s.pubLength then .readPub b hb (.equalPub 0 1 fun _ => .addSig 0 0 (.verifyCommon m hm [0, 1] 1 fun _ =>
      .verify m hm 1 1 fun _ => .done)) .done else .done)))

/-- What the program sees with the ideal scheme, for every key from 1 to r - 1: the signature is accepted, the public key is
read back and is the same, and twice the signature is accepted for the two keys and rejected for one. -/
theorem progSign_ideal {A : Type} [AddCommGroup A] {sha : List UInt8 → List UInt8} {s : Setting} {Hash : List UInt8 → A → Prop}
    {HashIn : List UInt8 → List UInt8 → A → Prop} {c : Choice A} (hc : c.Lawful s Hash HashIn) {k : List UInt8}
    (hk : k.length = 32) (h0 : 0 < beNat k) (hr : beNat k < r) {m : List UInt8} (hm : s.msg m) (hne : c.hash m ≠ 0)
    (hord : r • c.hash m = 0) :
    ((progSign k hk m hm).run (ideal sha c) ⟨[], [], []⟩).map (·.2) =
      some [.bool true, .bytes (c.encPub (beNat k : ZMod r)), .bool true, .bool true, .bool true, .bool false] := by
  have hp : Fact r.Prime := ⟨r_prime⟩
  have hx : ((beNat k : ℕ) : ZMod r) ≠ 0 := fun e => by
    rw [ZMod.natCast_eq_zero_iff] at e
    exact absurd (Nat.le_of_dvd h0 e) (not_le.mpr hr)
  have e1 : (ideal sha c).readKey k = some (beNat k : ZMod r) := by unfold ideal; dsimp only; rw [if_pos hr]
  generalize ((beNat k : ℕ) : ZMod r) = x at hx e1
  have h2 : x + x ≠ 0 := fun e => by
    rw [← two_mul, mul_eq_zero] at e
    rcases e with e | e
    · have e' : ((2 : ℕ) : ZMod r) = 0 := by exact_mod_cast e
      rw [ZMod.natCast_eq_zero_iff] at e'
      have := Nat.le_of_dvd (by norm_num) e'
      rw [r_eq] at this
      revert this
      decide +kernel
    · exact hx e
  have hS : x.val • c.hash m ≠ 0 := mt (val_smul_eq_zero hne hord).mp hx
  have hS2 : x.val • c.hash m + x.val • c.hash m = (x + x).val • c.hash m := (add_val hord x x).symm
  have hS3 : x.val • c.hash m + x.val • c.hash m ≠ 0 := by
    rw [hS2]; exact mt (val_smul_eq_zero hne hord).mp h2
  have hS4 : x.val • c.hash m + x.val • c.hash m ≠ x.val • c.hash m := by simpa using hS
  have e2 : (ideal sha c).verify m x (x.val • c.hash m) = some true := by
    unfold ideal; dsimp only
    rw [if_neg (by rw [not_or]; exact ⟨hx, hS⟩)]
    simp
  have e3 : (ideal sha c).verifyCommon m [x, x] (x.val • c.hash m + x.val • c.hash m) = some true := by
    have es : [x, x].sum = x + x := by rw [List.sum_cons, List.sum_cons, List.sum_nil, add_zero]
    unfold ideal; dsimp only
    rw [es, if_neg (by rw [not_or]; exact ⟨h2, hS3⟩)]
    exact congrArg some (@decide_eq_true _ (_) hS2)
  have e4 : (ideal sha c).verify m x (x.val • c.hash m + x.val • c.hash m) = some false := by
    unfold ideal; dsimp only
    rw [if_neg (by rw [not_or]; exact ⟨hx, hS3⟩)]
    exact congrArg some (@decide_eq_false _ (_) hS4)
  have e5 : (ideal sha c).equalPub x x = true := decide_eq_true rfl
  have e6 : (ideal sha c).readPub (c.encPub x) = some x := (hc.encPub x).2
  have e7 : (ideal sha c).writePub x = c.encPub x := rfl
  have e8 : (ideal sha c).privToPub (some x) = some x := rfl
  have e9 : (ideal sha c).sign m (some x) = some (x.val • c.hash m) := rfl
  have e10 : (ideal sha c).addSig (x.val • c.hash m) (x.val • c.hash m) = x.val • c.hash m + x.val • c.hash m := rfl
  simp [progSign, Prog.run, Vars.pushK, Vars.pushP, Vars.pushS, pick, see, e1, e2, e3, e4, e5, e6, e7, e8, e9, e10,
    (hc.encPub x).1]

/-- The library lets the program see the same, for both packages, any 32 bytes of a number from 1 to r - 1 and every message
that is in the setting. -/
theorem progSign_g1pubs (sha : List UInt8 → List UInt8) (k : List UInt8) (hk : k.length = 32) (h0 : 0 < beNat k)
    (hr : beNat k < r) (m : List UInt8) (hm : (setting1 sha).msg m) :
    ∃ b, ((progSign k hk m hm).run (g1pubs sha) ⟨[], [], []⟩).map (·.2) =
      some [.bool true, .bytes b, .bool true, .bool true, .bool true, .bool false] := by
  obtain ⟨c, G, -, hc, -, h⟩ := C85_g1pubs sha
  obtain ⟨hn, hs⟩ := h (progSign k hk m hm) _ _ match_nil
  obtain ⟨-, -, -, hne, hord⟩ := hc.hash m hm
  have hp := progSign_ideal (sha := sha) hc hk h0 hr hm hne hord
  refine ⟨_, (Eq.trans ?_ hp)⟩
  cases e : (progSign k hk m hm).run (g1pubs sha) ⟨[], [], []⟩ with
  | none => rw [hn.mp e]; rfl
  | some x =>
    obtain ⟨w', hw, -⟩ := hs x.1 x.2 e
    rw [hw]; rfl

theorem progSign_g2pubs (sha : List UInt8 → List UInt8) (k : List UInt8) (hk : k.length = 32) (h0 : 0 < beNat k)
    (hr : beNat k < r) (m : List UInt8) (hm : (setting2 sha).msg m) :
    ∃ b, ((progSign k hk m hm).run (g2pubs sha) ⟨[], [], []⟩).map (·.2) =
      some [.bool true, .bytes b, .bool true, .bool true, .bool true, .bool false] := by
  obtain ⟨c, G, -, hc, -, h⟩ := C85_g2pubs sha
  obtain ⟨hn, hs⟩ := h (progSign k hk m hm) _ _ match_nil
  obtain ⟨-, -, -, hne, hord⟩ := hc.hash m hm
  have hp := progSign_ideal (sha := sha) hc hk h0 hr hm hne hord
  refine ⟨_, (Eq.trans ?_ hp)⟩
  cases e : (progSign k hk m hm).run (g2pubs sha) ⟨[], [], []⟩ with
  | none => rw [hn.mp e]; rfl
  | some x =>
    obtain ⟨w', hw, -⟩ := hs x.1 x.2 e
    rw [hw]; rfl

/-- There are messages in the settings, with domains too, and a key from 1 to r - 1. -/
example : (setting1 Cases.sha2).msg [1, 2] ∧ (setting1 Cases.sha3).msgIn [3] [1, 2] ∧ (setting2 Cases.sha1).msg [1, 2] ∧
    (List.replicate 31 (0 : UInt8) ++ [5]).length = 32 ∧ 0 < beNat (List.replicate 31 (0 : UInt8) ++ [5]) ∧
    beNat (List.replicate 31 (0 : UInt8) ++ [5]) < r := by
  obtain ⟨H, h⟩ := Cases.case2
  obtain ⟨H', h'⟩ := Cases.case1
  have e : beNat (List.replicate 31 (0 : UInt8) ++ [5]) = 5 := by decide +kernel
  refine ⟨⟨H, h _⟩, Cases.case3 _ _, ⟨H', h' _⟩, rfl, by rw [e]; norm_num, ?_⟩
  rw [e, r_eq]; decide +kernel

end Bls.Props
