import Verif.Proof.Primes
import Mathlib.FieldTheory.Finite.Basic
/-
Primality of the 448-bit factor of the cofactor of G2, by Pocklington's criterion.
-/
set_option exponentiation.threshold 1000
namespace Bls

/-- Pocklington: a prime `s > √n` dividing `n - 1`, with a witness. -/
theorem pocklington {n s a : ℕ} (hs : s.Prime) (hn : 1 < n) (hlt : n < 2 ^ 450) (hd : (n - 1) % s = 0)
    (hbig : n < s * s) (h1 : powMod n 450 a (n - 1) 1 % n = 1)
    (h2 : Nat.gcd (powMod n 450 a ((n - 1) / s) 1 + (n - 1)) n = 1) : n.Prime := by
  have hp : n.minFac.Prime := Nat.minFac_prime hn.ne'
  by_contra hc
  have hsq : n.minFac ^ 2 ≤ n := Nat.minFac_sq_le_self (by omega) hc
  have hdvd : n.minFac ∣ n := Nat.minFac_dvd n
  generalize n.minFac = p at hp hsq hdvd
  have : Fact p.Prime := ⟨hp⟩
  have h0 : ((n : ℕ) : ZMod p) = 0 := (ZMod.natCast_eq_zero_iff _ _).mpr hdvd
  have e1 : (a : ZMod p) ^ (n - 1) = 1 := by
    have := powMod_spec (R := ZMod p) h0 450 a (n - 1) 1 (by omega)
    rw [Nat.cast_one, one_mul] at this
    rw [← this, ← Nat.div_add_mod (powMod n 450 a (n - 1) 1) n, h1]
    simp [h0]
  have e2 : (a : ZMod p) ^ ((n - 1) / s) ≠ 1 := by
    have := powMod_spec (R := ZMod p) h0 450 a ((n - 1) / s) 1
      (lt_of_le_of_lt (Nat.div_le_self _ _) (by omega))
    rw [Nat.cast_one, one_mul] at this
    intro h
    rw [h] at this
    have hz : ((powMod n 450 a ((n - 1) / s) 1 + (n - 1) : ℕ) : ZMod p) = 0 := by
      rw [Nat.cast_add, this, ← Nat.cast_one, ← Nat.cast_add, Nat.add_sub_cancel' hn.le, h0]
    rw [ZMod.natCast_eq_zero_iff] at hz
    have := Nat.dvd_gcd hz hdvd
    rw [h2] at this
    exact hp.one_lt.ne' (Nat.dvd_one.mp this)
  have hsd : s ∣ orderOf (a : ZMod p) := by
    by_contra hcs
    have hco : Nat.Coprime (orderOf (a : ZMod p)) s := ((Nat.Prime.coprime_iff_not_dvd hs).mpr hcs).symm
    have h3 := orderOf_dvd_of_pow_eq_one e1
    have h4 : n - 1 = (n - 1) / s * s := (Nat.div_mul_cancel (Nat.dvd_of_mod_eq_zero hd)).symm
    rw [h4] at h3
    exact e2 (orderOf_dvd_iff_pow_eq_one.mp (hco.dvd_of_dvd_mul_right h3))
  have ha : (a : ZMod p) ≠ 0 := by
    intro h
    rw [h, zero_pow (by omega)] at e1
    exact zero_ne_one e1
  have hle := Nat.le_of_dvd (show 0 < p - 1 by have := hp.two_le; omega) (hsd.trans (orderOf_dvd_of_pow_eq_one (ZMod.pow_card_sub_one_eq_one ha)))
  have hsp : s * s ≤ p ^ 2 := by rw [sq]; exact Nat.mul_le_mul (by omega) (by omega)
  omega

theorem prime44 : Nat.Prime 12192593745179 := by
  refine lucas_list (a := 2) (fs := [2, 7, 11, 107, 541, 1367711]) (by decide +kernel)
    (by decide +kernel) ?_ (by decide +kernel) (by decide +kernel)
  intro s hs hd
  refine prime_dvd_list hs ?_ (show s ∣ [2, 7, 11, 107, 541, 1367711].prod from ?_)
  · simp only [List.mem_cons, List.not_mem_nil, or_false, forall_eq_or_imp, forall_eq]
    norm_num
  · have : 12192593745179 - 1 = [2, 7, 11, 107, 541, 1367711].prod := by decide +kernel
    rwa [← this]

/-- The 448-bit prime factor of the cofactor of G2. -/
def pLit : ℕ := 402096035359507321594726366720466575392706800671181159425656785868777272553337714697862511267018014931937703598282857976535744623203249

theorem prime49 : Nat.Prime 512088937297519 :=
  pocklington (a := 2) prime44 (by decide +kernel) (by decide +kernel) (by decide +kernel)
    (by decide +kernel) (by decide +kernel) (by decide +kernel)

theorem prime61 : Nat.Prime 1857858664515398933 :=
  pocklington (a := 2) prime49 (by decide +kernel) (by decide +kernel) (by decide +kernel)
    (by decide +kernel) (by decide +kernel) (by decide +kernel)

theorem prime65 : Nat.Prime 22294303974184787197 :=
  pocklington (a := 2) prime61 (by decide +kernel) (by decide +kernel) (by decide +kernel)
    (by decide +kernel) (by decide +kernel) (by decide +kernel)

theorem prime75 : Nat.Prime 19931107752921199754119 :=
  pocklington (a := 2) prime65 (by decide +kernel) (by decide +kernel) (by decide +kernel)
    (by decide +kernel) (by decide +kernel) (by decide +kernel)

theorem prime146 : Nat.Prime 81162125843606155545104998607900118769099783 :=
  pocklington (a := 2) prime75 (by decide +kernel) (by decide +kernel) (by decide +kernel)
    (by decide +kernel) (by decide +kernel) (by decide +kernel)

theorem prime224 : Nat.Prime 26935696298915610574513298451669528361624243820491956655650666425177 :=
  pocklington (a := 2) prime146 (by decide +kernel) (by decide +kernel) (by decide +kernel)
    (by decide +kernel) (by decide +kernel) (by decide +kernel)

theorem prime381 : Nat.Prime 4638704574076146691498289350639807119782054683906549022985642612861209609656189848749536921852444848596916990932297 :=
  pocklington (a := 2) prime224 (by decide +kernel) (by decide +kernel) (by decide +kernel)
    (by decide +kernel) (by decide +kernel) (by decide +kernel)

theorem prime448 : Nat.Prime pLit :=
  pocklington (a := 2) prime381 (by decide +kernel) (by decide +kernel) (by decide +kernel)
    (by decide +kernel) (by decide +kernel) (by decide +kernel)

attribute [irreducible] pLit

end Bls
