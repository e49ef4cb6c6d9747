import Verif.Model.BitIterator
import Verif.Proof.Word
import Mathlib.Data.Nat.Bitwise
import Mathlib.Algebra.Group.Basic
import Mathlib.Algebra.Group.Commute.Basic
import Mathlib.Tactic.Ring
/-
The bit iterator delivers the binary digits of the word array, most significant first.
-/
namespace Bls

/-- The number a little-endian word array denotes. -/
def wordsToNat : List W → ℕ
  | [] => 0
  | w :: t => w.toNat + 2 ^ 64 * wordsToNat t

/-- The number a most-significant-first bit list denotes. -/
def bitsVal (l : List Bool) : ℕ := l.foldl (fun a b => 2 * a + b.toNat) 0

theorem bitsVal_foldl (l : List Bool) (a : ℕ) :
    l.foldl (fun a b => 2 * a + b.toNat) a = a * 2 ^ l.length + bitsVal l := by
  induction l generalizing a with
  | nil => simp [bitsVal]
  | cons b t ih =>
    rw [List.foldl_cons, ih, show bitsVal (b :: t) = t.foldl (fun a b => 2 * a + b.toNat) (2 * 0 + b.toNat) from rfl, ih,
      List.length_cons]
    ring

theorem bitsVal_cons (b : Bool) (l : List Bool) :
    bitsVal (b :: l) = b.toNat * 2 ^ l.length + bitsVal l := by
  rw [bitsVal, List.foldl_cons, bitsVal_foldl]; simp

/-- The lowest `n` binary digits of `N`, most significant first. -/
def msbBits (N : ℕ) : ℕ → List Bool
  | 0 => []
  | n + 1 => N.testBit n :: msbBits N n

theorem msbBits_length (N n : ℕ) : (msbBits N n).length = n := by
  induction n with
  | zero => rfl
  | succ n ih => simp [msbBits, ih]

theorem bitsVal_msbBits (N n : ℕ) : bitsVal (msbBits N n) = N % 2 ^ n := by
  induction n with
  | zero => simp [msbBits, bitsVal, Nat.mod_one]
  | succ n ih =>
    rw [msbBits, bitsVal_cons, ih, msbBits_length, Nat.mod_pow_succ, Nat.toNat_testBit]
    ring

theorem word_bit (w : W) {k : ℕ} (hk : k < 64) :
    (w &&& (1 <<< UInt64.ofNat k)).toNat = w.toNat &&& 2 ^ k := by
  rw [UInt64.toNat_and, UInt64.toNat_shiftLeft]
  have h1 : (UInt64.ofNat k).toNat = k := by
    rw [UInt64.toNat_ofNat']; exact Nat.mod_eq_of_lt (lt_trans hk (by norm_num))
  rw [h1, Nat.mod_eq_of_lt hk]
  have : (1 : UInt64).toNat <<< k = 2 ^ k := by
    rw [Nat.shiftLeft_eq]; simp
  rw [this, Nat.mod_eq_of_lt (Nat.pow_lt_pow_right (by norm_num) hk)]

theorem word_bit_pos (w : W) {k : ℕ} (hk : k < 64) :
    decide ((w &&& (1 <<< UInt64.ofNat k)) > 0) = w.toNat.testBit k := by
  rw [Bool.eq_iff_iff, decide_eq_true_iff, gt_iff_lt, UInt64.lt_iff_toNat_lt, word_bit w hk,
    Nat.and_two_pow]
  cases w.toNat.testBit k <;> simp

theorem word_bit_ne (w : W) {k : ℕ} (hk : k < 64) :
    (w &&& (1 <<< UInt64.ofNat k) != 0) = w.toNat.testBit k := by
  rw [Bool.eq_iff_iff, bne_iff_ne, Ne, ← UInt64.toNat_inj, word_bit w hk, Nat.and_two_pow]
  cases w.toNat.testBit k <;> simp

theorem wordsToNat_testBit (l : List W) (n : ℕ) (hn : n < l.length * 64) :
    ∃ w, l[n / 64]? = some w ∧ w.toNat.testBit (n % 64) = (wordsToNat l).testBit n := by
  induction l generalizing n with
  | nil => simp at hn
  | cons a t ih =>
    by_cases h : n < 64
    · refine ⟨a, by simp [Nat.div_eq_of_lt h], ?_⟩
      rw [Nat.mod_eq_of_lt h, wordsToNat, add_comm,
        Nat.testBit_two_pow_mul_add _ (UInt64.toNat_lt a), if_pos h]
    · obtain ⟨m, rfl⟩ : ∃ m, n = m + 64 := ⟨n - 64, by omega⟩
      have hm : m < t.length * 64 := by simp at hn; omega
      obtain ⟨w, h1, h2⟩ := ih m hm
      refine ⟨w, ?_, ?_⟩
      · rw [show (m + 64) / 64 = m / 64 + 1 by omega]; simpa using h1
      · rw [Nat.add_mod_right, h2, wordsToNat, add_comm,
          Nat.testBit_two_pow_mul_add _ (UInt64.toNat_lt a), if_neg (by omega)]
        simp

theorem BitIterator.next_zero (l : List W) :
    BitIterator.next ⟨l, 0⟩ = some ((false, true), ⟨l, 0⟩) := rfl

theorem BitIterator.next_succ (l : List W) (n : ℕ) (hn : n < l.length * 64) :
    BitIterator.next ⟨l, n + 1⟩ = some (((wordsToNat l).testBit n, false), ⟨l, n⟩) := by
  obtain ⟨w, h1, h2⟩ := wordsToNat_testBit l n hn
  have hb : n - n / 64 * 64 = n % 64 := by omega
  simp only [BitIterator.next, Nat.add_eq_zero_iff, one_ne_zero, and_false, if_false,
    Nat.add_sub_cancel, hb, h1, word_bit_pos w (Nat.mod_lt n (by norm_num)), h2]

theorem BitIterator.drain_spec (l : List W) (n fuel : ℕ) (hn : n ≤ l.length * 64)
    (hf : n < fuel) : BitIterator.drain ⟨l, n⟩ fuel = some (msbBits (wordsToNat l) n) := by
  induction n generalizing fuel with
  | zero =>
    obtain ⟨k, rfl⟩ : ∃ k, fuel = k + 1 := ⟨fuel - 1, by omega⟩
    simp [drain, next_zero, msbBits]
  | succ n ih =>
    obtain ⟨k, rfl⟩ : ∃ k, fuel = k + 1 := ⟨fuel - 1, by omega⟩
    simp only [drain, next_succ l n (by omega), ih k (by omega) (by omega), msbBits,
      Option.map_some]

/-- Square-and-multiply computes powers, for any representation relation to a monoid that
squaring and multiplication respect. -/
theorem powLoop_rep {A M : Type} [CommMonoid M] {Rep : A → M → Prop} {sq : A → A} {mul : A → A → A}
    (hsq : ∀ {a x}, Rep a x → Rep (sq a) (x * x))
    (hmul : ∀ {a b x y}, Rep a x → Rep b y → Rep (mul a b) (x * y))
    {f : A} {x : M} (hf : Rep f x) (bits : List Bool) :
    ∀ (res : A) (found : Bool) (y : M), Rep res y → (found = false → y = 1) →
      Rep (powLoop sq mul f bits res found) (y ^ 2 ^ bits.length * x ^ bitsVal bits) := by
  induction bits with
  | nil => intro res found y hr _; simpa [powLoop, bitsVal] using hr
  | cons b t ih =>
    intro res found y hr hfound
    rw [bitsVal_cons, List.length_cons]
    have key : ∀ (res : A) (found' : Bool) (y' : M), Rep res y' →
        (found' = false → b = false ∧ y' = 1) →
        Rep (powLoop sq mul f t (if b then mul res f else res) found')
          (y' ^ 2 ^ t.length * x ^ (b.toNat * 2 ^ t.length + bitsVal t)) := by
      intro res found' y' hr hfb
      cases b with
      | true =>
        have := ih (mul res f) found' (y' * x) (hmul hr hf) (fun h => by simp at hfb; simp_all)
        rw [if_pos rfl, pow_add, Bool.toNat_true, one_mul, ← mul_assoc, ← mul_pow]
        exact this
      | false =>
        have := ih res found' y' hr (fun h => (hfb h).2)
        simpa using this
    cases found with
    | true =>
      have := key (sq res) true (y * y) (hsq hr) (by simp)
      rw [powLoop]
      simp only [if_true]
      rwa [pow_succ', pow_mul, pow_two]
    | false =>
      have hy := hfound rfl
      have := key res b y hr (fun h => ⟨h, hy⟩)
      rw [powLoop]
      simp only [Bool.false_eq_true, if_false]
      rw [hy, one_pow] at this ⊢
      exact this

end Bls
