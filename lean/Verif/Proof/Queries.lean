import Verif.Spec.Queries
/-
How the functions that hash depend on the hash function.
-/
namespace Bls

/-- The bytes a field element is made of. -/
def blockOf (sha : List UInt8 → List UInt8) (digest : List UInt8) (ctr i : UInt8) : List UInt8 :=
  sha (digest ++ [ctr, i, 1]) ++ sha (digest ++ [ctr, i, 2])

theorem hashBlocks_eq (sha : List UInt8 → List UInt8) (digest : List UInt8) (ctr i : UInt8) :
    hashBlocks sha (digest ++ [ctr]) i = blockOf sha digest ctr i := by
  simp only [hashBlocks, blockOf, List.append_assoc, List.cons_append, List.nil_append]

section
variable {sha sha' : List UInt8 → List UInt8} {m m' : List UInt8}

theorem hp_congr {c : UInt8} (h : blockOf sha (sha m) c 1 = blockOf sha' (sha' m') c 1) : hp sha m c = hp sha' m' c := by
  simp only [hp, hashBlocks_eq, h]

theorem hp2_congr {c : UInt8} (h1 : blockOf sha (sha m) c 1 = blockOf sha' (sha' m') c 1)
    (h2 : blockOf sha (sha m) c 2 = blockOf sha' (sha' m') c 2) : hp2 sha m c = hp2 sha' m' c := by
  simp only [hp2, hashBlocks_eq, h1, h2]

theorem hashG1_congr (h0 : blockOf sha (sha (1 :: m)) 0 1 = blockOf sha' (sha' (1 :: m')) 0 1)
    (h1 : blockOf sha (sha (1 :: m)) 1 1 = blockOf sha' (sha' (1 :: m')) 1 1) : hashG1 sha m = hashG1 sha' m' := by
  rw [hashG1, hashG1, cipherSuite, hp_congr h0, hp_congr h1]

theorem hashG2_congr (h : ∀ c i, c = 0 ∨ c = 1 → i = 1 ∨ i = 2 →
    blockOf sha (sha (1 :: m)) c i = blockOf sha' (sha' (1 :: m')) c i) : hashG2 sha m = hashG2 sha' m' := by
  rw [hashG2, hashG2, cipherSuite, hp2_congr (h 0 1 (.inl rfl) (.inl rfl)) (h 0 2 (.inl rfl) (.inr rfl)),
    hp2_congr (h 1 1 (.inr rfl) (.inl rfl)) (h 1 2 (.inr rfl) (.inr rfl))]

theorem hashSecretKey_congr (h : blockOf sha (sha m) 0 1 = blockOf sha' (sha' m') 0 1) :
    hashSecretKey sha m = hashSecretKey sha' m' := by
  simp only [hashSecretKey, hashBlocks_eq, h]

theorem hashDomain_congr {d d' : List UInt8} (h1 : sha (m ++ d ++ [1]) = sha' (m' ++ d' ++ [1]))
    (h2 : sha (m ++ d ++ [2]) = sha' (m' ++ d' ++ [2])) : hashG2WithDomain sha m d = hashG2WithDomain sha' m' d' := by
  rw [hashG2WithDomain, hashG2WithDomain, h1, h2]

end

/-- The hash function `sha` with the blocks after `digest` taken from `sha₀` after `digest₀`. -/
def reprogram (sha : List UInt8 → List UInt8) (digest : List UInt8) (sha₀ : List UInt8 → List UInt8)
    (digest₀ : List UInt8) (b : List UInt8) : List UInt8 :=
  if b.length = 35 ∧ b.take 32 = digest then sha₀ (digest₀ ++ b.drop 32) else sha b

section
variable {sha sha₀ : List UInt8 → List UInt8} {D D₀ : List UInt8}

theorem reprogram_length (h : Digests32 sha) (h₀ : Digests32 sha₀) : Digests32 (reprogram sha D sha₀ D₀) := by
  intro b
  rw [reprogram]
  split
  · exact h₀ _
  · exact h _

theorem reprogram_ne {b : List UInt8} (h : b.length ≠ 35) : reprogram sha D sha₀ D₀ b = sha b :=
  if_neg fun h' => h h'.1

theorem reprogram_block (hD : D.length = 32) (c i j : UInt8) :
    reprogram sha D sha₀ D₀ (D ++ [c, i, j]) = sha₀ (D₀ ++ [c, i, j]) := by
  rw [reprogram, if_pos ⟨by simp [hD], by rw [← hD, List.take_left]⟩, ← hD, List.drop_left]

theorem reprogram_other {D' : List UInt8} (hD : D'.length = 32) (h : D' ≠ D) (c i j : UInt8) :
    reprogram sha D sha₀ D₀ (D' ++ [c, i, j]) = sha (D' ++ [c, i, j]) :=
  if_neg fun h' => h (by rw [← h'.2, ← hD, List.take_left])

theorem reprogram_blockOf (hD : D.length = 32) (c i : UInt8) :
    blockOf (reprogram sha D sha₀ D₀) D c i = blockOf sha₀ D₀ c i := by
  rw [blockOf, blockOf, reprogram_block hD, reprogram_block hD]

theorem reprogram_blockOf_other {D' : List UInt8} (hD : D'.length = 32) (h : D' ≠ D) (c i : UInt8) :
    blockOf (reprogram sha D sha₀ D₀) D' c i = blockOf sha D' c i := by
  rw [blockOf, blockOf, reprogram_other hD h, reprogram_other hD h]

end

theorem mem_blockQueries {D b : List UInt8} {c i : UInt8} : b ∈ blockQueries D c i ↔ b = D ++ [c, i, 1] ∨ b = D ++ [c, i, 2] := by
  simp only [blockQueries, List.mem_cons, List.not_mem_nil, or_false]

end Bls
