import Verif.Lemmas.Sizing
import Verif.Spec.Ideal
/-
C01-C06: the sizing functions (src/merkle.rs:1839-2011, src/store/mod.rs:150-173).
-/
namespace Verif
open Spec

/-! ### C01 -/

/-- C01.  The length of a tree with `b^k` leaves is `1 + b + ... + b^k`, and the three kinds of bad
input give `Err`. -/
theorem C01_tree_len_exact (leafs b : Nat) :
    (∀ k, Arity b → 1 ≤ k → leafs = b ^ k → merkleTreeLen leafs b = .ok (nodes b k)) ∧
    (leafs < b → Res.IsErr (merkleTreeLen leafs b)) ∧
    (¬ IsPow2 b → Res.IsErr (merkleTreeLen leafs b)) ∧
    (b = 2 → ¬ IsPow2 leafs → Res.IsErr (merkleTreeLen leafs b)) := by
  refine ⟨fun k hb hk h => h ▸ merkleTreeLen_pow hb hk, fun h => ?_, fun h => ?_, fun h h2 => ?_⟩
  · unfold merkleTreeLen
    rw [ensure_false (by omega)]; simp
  · unfold merkleTreeLen
    by_cases hl : leafs ≥ b
    · rw [ensure_true hl, Res.ok_bind, ensure_false (fun e => h ((eq_nextPow2_iff b).1 e))]; simp
    · rw [ensure_false hl]; simp
  · subst h
    unfold merkleTreeLen
    by_cases hl : leafs ≥ 2
    · rw [ensure_true hl, Res.ok_bind, ensure_true (show 2 = nextPow2 2 from rfl), Res.ok_bind]
      simp only [↓reduceIte]
      rw [ensure_false (fun e => h2 ((eq_nextPow2_iff leafs).1 e))]; simp
    · rw [ensure_false hl]; simp

example : merkleTreeLen 64 4 = .ok (1 + 4 + 16 + 64) :=
  (C01_tree_len_exact 64 4).1 3 ⟨2, by decide, rfl⟩ (by decide) rfl

/-! ### C02 -/

/-- C02, round trip: the number of leaves is recovered from the length of every valid tree. -/
theorem C02_leafs_of_len (b k : Nat) (hb : Arity b) (hk : 1 ≤ k) :
    (merkleTreeLen (b ^ k) b >>= fun len => merkleTreeLeafs len b) = .ok (b ^ k) := by
  rw [merkleTreeLen_pow hb hk, Res.ok_bind]
  exact (merkleTreeLeafs_ok_iff hb _ _).2 ⟨k, rfl, Or.inl rfl⟩

/-- C02, exactness for every arity but two: `Ok` only for the length of a tree. -/
theorem C02_leafs_exact_partial (b len r : Nat) (hb : Arity b) (h2 : b ≠ 2) :
    merkleTreeLeafs len b = .ok r ↔ ∃ k, len = nodes b k ∧ r = b ^ k := by
  rw [merkleTreeLeafs_ok_iff hb]
  constructor
  · rintro ⟨k, e, h | h⟩
    · exact ⟨k, h, e⟩
    · exact absurd h.1 h2
  · rintro ⟨k, h, e⟩; exact ⟨k, e, Or.inl h⟩

/-- C02, what is accepted for arity two: the lengths of trees, and also those lengths minus one. -/
theorem C02_leafs_binary_partial (len r : Nat) :
    merkleTreeLeafs len 2 = .ok r ↔
      ∃ k, r = 2 ^ k ∧ (len = nodes 2 k ∨ len + 1 = nodes 2 k) := by
  rw [merkleTreeLeafs_ok_iff ⟨1, Nat.le_refl _, rfl⟩]
  simp

/-- C02, the function always returns: no panic, no endless loop, whatever the arguments. -/
theorem C02_leafs_returns (len b : Nat) : Res.Returns (merkleTreeLeafs len b) :=
  merkleTreeLeafs_returns len b

/-- C02 fails for arity two: 6 is accepted (as a tree with 4 leaves) although no binary tree has
6 nodes. -/
theorem C02_leafs_exact_refuted :
    merkleTreeLeafs 6 2 = .ok 4 ∧ ¬ ∃ k, 6 = nodes 2 k := by
  refine ⟨by decide, ?_⟩
  rintro ⟨k, h⟩
  rw [nodes_two] at h
  have := Nat.two_pow_pos k
  omega

example : merkleTreeLeafs 85 4 = .ok 64 :=
  (C02_leafs_exact_partial 4 85 64 ⟨2, by decide, rfl⟩ (by decide)).2 ⟨3, rfl, rfl⟩
example : Res.IsErr (merkleTreeLeafs 84 4) := ⟨_, rfl⟩

/-! ### C03 -/

/-- C03.  For every arity other than 1 the size check terminates and returns `true` exactly when the
arity is a power of two (at least two) and the leaf count is a power of the arity. -/
theorem C03_size_valid_exact_partial (leafs b : Nat) (h1 : b ≠ 1) :
    ∃ v, isMerkleTreeSizeValid leafs b = .ok v ∧ (v = true ↔ Arity b ∧ ∃ k, leafs = b ^ k) := by
  unfold isMerkleTreeSizeValid
  by_cases hc : b = 0 ∨ leafs ≠ nextPow2 leafs ∨ b ≠ nextPow2 b
  · refine ⟨false, if_pos hc, ?_⟩
    simp only [ne_eq, eq_nextPow2_iff] at hc
    simp only [Bool.false_eq_true, false_iff, not_and, not_exists]
    intro hb k hk
    rcases hc with h | h | h
    · have := hb.two_le; omega
    · exact h (hk ▸ hb.pow_isPow2 k)
    · exact h hb.pow2
  · rw [if_neg hc]
    simp only [ne_eq, eq_nextPow2_iff, not_or, not_not] at hc
    obtain ⟨_, ⟨m, rfl⟩, ⟨s, rfl⟩⟩ := hc
    have hs : 1 ≤ s := by
      rcases s with _ | s
      · simp at h1
      · omega
    rw [log2Pow2_pow, isMerkleTreeSizeValid.loop_pow hs _ m _ ?_ (Nat.le_refl _)]
    · refine ⟨_, rfl, ?_⟩
      rw [decide_eq_true_iff, ← pow_eq_pow_iff_dvd]
      exact ⟨fun h => ⟨⟨s, hs, rfl⟩, h⟩, fun h => h.2⟩
    · have : m < 2 ^ m := Nat.lt_two_pow_self
      omega

/-- C03 fails for arity one: the check never returns, for any power of two above 1. -/
theorem C03_size_valid_arity_one_refuted (m : Nat) (hm : 1 ≤ m) :
    isMerkleTreeSizeValid (2 ^ m) 1 = .error .diverge := by
  have h1 : (2:Nat) ^ m ≠ 1 := by
    have : 2 ^ 1 ≤ 2 ^ m := Nat.pow_le_pow_right (by omega) hm
    omega
  unfold isMerkleTreeSizeValid
  have : ¬ (1 = 0 ∨ 2 ^ m ≠ nextPow2 (2 ^ m) ∨ 1 ≠ nextPow2 1) := by
    simp [nextPow2_pow]
    decide
  simp only [this, ↓reduceIte]
  have h0 : log2Pow2 1 = 0 := log2Pow2_pow 0
  rw [h0]
  exact isMerkleTreeSizeValid.loop_one _ _ h1 (Nat.two_pow_pos m)

example : isMerkleTreeSizeValid 64 4 = .ok true := by decide
example : isMerkleTreeSizeValid 8 4 = .ok false := by decide

/-! ### C04 -/

/-- C04 for binary trees: the row count is exact. -/
theorem C04_row_count_binary [FloatRows] (k : Nat) : merkleTreeRowCount (2 ^ k) 2 = k + 1 :=
  rowCount_pow (fun h => absurd rfl h)

/-- C04 for other arities: exact as far as the floating point logarithm is (the Rust code computes
`(b * leafs).log(b) as usize`; `FloatRows.ExactAt` says that this truncates to `k + 1`). -/
theorem C04_row_count_partial [FloatRows] (b k : Nat) (hf : FloatRows.ExactAt b k) :
    merkleTreeRowCount (b ^ k) b = k + 1 :=
  rowCount_pow hf

example : @merkleTreeRowCount idealRows (8 ^ 5) 8 = 6 :=
  @C04_row_count_partial idealRows 8 5 (idealRows_exact (by decide) 5)

/-! ### C05 -/

/-- C05.  With `d < k` rows discarded above the base the cache is exactly a whole tree with
`b^(k-1-d)` leaves; it is refused exactly when `d ≥ k`. -/
theorem C05_cache_size_exact [FloatRows] (b k d : Nat) (hb : Arity b) (hk : 1 ≤ k)
    (hf : FloatRows.ExactAt b k) :
    (d < k → merkleTreeCacheSize (b ^ k) b d = .ok (nodes b (k - 1 - d))) ∧
    (k ≤ d → Res.IsErr (merkleTreeCacheSize (b ^ k) b d)) :=
  ⟨merkleTreeCacheSize_pow hb hk hf, merkleTreeCacheSize_err hb hk hf⟩

/-- The rows kept, counted from the top, are the last `k - d` rows of the layout. -/
theorem C05_cache_is_tail (b k d : Nat) (hd : d < k) :
    rowStart b k (d + 1) + nodes b (k - 1 - d) = nodes b k := by
  induction d with
  | zero =>
    obtain ⟨k, rfl⟩ : ∃ j, k = j + 1 := ⟨k - 1, by omega⟩
    simp [rowStart, nodes]; omega
  | succ d ih =>
    have h := ih (by omega)
    have e : k - 1 - d = (k - 1 - (d + 1)) + 1 := by omega
    have e2 : k - (d + 1) = k - 1 - (d + 1) + 1 := by omega
    rw [e] at h
    rw [rowStart, e2]
    simp only [nodes] at h
    omega

example : @merkleTreeCacheSize idealRows 64 4 1 = .ok (4 + 1) :=
  (@C05_cache_size_exact idealRows 4 3 1 ⟨2, by decide, rfl⟩ (by decide)
    (idealRows_exact (by decide) 3)).1 (by decide)

/-! ### C06 -/

/-- C06.  The default number of rows to discard always leaves a cache containing at least the
root. -/
theorem C06_default_discard_usable [FloatRows] (b k : Nat) (hb : Arity b) (hk : 1 ≤ k)
    (hf : FloatRows.ExactAt b k) :
    ∃ n, merkleTreeCacheSize (b ^ k) b (defaultRowsToDiscard (b ^ k) b) = .ok n ∧ 1 ≤ n := by
  have hd : defaultRowsToDiscard (b ^ k) b < k := by
    unfold defaultRowsToDiscard
    rw [rowCount_pow hf]
    dsimp only
    split
    · omega
    · split
      · omega
      · split
        · omega
        · split <;> omega
  refine ⟨_, merkleTreeCacheSize_pow hb hk hf hd, ?_⟩
  exact Nat.le_trans (Nat.pow_pos (by have := hb.two_le; omega)) (pow_le_nodes _ _)

example : ∃ n, @merkleTreeCacheSize idealRows (8 ^ 4) 8 (@defaultRowsToDiscard idealRows (8 ^ 4) 8)
    = .ok n ∧ 1 ≤ n :=
  @C06_default_discard_usable idealRows 8 4 ⟨3, by decide, rfl⟩ (by decide)
    (idealRows_exact (by decide) 4)

/-- C06.  The value itself: a tree with one row above the leaves discards nothing, with two rows one row;
above that all but two of the `k + 1` rows, at most seven for arity two, five for arity four and two for
the others. -/
theorem C06_default_discard_value [FloatRows] (b k : Nat) (hf : FloatRows.ExactAt b k) :
    defaultRowsToDiscard (b ^ k) b =
      if k ≤ 1 then 0 else min (k - 1) (if b = 2 then 7 else if b = 4 then 5 else 2) := by
  unfold defaultRowsToDiscard
  rw [rowCount_pow hf]
  dsimp only
  repeat' split
  all_goals omega

example : @defaultRowsToDiscard idealRows (4 ^ 9) 4 = 5 :=
  @C06_default_discard_value idealRows 4 9 (idealRows_exact (by decide) 9)

end Verif
