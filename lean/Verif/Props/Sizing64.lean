import Verif.Lemmas.Sizing64
import Verif.Spec.Ideal
/-
C46: the sizing functions on 64-bit words (src/merkle.rs:1839-2011).

`checked` is a build with overflow checks, in which overflow panics, `wrapping` one without, in which it
wraps around.  The property speaks of wrapping arithmetic; the theorems cover both.
-/
namespace Verif
open Spec Word

/-- **C46** for `get_merkle_tree_len`, valid tree or not, as long as the number of leaves is at most 2^63:
words give what natural numbers give.  With overflow checks the binary tree of 2^63 leaves is
excepted. -/
theorem C46_len {o : Overflow} {leafs b : Nat} (h : leafs ≤ 2 ^ 63)
    (ho : o = .wrapping ∨ leafs < 2 ^ 63 ∨ b ≠ 2) :
    merkleTreeLen64 o leafs b = merkleTreeLen leafs b := merkleTreeLen64_eq h ho

/-- **C46** for `get_merkle_tree_row_count`. -/
theorem C46_row_count [FloatRows] {o : Overflow} {leafs b : Nat} (h : leafs ≤ 2 ^ 63)
    (ho : o = .wrapping ∨ leafs < 2 ^ 63 ∨ b ≠ 2) :
    merkleTreeRowCount64 o leafs b = .ok (merkleTreeRowCount leafs b) := merkleTreeRowCount64_eq h ho

/-- **C46** for `get_merkle_tree_cache_size`, for every number of rows to discard.  Arity one is left
out, and the floating point row count must not be zero. -/
theorem C46_cache_size [FloatRows] {o : Overflow} {leafs b d : Nat} (h : leafs ≤ 2 ^ 63)
    (ho : o = .wrapping ∨ leafs < 2 ^ 63 ∨ b ≠ 2) (hb : b ≠ 1) (hr : 1 ≤ merkleTreeRowCount leafs b) :
    merkleTreeCacheSize64 o leafs b d = merkleTreeCacheSize leafs b d :=
  merkleTreeCacheSize64_eq h ho hb hr

/-- **C46** for `is_merkle_tree_size_valid`: without overflow checks on all words, with them up to
2^63. -/
theorem C46_size_valid {o : Overflow} {leafs b : Nat} (hl : leafs < wordSize) (hb : b < wordSize)
    (ho : o = .wrapping ∨ leafs ≤ 2 ^ 63 ∧ b ≤ 2 ^ 63) :
    isMerkleTreeSizeValid64 o leafs b = isMerkleTreeSizeValid leafs b :=
  isMerkleTreeSizeValid64_eq hl hb ho

/-- **C46** for `get_merkle_tree_leafs`, for every length, valid or not, up to that of a tree whose leaves
can be counted in a word. -/
theorem C46_leafs {o : Overflow} {len b K fuel : Nat} (hl : len < wordSize) (hb : b < wordSize)
    (hK : b ^ K < wordSize) (hlen : len ≤ nodes b K) (hf : len < fuel)
    (ho : o = .wrapping ∨ b ≤ 2 ^ 63) :
    merkleTreeLeafs64 o fuel len b = merkleTreeLeafs len b := merkleTreeLeafs64_eq hl hb hK hlen hf ho

/-- **C46** for `get_merkle_proof_lemma_len`. -/
theorem C46_lemma_len {o : Overflow} {rows b : Nat} (hb : 1 ≤ b) (hr : 1 ≤ rows)
    (h : 2 + (b - 1) * (rows - 1) < wordSize) :
    merkleProofLemmaLen64 o rows b = merkleProofLemmaLen rows b := by
  unfold merkleProofLemmaLen64 merkleProofLemmaLen
  rw [Word.sub_ok hb, subP_ok hb, Res.ok_bind, Res.ok_bind, Word.sub_ok hr, subP_ok hr, Res.ok_bind,
    Res.ok_bind, Word.mul_ok (by omega), Res.ok_bind, Word.add_ok h]

/-- **C46** for `get_merkle_tree_len_generic`: whenever the true length fits. -/
theorem C46_len_generic {o : Overflow} {base sub top leaves n : Nat} (h : leaves ≤ 2 ^ 63)
    (ho : o = .wrapping ∨ leaves < 2 ^ 63 ∨ base ≠ 2)
    (hn : merkleTreeLenGeneric base sub top leaves = .ok n) (hw : n < wordSize) :
    merkleTreeLenGeneric64 o base sub top leaves = .ok n := by
  unfold merkleTreeLenGeneric at hn
  unfold merkleTreeLenGeneric64
  rw [merkleTreeLen64_eq h ho]
  obtain ⟨m, hm, hn⟩ := bind_ok_iff.1 hn
  have hm1 : 1 ≤ m := by
    unfold merkleTreeLen at hm
    simp only [ensure_bind_ok] at hm
    obtain ⟨h1, h2, h3⟩ := hm
    have hp : 1 ≤ base := by
      obtain ⟨s, hs⟩ := (eq_nextPow2_iff base).1 h2
      rw [hs]
      exact Nat.one_le_two_pow
    split at h3
    · rw [ensure_bind_ok, subP_ok (by omega)] at h3
      have := Except.ok.inj h3.2
      omega
    · split at h3
      · have := Except.ok.inj h3
        omega
      · obtain ⟨T, e, _⟩ := merkleTreeCacheSize64.loop_eq (o := .wrapping)
          (shift_lt ((eq_nextPow2_iff base).1 h2) (by have := wordSize_eq; omega)) _ _ _ _ h3
        omega
  rw [hm, Res.ok_bind]
  by_cases ht : top > 0
  · rw [if_pos ht] at hn ⊢
    have hn := Except.ok.inj hn
    have h1 : sub * top ≤ sub * top * m := Nat.le_mul_of_pos_right _ hm1
    rw [Word.add_ok (by omega), Res.ok_bind, Word.mul_ok (by omega), Res.ok_bind, Word.mul_ok (by omega),
      Res.ok_bind, Word.add_ok (by omega), hn]
  · rw [if_neg ht] at hn ⊢
    by_cases hs : sub > 0
    · rw [if_pos hs] at hn ⊢
      have hn := Except.ok.inj hn
      rw [Word.mul_ok (by omega), Res.ok_bind, Word.add_ok (by omega), hn]
    · rw [if_neg hs] at hn ⊢
      exact hn

/-- **C46** in the words of the property: for every tree whose elements, of `w` bytes each, take less
than 2^64 bytes, the wrapping functions give the sizes of the tree. -/
theorem C46_tree [FloatRows] {b k w : Nat} (hb : Arity b) (hk : 1 ≤ k) (hw : 1 ≤ w)
    (hsize : nodes b k * w < wordSize) (he : FloatRows.ExactAt b k) :
    merkleTreeLen64 .wrapping (b ^ k) b = .ok (nodes b k) ∧
    merkleTreeRowCount64 .wrapping (b ^ k) b = .ok (k + 1) ∧
    isMerkleTreeSizeValid64 .wrapping (b ^ k) b = isMerkleTreeSizeValid (b ^ k) b ∧
    (∀ d, d < k → merkleTreeCacheSize64 .wrapping (b ^ k) b d = .ok (nodes b (k - 1 - d))) ∧
    ∀ fuel, nodes b k < fuel → merkleTreeLeafs64 .wrapping fuel (nodes b k) b = .ok (b ^ k) := by
  have h1 : nodes b k < wordSize := Nat.lt_of_le_of_lt (Nat.le_mul_of_pos_right _ hw) hsize
  have h2 : b ^ k < wordSize := Nat.lt_of_le_of_lt (pow_le_nodes b k) h1
  have h3 := pow2_le_half (hb.pow_isPow2 k) h2
  have h4 : b ≤ b ^ k := (pow_le_iff hb.two_le).2 hk
  refine ⟨?_, ?_, ?_, fun d hd => ?_, fun fuel hf => ?_⟩
  · rw [C46_len h3 (.inl rfl), merkleTreeLen_pow hb hk]
  · rw [C46_row_count h3 (.inl rfl), rowCount_pow he]
  · exact C46_size_valid h2 (by omega) (.inl rfl)
  · rw [C46_cache_size h3 (.inl rfl) (by have := hb.two_le; omega) (by rw [rowCount_pow he]; omega),
      merkleTreeCacheSize_pow hb hk he hd]
  · rw [C46_leafs h1 (by omega) h2 (le_refl _) hf (.inl rfl)]
    exact (merkleTreeLeafs_ok_iff hb _ _).2 ⟨k, rfl, Or.inl rfl⟩

/-- **C46** for `get_merkle_tree_leafs` and lengths of no tree: right whenever the elements are at least
as many bytes long as the arity and all of them take less than 2^64 bytes (for the arities 2 to 32 and
32-byte elements: always). -/
theorem C46_leafs_small_arity {o : Overflow} {len b w fuel : Nat} (hb : Arity b) (hw : b ≤ w)
    (hsize : len * w < wordSize) (hb63 : b ≤ 2 ^ 63) (hf : len < fuel) :
    merkleTreeLeafs64 o fuel len b = merkleTreeLeafs len b := by
  have h2 := hb.two_le
  have hl : len * b < wordSize := Nat.lt_of_le_of_lt (Nat.mul_le_mul_left _ hw) hsize
  have hbw : b < wordSize := by have := wordSize_eq; omega
  -- the largest power of the arity that is a word
  have hex : ∃ n, wordSize ≤ b ^ n := ⟨64, by
    calc wordSize = 2 ^ 64 := rfl
      _ ≤ b ^ 64 := Nat.pow_le_pow_left h2 64⟩
  obtain ⟨K, hK1, hK2⟩ : ∃ K, b ^ K < wordSize ∧ wordSize ≤ b ^ (K + 1) := by
    have hs := Nat.find_spec hex
    have hm := fun m => Nat.find_min hex (m := m)
    have h0 : Nat.find hex ≠ 0 := by
      intro h
      rw [h, Nat.pow_zero] at hs
      exact absurd hs (by decide)
    refine ⟨Nat.find hex - 1, ?_, ?_⟩
    · exact Nat.lt_of_not_le (hm _ (by omega))
    · rw [show Nat.find hex - 1 + 1 = Nat.find hex by omega]
      exact hs
  have hlen : len ≤ nodes b K := by
    by_contra hc
    have h5 : b ^ K ≤ len := Nat.le_trans (pow_le_nodes b K) (by omega)
    have : b ^ (K + 1) ≤ len * b := by
      rw [Nat.pow_succ]
      exact Nat.mul_le_mul_right _ h5
    omega
  exact C46_leafs (by
    have : len ≤ len * b := Nat.le_mul_of_pos_right _ (by omega)
    omega) hbw hK1 hlen hf (.inr hb63)

/-- C46 fails for `get_merkle_tree_leafs` and lengths beyond that of the largest tree whose leaves can be
counted: on natural numbers this is an error (unless it happens to be a tree), on words the leaf count is
shifted out to zero and the loop never ends, whatever the overflow checks.  With a large arity such
lengths are small enough to occur: see the example. -/
theorem C46_leafs_refuted {o : Overflow} {len b K : Nat} (hb : Arity b) (h2 : b ≠ 2) (hb63 : b ≤ 2 ^ 63)
    (hK1 : 1 ≤ K) (hK : b ^ K < wordSize) (hK' : wordSize ≤ b ^ (K + 1)) (hlen : nodes b K < len) :
    ∀ fuel, merkleTreeLeafs64 o fuel len b = .error .diverge := by
  intro fuel
  obtain ⟨s, hs1, hs⟩ := hb
  have hlog : log2Pow2 b = s := by rw [hs, log2Pow2_pow]
  have h64 : s < 64 := hlog ▸ shift_lt ⟨s, hs⟩ (by have := wordSize_eq; omega)
  unfold merkleTreeLeafs64
  rw [Word.npow2_ok hb63, Res.ok_bind, ensure_true ((eq_nextPow2_iff b).2 ⟨s, hs⟩), Res.ok_bind, if_neg h2]
  have e := merkleTreeLeafs64.loop_beyond (o := o) (K := K) (len := len) hs h64 hK hK' hlen fuel 0 len
    (by omega) (by simp [nodes]) hK1 (.inl rfl)
  rw [Nat.pow_zero] at e
  show (merkleTreeLeafs64.loop o len (log2Pow2 b) fuel 1 len >>= _) = _
  rw [hlog, e, Res.error_bind]

/-- The word operations are those of `UInt64`. -/
theorem C46_words (a b : UInt64) :
    add .wrapping a.toNat b.toNat = .ok (a + b).toNat ∧
    sub .wrapping a.toNat b.toNat = .ok (a - b).toNat ∧
    mul .wrapping a.toNat b.toNat = .ok (a * b).toNat ∧
    shr .wrapping a.toNat b.toNat = .ok (a >>> b).toNat ∧
    shl .wrapping a.toNat b.toNat = .ok (a <<< b).toNat := by
  have ha := a.toNat_lt
  have hb := b.toNat_lt
  have hw : wordSize = 2 ^ 64 := rfl
  refine ⟨?_, ?_, ?_, ?_, ?_⟩
  · unfold add
    split
    · rw [UInt64.toNat_add, Nat.mod_eq_of_lt (by omega)]
    · rw [UInt64.toNat_add]; rfl
  · unfold sub
    split
    · rename_i h
      rw [UInt64.toNat_sub_of_le _ _ (UInt64.le_iff_toNat_le.2 h)]
    · rw [UInt64.toNat_sub]
      show Except.ok _ = Except.ok _
      congr 2
      omega
  · unfold mul
    split
    · rw [UInt64.toNat_mul, Nat.mod_eq_of_lt (by omega)]
    · rw [UInt64.toNat_mul]; rfl
  · unfold shr
    split
    · rename_i h
      rw [UInt64.toNat_shiftRight, Nat.mod_eq_of_lt h]
    · rw [UInt64.toNat_shiftRight]; rfl
  · unfold shl
    split
    · rename_i h
      rw [UInt64.toNat_shiftLeft, Nat.mod_eq_of_lt h]
      rfl
    · rw [UInt64.toNat_shiftLeft]; rfl

/-! Concrete instances. -/
section
attribute [local instance] idealRows

-- the tree over 64 GiB sectors of 32-byte leaves: 2^31 leaves, 128 GiB of nodes
example : merkleTreeLen64 .wrapping (2 ^ 31) 2 = .ok (2 ^ 32 - 1) := by decide +kernel
example : nodes 8 11 * 32 < wordSize := by decide +kernel
example : merkleTreeCacheSize64 .wrapping (8 ^ 11) 8 2 = .ok (nodes 8 8) :=
  (C46_tree (w := 32) ⟨3, by decide, rfl⟩ (by decide) (by decide) (by decide +kernel)
    (idealRows_exact (by decide) 11)).2.2.2.1 2 (by decide)
-- the edge: 2^63 leaves of one byte, with and without overflow checks
example : merkleTreeLen64 .wrapping (2 ^ 63) 2 = .ok (2 ^ 64 - 1) := by
  rw [C46_len (le_refl _) (.inl rfl), merkleTreeLen_pow ⟨1, by decide, rfl⟩ (by decide)]
  decide +kernel
/-- Beside C46: with overflow checks `get_merkle_tree_len` panics although the length, 2^64 - 1, is a word:
the product `2 * leafs` is formed before the subtraction. -/
theorem C46_checked_edge_refuted :
    merkleTreeLen64 .checked (2 ^ 63) 2 = .error (.panic "attempt to multiply with overflow") ∧
    nodes 2 63 < wordSize := by
  constructor
  · unfold merkleTreeLen64
    rw [ensure_true (by decide), Res.ok_bind, Word.npow2_ok (by decide), Res.ok_bind,
      ensure_true (by decide), Res.ok_bind, if_pos rfl, Word.npow2_ok (le_refl _), Res.ok_bind,
      ensure_true (nextPow2_pow 63).symm, Res.ok_bind]
    decide
  · rw [nodes_two]
    decide
-- 2^32 + 2 elements of 32 bytes are 128 GiB; with arity 2^32 the code does not say that this is no tree
example : ∀ fuel, merkleTreeLeafs64 .wrapping fuel (2 ^ 32 + 2) (2 ^ 32) = .error .diverge :=
  C46_leafs_refuted (K := 1) ⟨32, by decide, rfl⟩ (by decide) (by decide) (by decide) (by decide) (by decide)
    (by decide)
example : Res.IsErr (merkleTreeLeafs (2 ^ 32 + 2) (2 ^ 32)) := by
  have h := merkleTreeLeafs_returns (2 ^ 32 + 2) (2 ^ 32)
  refine isErr_of_not_ok h (fun r hr => ?_)
  rw [merkleTreeLeafs_ok_iff ⟨32, by decide, rfl⟩] at hr
  obtain ⟨k, _, h | h⟩ := hr
  · rcases k with _ | _ | k
    · simp [nodes] at h
    · simp [nodes] at h
    · have h1 := (nodes_strictMono (b := 2 ^ 32) (by decide)).monotone (show 2 ≤ k + 1 + 1 by omega)
      have h2 : nodes (2 ^ 32) 2 = 1 + 2 ^ 32 + 2 ^ 64 := by simp [nodes]
      omega
  · omega

end
end Verif
