import Verif.Lemmas.Sizing
/-! The cache size never exceeds the size of the tree. -/
namespace Verif
open Spec

theorem cacheSize_loop_le (shift : Nat) : ∀ (n cur size r : Nat),
    merkleTreeCacheSize.loop shift n cur size = .ok r → r ≤ size
  | 0, _, _, _, h => by
    cases h
    exact Nat.le_refl _
  | n + 1, cur, size, r, h => by
    rw [merkleTreeCacheSize.loop] at h
    simp only [bind_ok_iff] at h
    obtain ⟨m, h1, h2⟩ := h
    have := cacheSize_loop_le shift n _ _ _ h2
    unfold subP at h1
    split at h1
    · cases h1
      omega
    · cases h1

/-- The cache is never larger than the inner rows. -/
theorem cacheSize_le [FloatRows] {leafs b d c : Nat} (h : merkleTreeCacheSize leafs b d = .ok c) :
    ∃ len, merkleTreeLen leafs b = .ok len ∧ c + leafs ≤ len := by
  unfold merkleTreeCacheSize at h
  simp only [bind_ok_iff, ensure_ok_iff, exists_const] at h
  obtain ⟨len, h1, rc, h2, h3, cb, h4, h5⟩ := h
  refine ⟨len, h1, ?_⟩
  unfold subP at h2 h4
  split at h2
  · cases h2
    split at h4
    · cases h4
      obtain ⟨n, hn⟩ : ∃ n, merkleTreeRowCount leafs b - (merkleTreeRowCount leafs b - 1 - d) = n + 1 :=
        ⟨_, (Nat.sub_add_cancel (by omega)).symm⟩
      rw [hn, merkleTreeCacheSize.loop] at h5
      simp only [bind_ok_iff] at h5
      obtain ⟨m, h6, h7⟩ := h5
      have := cacheSize_loop_le _ _ _ _ _ h7
      unfold subP at h6
      split at h6
      · cases h6
        omega
      · cases h6
    · cases h4
  · cases h2

/-- The size arithmetic shared by `is_consistent` and the constructors never goes below zero. -/
theorem cacheSize_le_range [FloatRows] {range b d size c : Nat} (h1 : merkleTreeLeafs range b = .ok size)
    (h2 : merkleTreeCacheSize size b d = .ok c) : c ≤ range := by
  obtain ⟨len, h3, h4⟩ := cacheSize_le h2
  have hp : b = nextPow2 b := by
    unfold merkleTreeLeafs at h1
    simp only [bind_ok_iff, ensure_ok_iff, exists_const] at h1
    exact h1.1
  obtain ⟨s, hs⟩ := (eq_nextPow2_iff b).1 hp
  rcases Nat.eq_zero_or_pos s with rfl | hs0
  · -- arity one
    simp only [Nat.pow_zero] at hs
    subst hs
    have : len = size := by
      unfold merkleTreeLen at h3
      simp only [bind_ok_iff, ensure_ok_iff, exists_const] at h3
      obtain ⟨-, -, h3⟩ := h3
      rw [if_neg (by decide), if_pos (by rfl)] at h3
      cases h3
      rfl
    omega
  · have hb : Arity b := ⟨s, hs0, hs⟩
    obtain ⟨k, rfl, hr⟩ := (merkleTreeLeafs_ok_iff hb _ _).1 h1
    have hk : 1 ≤ k := by
      by_contra hk
      obtain rfl : k = 0 := by omega
      unfold merkleTreeLen at h3
      simp only [bind_ok_iff, ensure_ok_iff, exists_const] at h3
      have := hb.two_le
      simp at h3
      omega
    rw [merkleTreeLen_pow hb hk] at h3
    cases h3
    have := Nat.pow_pos (n := k) (by have := hb.two_le; omega : 0 < b)
    rcases hr with hr | ⟨-, hr⟩ <;> omega

end Verif
