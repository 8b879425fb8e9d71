import Verif.Model.Sizing64
import Verif.Lemmas.Sizing
/-
Helper lemmas: the size arithmetic on words against the one on natural numbers.
-/
namespace Verif
open Spec Word

theorem Word.add_ok {o : Overflow} {a b : Nat} (h : a + b < wordSize) : add o a b = .ok (a + b) := by
  rw [add, if_pos h]
theorem Word.sub_ok {o : Overflow} {a b : Nat} (h : b ≤ a) : sub o a b = .ok (a - b) := by
  rw [sub, if_pos h]
theorem Word.mul_ok {o : Overflow} {a b : Nat} (h : a * b < wordSize) : mul o a b = .ok (a * b) := by
  rw [mul, if_pos h]
theorem Word.shr_ok {o : Overflow} {a s : Nat} (h : s < 64) : shr o a s = .ok (a >>> s) := by
  rw [shr, if_pos h]
theorem Word.shl_ok {o : Overflow} {a s : Nat} (h : s < 64) (h' : a <<< s < wordSize) :
    shl o a s = .ok (a <<< s) := by
  rw [shl, if_pos h, Nat.mod_eq_of_lt h']

theorem wordSize_eq : wordSize = 2 * 2 ^ 63 := by decide

theorem nextPow2_lt {n : Nat} (h : n ≤ 2 ^ 63) : nextPow2 n < wordSize :=
  Nat.lt_of_le_of_lt ((nextPow2_spec n).2.2 63 h) (by decide)

theorem Word.npow2_ok {o : Overflow} {n : Nat} (h : n ≤ 2 ^ 63) : npow2 o n = .ok (nextPow2 n) := by
  rw [npow2, if_pos (nextPow2_lt h)]

/-- Whether a word is its own next power of two is decided correctly even when that overflows. -/
theorem Word.npow2_wrapping {n : Nat} (hn : n < wordSize) :
    ∃ p, npow2 .wrapping n = .ok p ∧ (n = p ↔ n = nextPow2 n) := by
  unfold npow2
  split
  · exact ⟨_, rfl, Iff.rfl⟩
  · rename_i h
    refine ⟨0, rfl, ?_, ?_⟩
    · intro h0
      subst h0
      exact absurd (show nextPow2 0 < wordSize by decide) h
    · intro h0
      omega

theorem shift_lt {b : Nat} (hb : IsPow2 b) (h : b < wordSize) : log2Pow2 b < 64 := by
  obtain ⟨s, rfl⟩ := hb
  rw [log2Pow2_pow]
  exact (Nat.pow_lt_pow_iff_right (a := 2) (by omega)).1 h

theorem pow2_le_half {n : Nat} (hn : IsPow2 n) (h : n < wordSize) : n ≤ 2 ^ 63 := by
  obtain ⟨s, rfl⟩ := hn
  have : s < 64 := (Nat.pow_lt_pow_iff_right (a := 2) (by omega)).1 h
  exact Nat.pow_le_pow_right (by omega) (by omega)

/-! ### `get_merkle_tree_len` -/

theorem merkleTreeLen64.loop_eq {o : Overflow} {leafs s : Nat} (h1 : 1 ≤ s) (h64 : s < 64) :
    ∀ f cur len, len + cur ≤ wordSize →
      merkleTreeLen64.loop o leafs s f cur len = merkleTreeLen.loop leafs s f cur len
  | 0, _, _, _ => rfl
  | f + 1, cur, len, h => by
    unfold merkleTreeLen64.loop merkleTreeLen.loop
    by_cases hc : cur > 0
    · rw [if_pos hc, if_pos hc, Word.shr_ok h64, Res.ok_bind]
      have hd : 2 * (cur >>> s) ≤ cur := by
        rw [Nat.shiftRight_eq_div_pow]
        have h2 : 2 ≤ 2 ^ s := Arity.two_le ⟨s, h1, rfl⟩
        calc 2 * (cur / 2 ^ s) ≤ 2 ^ s * (cur / 2 ^ s) := Nat.mul_le_mul_right _ h2
          _ ≤ cur := Nat.mul_div_le _ _
      dsimp only
      congr 1
      funext _
      rw [Word.add_ok (by omega), Res.ok_bind]
      exact merkleTreeLen64.loop_eq h1 h64 f _ _ (by omega)
    · rw [if_neg hc, if_neg hc]

theorem merkleTreeLen64_eq {o : Overflow} {leafs b : Nat} (h : leafs ≤ 2 ^ 63)
    (ho : o = .wrapping ∨ leafs < 2 ^ 63 ∨ b ≠ 2) :
    merkleTreeLen64 o leafs b = merkleTreeLen leafs b := by
  unfold merkleTreeLen64 merkleTreeLen
  by_cases hb : leafs ≥ b
  · rw [ensure_true hb, Res.ok_bind, Res.ok_bind, Word.npow2_ok (by omega), Res.ok_bind]
    by_cases hp : b = nextPow2 b
    · rw [ensure_true hp, Res.ok_bind, Res.ok_bind]
      by_cases h2 : b = 2
      · rw [if_pos h2, if_pos h2, Word.npow2_ok h, Res.ok_bind]
        congr 1
        funext _
        have hw := wordSize_eq
        rcases Nat.lt_or_ge leafs (2 ^ 63) with hl | hl
        · rw [Word.mul_ok (by omega), Res.ok_bind, Word.sub_ok (by omega), subP_ok (by omega)]
        · have hl' : leafs = 2 ^ 63 := by omega
          rcases ho with rfl | ho | ho
          · subst hl'
            decide
          · omega
          · exact absurd h2 ho
      · rw [if_neg h2, if_neg h2]
        have hb2 : IsPow2 b := (eq_nextPow2_iff b).1 hp
        have hs := shift_lt hb2 (by have := wordSize_eq; omega)
        show (if log2Pow2 b = 0 then _ else _) = (if log2Pow2 b = 0 then _ else _)
        split
        · rfl
        · exact merkleTreeLen64.loop_eq (by omega) hs _ _ _ (by have := wordSize_eq; omega)
    · rw [ensure_false hp, Res.error_bind, Res.error_bind]
  · rw [ensure_false hb, Res.error_bind, Res.error_bind]

/-! ### `get_merkle_tree_row_count`, `get_merkle_tree_cache_size` -/

theorem merkleTreeRowCount64_eq [FloatRows] {o : Overflow} {leafs b : Nat} (h : leafs ≤ 2 ^ 63)
    (ho : o = .wrapping ∨ leafs < 2 ^ 63 ∨ b ≠ 2) :
    merkleTreeRowCount64 o leafs b = .ok (merkleTreeRowCount leafs b) := by
  unfold merkleTreeRowCount64 merkleTreeRowCount
  by_cases h2 : b = 2
  · rw [if_pos h2, if_pos h2]
    subst h2
    have hw := wordSize_eq
    rcases Nat.lt_or_ge leafs (2 ^ 63) with hl | hl
    · rw [Word.mul_ok (by omega)]
      rfl
    · have hl' : leafs = 2 ^ 63 := by omega
      rcases ho with rfl | ho | ho
      · subst hl'
        show Except.ok (log2Pow2 ((2 ^ 63 * 2) % wordSize)) = _
        rw [show (2 ^ 63 * 2 : Nat) = 2 ^ 64 from rfl, log2Pow2_pow]
        decide
      · omega
      · exact absurd rfl ho
  · rw [if_neg h2, if_neg h2]

theorem merkleTreeCacheSize64.loop_zero {o : Overflow} {s : Nat} (h64 : s < 64) :
    ∀ n x, merkleTreeCacheSize64.loop o s n 0 x = merkleTreeCacheSize.loop s n 0 x
  | 0, _ => rfl
  | n + 1, x => by
    rw [merkleTreeCacheSize64.loop, merkleTreeCacheSize.loop, Word.sub_ok (by omega), subP_ok (by omega),
      Res.ok_bind, Res.ok_bind, Word.shr_ok h64, Res.ok_bind, Nat.zero_shiftRight]
    exact merkleTreeCacheSize64.loop_zero h64 n _

/-- The rows that are subtracted were added before, so the subtraction does not underflow. -/
theorem merkleTreeCacheSize64.loop_eq {o : Overflow} {leafs s : Nat} (h64 : s < 64) :
    ∀ f cur len r, merkleTreeLen.loop leafs s f cur len = .ok r →
      ∃ T, r = len + T ∧ ∀ n x, T ≤ x →
        merkleTreeCacheSize64.loop o s n (cur >>> s) x = merkleTreeCacheSize.loop s n (cur >>> s) x
  | 0, _, _, _, h => by simp [merkleTreeLen.loop] at h
  | f + 1, cur, len, r, h => by
    unfold merkleTreeLen.loop at h
    by_cases hc : cur > 0
    · rw [if_pos hc] at h
      dsimp only at h
      rw [ensure_bind_ok] at h
      obtain ⟨T, e, ih⟩ := merkleTreeCacheSize64.loop_eq (o := o) h64 f _ _ _ h.2
      refine ⟨cur >>> s + T, by omega, fun n x hx => ?_⟩
      cases n with
      | zero => rfl
      | succ n =>
        rw [merkleTreeCacheSize64.loop, merkleTreeCacheSize.loop, Word.sub_ok (by omega),
          subP_ok (by omega), Res.ok_bind, Res.ok_bind, Word.shr_ok h64, Res.ok_bind]
        exact ih n _ (by omega)
    · rw [if_neg hc] at h
      have hc0 : cur = 0 := by omega
      subst hc0
      refine ⟨0, by simpa using h.symm, fun n x _ => ?_⟩
      rw [Nat.zero_shiftRight]
      exact merkleTreeCacheSize64.loop_zero h64 n x

theorem merkleTreeCacheSize64_eq [FloatRows] {o : Overflow} {leafs b d : Nat} (h : leafs ≤ 2 ^ 63)
    (ho : o = .wrapping ∨ leafs < 2 ^ 63 ∨ b ≠ 2) (hb1 : b ≠ 1)
    (hr : 1 ≤ merkleTreeRowCount leafs b) :
    merkleTreeCacheSize64 o leafs b d = merkleTreeCacheSize leafs b d := by
  unfold merkleTreeCacheSize64 merkleTreeCacheSize
  dsimp only
  rw [merkleTreeLen64_eq h ho]
  cases hl : merkleTreeLen leafs b with
  | error e => rfl
  | ok len =>
    simp only [Res.ok_bind, merkleTreeRowCount64_eq h ho, Word.sub_ok hr, subP_ok hr]
    by_cases hd : merkleTreeRowCount leafs b - 1 > d
    · have hd' : d ≤ merkleTreeRowCount leafs b - 1 := by omega
      simp only [ensure_true hd, Res.ok_bind, Word.sub_ok hd', subP_ok hd']
      -- `len` is `leafs` plus the rows above
      unfold merkleTreeLen at hl
      simp only [ensure_bind_ok] at hl
      obtain ⟨h1, h2, h3⟩ := hl
      have hp : IsPow2 b := (eq_nextPow2_iff b).1 h2
      have hs : log2Pow2 b < 64 := shift_lt hp (by have := wordSize_eq; omega)
      have key : ∃ f, merkleTreeLen.loop leafs (log2Pow2 b) f leafs leafs = .ok len := by
        by_cases hb2 : b = 2
        · rw [if_pos hb2, ensure_bind_ok] at h3
          obtain ⟨m, rfl⟩ := (eq_nextPow2_iff leafs).1 h3.1
          subst hb2
          refine ⟨2 ^ m + 2, ?_⟩
          rw [show log2Pow2 2 = 1 from by decide,
            merkleTreeLen.loop_pow (b := 2) rfl (le_refl _) m m _ _ (le_refl _)
              (by have := Nat.lt_two_pow_self (n := m); omega), ← h3.2, subP_ok, nodes_two]
          · congr 1
            have := Nat.two_pow_pos m
            omega
          · have := Nat.two_pow_pos m
            omega
        · rw [if_neg hb2] at h3
          obtain ⟨s, rfl⟩ := hp
          have hs0 : s ≠ 0 := by
            rintro rfl
            exact hb1 rfl
          simp only [log2Pow2_pow, hs0, if_false] at h3 ⊢
          exact ⟨_, h3⟩
      obtain ⟨f, hf⟩ := key
      obtain ⟨T, e, ih⟩ := merkleTreeCacheSize64.loop_eq (o := o) hs _ _ _ _ hf
      obtain ⟨n, hn⟩ : ∃ n, merkleTreeRowCount leafs b - (merkleTreeRowCount leafs b - 1 - d) = n + 1 :=
        ⟨d, by omega⟩
      rw [hn, merkleTreeCacheSize64.loop, merkleTreeCacheSize.loop, Word.sub_ok (by omega),
        subP_ok (by omega), Res.ok_bind, Res.ok_bind]
      show (shr o leafs (log2Pow2 b) >>= _) = _
      rw [Word.shr_ok hs, Res.ok_bind]
      exact ih n _ (by omega)
    · simp only [ensure_false hd, Res.error_bind]

/-! ### `is_merkle_tree_size_valid` -/

theorem isMerkleTreeSizeValid64.loop_eq {o : Overflow} {leafs s : Nat} (h64 : s < 64) :
    ∀ f cur, isMerkleTreeSizeValid64.loop o leafs s f cur = isMerkleTreeSizeValid.loop leafs s f cur
  | 0, _ => rfl
  | f + 1, cur => by
    unfold isMerkleTreeSizeValid64.loop isMerkleTreeSizeValid.loop
    split
    · rw [Word.shr_ok h64, Res.ok_bind]
      dsimp only
      split
      · rfl
      · exact isMerkleTreeSizeValid64.loop_eq h64 f _
    · rfl

theorem isMerkleTreeSizeValid64_eq {o : Overflow} {leafs b : Nat} (hl : leafs < wordSize)
    (hb : b < wordSize) (ho : o = .wrapping ∨ leafs ≤ 2 ^ 63 ∧ b ≤ 2 ^ 63) :
    isMerkleTreeSizeValid64 o leafs b = isMerkleTreeSizeValid leafs b := by
  have key : ∀ n, n < wordSize → (o = .wrapping ∨ n ≤ 2 ^ 63) →
      ∃ p, npow2 o n = .ok p ∧ (n = p ↔ n = nextPow2 n) := by
    intro n hn ho
    rcases ho with rfl | ho
    · exact Word.npow2_wrapping hn
    · exact ⟨_, Word.npow2_ok ho, Iff.rfl⟩
  obtain ⟨p, hp1, hp2⟩ := key leafs hl (ho.imp id And.left)
  obtain ⟨q, hq1, hq2⟩ := key b hb (ho.imp id And.right)
  unfold isMerkleTreeSizeValid64 isMerkleTreeSizeValid
  rw [hp1, hq1]
  simp only [Res.ok_bind]
  by_cases h0 : b = 0
  · simp [h0]
  · by_cases h1 : leafs = nextPow2 leafs
    · by_cases h2 : b = nextPow2 b
      · rw [if_neg h0, if_neg (by simpa using hp2.2 h1), if_neg (by simpa using hq2.2 h2),
          if_neg (by rintro (h | h | h); exacts [h0 h, h h1, h h2])]
        exact isMerkleTreeSizeValid64.loop_eq (shift_lt ((eq_nextPow2_iff b).1 h2) hb) _ _
      · rw [if_neg h0, if_neg (by simpa using hp2.2 h1), if_pos (fun h => h2 (hq2.1 h)),
          if_pos (Or.inr (Or.inr h2))]
    · rw [if_neg h0, if_pos (fun h => h1 (hp2.1 h)), if_pos (Or.inr (Or.inl h1))]

/-! ### `get_merkle_tree_leafs` -/

theorem merkleTreeLeafs64.loop_eq {o : Overflow} {b s K len : Nat} (hb : b = 2 ^ s) (h64 : s < 64)
    (hK : b ^ K < wordSize) (hlen : len ≤ nodes b K) :
    ∀ f g j cur, cur < f → cur < g → j ≤ K → cur + nodes b j = len + 1 → (cur = 0 → j = 0) →
      b ^ (j + 1) < wordSize ∨ 0 < cur →
      merkleTreeLeafs64.loop o len s f (b ^ j) cur = merkleTreeLeafs.loop len s g (b ^ j) cur := by
  have hb1 : 1 ≤ b := by rw [hb]; exact Nat.one_le_two_pow
  intro f
  induction f with
  | zero => intro g j cur h; omega
  | succ f ih =>
    intro g j cur hf hg hj hcur h0 hcap
    obtain ⟨g, rfl⟩ : ∃ g', g = g' + 1 := ⟨g - 1, by omega⟩
    unfold merkleTreeLeafs64.loop merkleTreeLeafs.loop
    by_cases h1 : cur = 1
    · rw [if_neg (by simp [h1]), if_neg (by simp [h1])]
    · rw [if_pos h1, if_pos h1]
      have hsh : b ^ j <<< s = b ^ (j + 1) := by rw [Nat.shiftLeft_eq, ← hb, Nat.pow_succ]
      have hlt : b ^ (j + 1) < wordSize := by
        rcases hcap with h | h
        · exact h
        · rcases Nat.lt_or_ge j K with hjK | hjK
          · exact Nat.lt_of_le_of_lt (Nat.pow_le_pow_right hb1 hjK) hK
          · have : j = K := by omega
            subst this
            omega
      rw [Word.shl_ok h64 (by rw [hsh]; exact hlt), Res.ok_bind]
      dsimp only
      rw [hsh]
      by_cases h2 : cur > b ^ (j + 1)
      · have hpos : 0 < b ^ (j + 1) := Nat.pow_pos hb1
        rw [ensure_true h2, Res.ok_bind, Res.ok_bind, Word.sub_ok (by omega), subP_ok (by omega), Res.ok_bind,
          Res.ok_bind]
        have hn : nodes b (j + 1) = nodes b j + b ^ (j + 1) := rfl
        congr 1
        funext _
        have hjK : j + 1 ≤ K := by
          by_contra hc
          have : j = K := by omega
          subst this
          omega
        exact ih g (j + 1) _ (by omega) (by omega) hjK (by omega) (by omega) (Or.inr (by omega))
      · rw [ensure_false h2, Res.error_bind, Res.error_bind]

/-- Results of the loop are powers of the arity. -/
theorem merkleTreeLeafs.loop_pow2 {s len : Nat} : ∀ f leafs cur r, IsPow2 leafs →
    merkleTreeLeafs.loop len s f leafs cur = .ok r → IsPow2 r ∧ (r = leafs ∨ r ≤ cur)
  | 0, _, _, _, _, h => by simp [merkleTreeLeafs.loop] at h
  | f + 1, leafs, cur, r, hp, h => by
    unfold merkleTreeLeafs.loop at h
    by_cases h1 : cur = 1
    · rw [if_neg (by simp [h1])] at h
      simp only [Except.ok.injEq] at h
      subst h
      exact ⟨hp, Or.inl rfl⟩
    · rw [if_pos h1] at h
      dsimp only at h
      simp only [bind_ok_iff, ensure_ok_iff, exists_const] at h
      obtain ⟨h2, c, h3, h4, h5⟩ := h
      rw [subP_ok (by omega)] at h3
      simp only [Except.ok.injEq] at h3
      obtain ⟨m, rfl⟩ := hp
      obtain ⟨a1, a2⟩ := merkleTreeLeafs.loop_pow2 f _ _ _ ⟨m + s, by rw [Nat.shiftLeft_eq, Nat.pow_add]⟩ h5
      have a3 : c ≤ cur := h3 ▸ Nat.sub_le _ _
      have a4 : 2 ^ m <<< s < cur := h2
      refine ⟨a1, Or.inr ?_⟩
      rcases a2 with a2 | a2
      · rw [a2]; exact Nat.le_of_lt a4
      · exact Nat.le_trans a2 a3

theorem merkleTreeLeafs64_eq {o : Overflow} {len b K fuel : Nat} (hl : len < wordSize)
    (hb : b < wordSize) (hK : b ^ K < wordSize) (hlen : len ≤ nodes b K) (hf : len < fuel)
    (ho : o = .wrapping ∨ b ≤ 2 ^ 63) :
    merkleTreeLeafs64 o fuel len b = merkleTreeLeafs len b := by
  have key : ∃ p, npow2 o b = .ok p ∧ (b = p ↔ b = nextPow2 b) := by
    rcases ho with rfl | ho
    · exact Word.npow2_wrapping hb
    · exact ⟨_, Word.npow2_ok ho, Iff.rfl⟩
  obtain ⟨p, hp1, hp2⟩ := key
  have hw := wordSize_eq
  unfold merkleTreeLeafs64 merkleTreeLeafs
  rw [hp1, Res.ok_bind]
  by_cases hp : b = nextPow2 b
  · rw [ensure_true (hp2.2 hp), ensure_true hp, Res.ok_bind, Res.ok_bind]
    by_cases h2 : b = 2
    · rw [if_pos h2, if_pos h2, Word.shr_ok (by omega), Res.ok_bind, Nat.shiftRight_eq_div_pow,
        Word.add_ok (by omega), Res.ok_bind, Res.ok_bind, Word.npow2_ok (by omega), Res.ok_bind]
    · rw [if_neg h2, if_neg h2]
      obtain ⟨s, hs⟩ := (eq_nextPow2_iff b).1 hp
      have hlog : log2Pow2 b = s := by rw [hs, log2Pow2_pow]
      have h64 : s < 64 := hlog ▸ shift_lt ⟨s, hs⟩ hb
      have e := merkleTreeLeafs64.loop_eq (o := o) (b := b) (s := s) (K := K) (len := len) hs h64 hK hlen
        fuel (len + 1) 0 len hf (by omega) (by omega) (by simp [nodes]) (fun _ => rfl)
        (by
          rcases Nat.eq_zero_or_pos len with h | h
          · left; simpa using hb
          · exact Or.inr h)
      rw [Nat.pow_zero] at e
      show (merkleTreeLeafs64.loop o len (log2Pow2 b) fuel 1 len >>= _) = _
      rw [hlog, e]
      cases hr : merkleTreeLeafs.loop len s (len + 1) 1 len with
      | error _ => rfl
      | ok r =>
        obtain ⟨a1, a2⟩ := merkleTreeLeafs.loop_pow2 _ _ _ _ ⟨0, rfl⟩ hr
        rw [Res.ok_bind, Res.ok_bind, Word.npow2_ok (pow2_le_half a1 (by
          rcases a2 with a2 | a2
          · rw [a2]; decide
          · omega)), Res.ok_bind]
  · rw [ensure_false (fun h => hp (hp2.1 h)), ensure_false hp, Res.error_bind, Res.error_bind]

/-- Once the leaf count has been shifted out of the word, the loop does not end. -/
theorem merkleTreeLeafs64.loop_stuck {o : Overflow} {len s : Nat} (h64 : s < 64) {cur : Nat}
    (h1 : 1 < cur) (h2 : cur < len) : ∀ f, merkleTreeLeafs64.loop o len s f 0 cur = .error .diverge
  | 0 => rfl
  | f + 1 => by
    unfold merkleTreeLeafs64.loop
    have h0 : (0 : Nat) <<< s = 0 := by rw [Nat.shiftLeft_eq, Nat.zero_mul]
    rw [if_pos (by omega), Word.shl_ok h64 (by rw [h0]; decide), Res.ok_bind, h0, ensure_true (by omega),
      Res.ok_bind, Word.sub_ok (by omega), Res.ok_bind, Nat.sub_zero, ensure_true h2, Res.ok_bind]
    exact merkleTreeLeafs64.loop_stuck h64 h1 h2 f

theorem merkleTreeLeafs64.loop_beyond {o : Overflow} {b s K len : Nat} (hb : b = 2 ^ s)
    (h64 : s < 64) (hK : b ^ K < wordSize) (hK' : wordSize ≤ b ^ (K + 1)) (hlen : nodes b K < len) :
    ∀ f j cur, j ≤ K → cur + nodes b j = len + 1 → 1 ≤ K → (j = 0 ∨ cur < len) →
      merkleTreeLeafs64.loop o len s f (b ^ j) cur = .error .diverge := by
  have hb1 : 1 ≤ b := by rw [hb]; exact Nat.one_le_two_pow
  have hmono := (nodes_strictMono hb1).monotone
  intro f
  induction f with
  | zero => intros; rfl
  | succ f ih =>
    intro j cur hj hcur hK1 hjc
    have hjK := hmono hj
    unfold merkleTreeLeafs64.loop
    rw [if_pos (by omega)]
    have hsh : b ^ j <<< s = b ^ (j + 1) := by rw [Nat.shiftLeft_eq, ← hb, Nat.pow_succ]
    rcases Nat.lt_or_ge j K with hlt | hge
    · have hw : b ^ (j + 1) < wordSize := Nat.lt_of_le_of_lt (Nat.pow_le_pow_right hb1 hlt) hK
      have hn : nodes b (j + 1) = nodes b j + b ^ (j + 1) := rfl
      have hm := hmono (show j + 1 ≤ K from hlt)
      have hpos : 0 < b ^ (j + 1) := Nat.pow_pos hb1
      have hnj : 1 ≤ nodes b j := by have := pow_le_nodes b j; have := Nat.pow_pos (n := j) hb1; omega
      rw [Word.shl_ok h64 (by rw [hsh]; exact hw), Res.ok_bind, hsh, ensure_true (by omega), Res.ok_bind,
        Word.sub_ok (by omega), Res.ok_bind, ensure_true (by omega), Res.ok_bind]
      exact ih (j + 1) _ hlt (by omega) hK1 (Or.inr (by omega))
    · have hjK' : j = K := by omega
      subst hjK'
      have hz : (b ^ j <<< s) % wordSize = 0 := by
        rw [hsh, hb, ← Nat.pow_mul]
        apply Nat.mod_eq_zero_of_dvd
        apply Nat.pow_dvd_pow
        rw [hb, ← Nat.pow_mul] at hK'
        exact (Nat.pow_le_pow_iff_right (a := 2) (by omega)).1 hK'
      have hcl : cur < len := by omega
      rw [shl, if_pos h64, hz, Res.ok_bind, ensure_true (by omega), Res.ok_bind, Word.sub_ok (by omega),
        Res.ok_bind, Nat.sub_zero, ensure_true hcl, Res.ok_bind]
      exact merkleTreeLeafs64.loop_stuck h64 (by omega) hcl f

end Verif
