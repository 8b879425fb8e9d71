import Verif.Model.Sizing
import Verif.Spec.Sizes
import Verif.Lemmas.Res
import Mathlib.Algebra.Order.Ring.Nat
import Mathlib.Tactic.Ring
import Mathlib.Tactic.Linarith
import Mathlib.Data.Nat.Log
/-! Helper lemmas about the sizing functions. -/
namespace Verif
open Spec

theorem nextPow2.go_spec (n : Nat) : ∀ f p, n ≤ p * 2 ^ f → (∃ m, p = 2 ^ m) →
    n ≤ nextPow2.go n f p ∧ IsPow2 (nextPow2.go n f p) ∧
    (∀ m, n ≤ 2 ^ m → p ≤ 2 ^ m → nextPow2.go n f p ≤ 2 ^ m)
  | 0, p, h, hp => ⟨by simpa [nextPow2.go] using h, by simpa [nextPow2.go, IsPow2] using hp,
      fun m _ h2 => by simpa [nextPow2.go] using h2⟩
  | f + 1, p, h, hp => by
    unfold nextPow2.go
    split
    · exact ⟨by assumption, hp, fun _ _ h => h⟩
    · rename_i hn
      obtain ⟨m, rfl⟩ := hp
      have h2 : 2 * 2 ^ m = 2 ^ (m + 1) := by rw [Nat.pow_succ]; omega
      obtain ⟨a, b, c⟩ := nextPow2.go_spec n f (2 * 2 ^ m)
        (by rw [Nat.pow_succ] at h; calc n ≤ _ := h
              _ = _ := by ring) ⟨m + 1, h2⟩
      refine ⟨a, b, fun k hk hk2 => c k hk ?_⟩
      have : 2 ^ m < 2 ^ k := by omega
      have := (Nat.pow_lt_pow_iff_right (a := 2) (by omega)).1 this
      rw [h2]
      exact Nat.pow_le_pow_right (by omega) this

theorem nextPow2_spec (n : Nat) : n ≤ nextPow2 n ∧ IsPow2 (nextPow2 n) ∧
    (∀ m, n ≤ 2 ^ m → nextPow2 n ≤ 2 ^ m) := by
  obtain ⟨a, b, c⟩ := nextPow2.go_spec n n 1
    (by rw [Nat.one_mul]; exact Nat.le_of_lt Nat.lt_two_pow_self) ⟨0, rfl⟩
  exact ⟨a, b, fun m h => c m h Nat.one_le_two_pow⟩

theorem eq_nextPow2_iff (n : Nat) : n = nextPow2 n ↔ IsPow2 n := by
  obtain ⟨h1, h2, h3⟩ := nextPow2_spec n
  constructor
  · intro h; rw [h]; exact h2
  · rintro ⟨m, rfl⟩
    exact Nat.le_antisymm h1 (h3 m (Nat.le_refl _))

theorem nextPow2_pow (m : Nat) : nextPow2 (2 ^ m) = 2 ^ m := ((eq_nextPow2_iff _).2 ⟨m, rfl⟩).symm

theorem log2Pow2.go_pow : ∀ m f, m < f → log2Pow2.go f (2 ^ m) = m
  | 0, f + 1, _ => by simp [log2Pow2.go]
  | m + 1, f + 1, h => by
    have : 2 ^ (m + 1) % 2 = 0 := by rw [Nat.pow_succ]; omega
    have h2 : 2 ^ (m + 1) / 2 = 2 ^ m := by rw [Nat.pow_succ]; omega
    simp only [log2Pow2.go, this, h2, ↓reduceIte]
    rw [log2Pow2.go_pow m f (by omega)]

@[simp] theorem log2Pow2_pow (m : Nat) : log2Pow2 (2 ^ m) = m := by
  have : (2:Nat) ^ m ≠ 0 := Nat.pos_iff_ne_zero.1 (Nat.two_pow_pos m)
  simp only [log2Pow2, this, ↓reduceIte]
  exact log2Pow2.go_pow m _ Nat.lt_two_pow_self

theorem shiftRight_pow {b s : Nat} (hb : b = 2 ^ s) (n : Nat) : n >>> s = n / b := by
  rw [hb, Nat.shiftRight_eq_div_pow]

theorem Spec.Arity.two_le {b : Nat} (h : Arity b) : 2 ≤ b := by
  obtain ⟨s, hs, rfl⟩ := h
  calc 2 = 2 ^ 1 := rfl
    _ ≤ 2 ^ s := Nat.pow_le_pow_right (by omega) hs

theorem Spec.Arity.pow2 {b : Nat} (h : Arity b) : IsPow2 b := let ⟨s, _, h⟩ := h; ⟨s, h⟩

theorem Spec.Arity.shift {b : Nat} (h : Arity b) : b = 2 ^ log2Pow2 b ∧ 1 ≤ log2Pow2 b := by
  obtain ⟨s, hs, rfl⟩ := h
  simp [hs]

theorem Spec.Arity.shiftRight {b : Nat} (h : Arity b) (n : Nat) : n >>> log2Pow2 b = n / b :=
  shiftRight_pow h.shift.1 n

theorem Spec.Arity.pow_isPow2 {b : Nat} (h : Arity b) (k : Nat) : IsPow2 (b ^ k) := by
  obtain ⟨s, _, rfl⟩ := h
  exact ⟨s * k, by rw [Nat.pow_mul]⟩

/-- Sum of the row widths `n/b, n/b^2, ...` as computed by the loop. -/
theorem merkleTreeLen.loop_pow {b s : Nat} (hb : b = 2 ^ s) (hs : 1 ≤ s) (K : Nat) :
    ∀ k f len, k ≤ K → k + 1 < f → merkleTreeLen.loop (b ^ K) s f (b ^ k) len
      = .ok (len + (nodes b k - b ^ k)) := by
  have h2 : 2 ≤ b := Arity.two_le ⟨s, hs, hb⟩
  intro k
  induction k with
  | zero =>
    intro f len _ hf
    obtain ⟨f, rfl⟩ : ∃ g, f = g + 2 := ⟨f - 2, by omega⟩
    have h1 : 1 / b = 0 := Nat.div_eq_of_lt (by omega)
    have h0 : 0 < b ^ K := Nat.pow_pos (by omega)
    simp [merkleTreeLen.loop, shiftRight_pow hb, h1, ensure, h0, nodes]
  | succ k ih =>
    intro f len hk hf
    obtain ⟨f, rfl⟩ : ∃ g, f = g + 1 := ⟨f - 1, by omega⟩
    have hp : 0 < b ^ (k + 1) := Nat.pow_pos (by omega)
    have hd : b ^ (k + 1) / b = b ^ k := by
      rw [Nat.pow_succ]; exact Nat.mul_div_cancel _ (by omega)
    have hlt : b ^ k < b ^ K := Nat.pow_lt_pow_right (by omega) (by omega)
    have hge : ∀ k, b ^ k ≤ nodes b k := by
      intro k; cases k <;> simp [nodes]
    unfold merkleTreeLen.loop
    simp only [gt_iff_lt, hp, ↓reduceIte, shiftRight_pow hb, hd]
    rw [ensure_true hlt, Res.ok_bind, ih _ _ (by omega) (by omega)]
    have := hge k
    simp only [nodes]
    congr 1; omega

theorem pow_le_nodes (b k : Nat) : b ^ k ≤ nodes b k := by
  cases k <;> simp [nodes]

theorem nodes_two (k : Nat) : nodes 2 k = 2 * 2 ^ k - 1 := by
  induction k with
  | zero => rfl
  | succ k ih => simp only [nodes, ih, Nat.pow_succ]; have := Nat.two_pow_pos k; omega

theorem le_pow_of_two_le {b : Nat} (h : 2 ≤ b) (k : Nat) : k < b ^ k :=
  calc k < 2 ^ k := Nat.lt_two_pow_self
    _ ≤ b ^ k := Nat.pow_le_pow_left h k

theorem pow_le_iff {b k : Nat} (hb : 2 ≤ b) : b ≤ b ^ k ↔ 1 ≤ k := by
  constructor
  · intro h
    rcases k with _ | k
    · simp at h; omega
    · omega
  · intro h; exact Nat.le_self_pow (by omega) b

theorem merkleTreeLen_pow {b : Nat} (hb : Arity b) {k : Nat} (hk : 1 ≤ k) :
    merkleTreeLen (b ^ k) b = .ok (nodes b k) := by
  obtain ⟨s, hs, rfl⟩ := hb
  have h2 : 2 ≤ 2 ^ s := Arity.two_le ⟨s, hs, rfl⟩
  have hle : 2 ^ s ≤ (2 ^ s) ^ k := (pow_le_iff h2).2 hk
  unfold merkleTreeLen
  rw [ensure_true hle, Res.ok_bind, ensure_true (nextPow2_pow s).symm, Res.ok_bind]
  split
  · rename_i h
    rw [h, ensure_true (nextPow2_pow k).symm, Res.ok_bind, subP_ok, nodes_two]
    have := Nat.two_pow_pos k; omega
  · have hs0 : s ≠ 0 := by omega
    simp only [log2Pow2_pow, hs0, ↓reduceIte]
    rw [merkleTreeLen.loop_pow rfl hs k k _ _ (Nat.le_refl _)]
    · have := pow_le_nodes (2 ^ s) k
      congr 1; omega
    · have := le_pow_of_two_le h2 k; omega

/-- The floating point row count is right for the tree with `b^k` leaves. -/
def FloatRows.ExactAt [FloatRows] (b k : Nat) : Prop := b ≠ 2 → FloatRows.rows (b ^ k) b = k + 1

theorem rowCount_pow [FloatRows] {b k : Nat} (h : FloatRows.ExactAt b k) :
    merkleTreeRowCount (b ^ k) b = k + 1 := by
  unfold merkleTreeRowCount
  split
  · rename_i h2
    subst h2
    rw [← Nat.pow_succ, log2Pow2_pow]
  · rename_i h2; exact h h2

theorem merkleTreeCacheSize.loop_pow {b s : Nat} (hb : b = 2 ^ s) (hs : 1 ≤ s) :
    ∀ n k, n ≤ k → merkleTreeCacheSize.loop s (n + 1) (b ^ k) (nodes b k)
      = .ok (if n = k then 0 else nodes b (k - n - 1)) := by
  have h2 : 2 ≤ b := Spec.Arity.two_le ⟨s, hs, hb⟩
  intro n
  induction n with
  | zero =>
    intro k _
    have := pow_le_nodes b k
    cases k with
    | zero => simp [merkleTreeCacheSize.loop, subP, nodes]
    | succ k => simp [merkleTreeCacheSize.loop, subP, nodes]
  | succ n ih =>
    intro k hk
    obtain ⟨k, rfl⟩ : ∃ j, k = j + 1 := ⟨k - 1, by omega⟩
    have hd : b ^ (k + 1) / b = b ^ k := by
      rw [Nat.pow_succ]; exact Nat.mul_div_cancel _ (by omega)
    rw [merkleTreeCacheSize.loop, subP_ok (by simp [nodes]), Res.ok_bind, shiftRight_pow hb, hd]
    have : nodes b (k + 1) - b ^ (k + 1) = nodes b k := by simp [nodes]
    rw [this, ih k (by omega)]
    simp

theorem merkleTreeCacheSize_pow [FloatRows] {b k d : Nat} (hb : Arity b) (hk : 1 ≤ k)
    (hf : FloatRows.ExactAt b k) (hd : d < k) :
    merkleTreeCacheSize (b ^ k) b d = .ok (nodes b (k - 1 - d)) := by
  obtain ⟨h1, h2⟩ := hb.shift
  unfold merkleTreeCacheSize
  rw [merkleTreeLen_pow hb hk, Res.ok_bind, rowCount_pow hf]
  dsimp only
  rw [subP_ok (by omega), Res.ok_bind, ensure_true (by omega), Res.ok_bind, subP_ok (by omega), Res.ok_bind]
  have : k + 1 - (k + 1 - 1 - d) = d + 1 := by omega
  rw [this, merkleTreeCacheSize.loop_pow h1 h2 d k (by omega)]
  have : d ≠ k := by omega
  simp only [this, ↓reduceIte]
  congr 2; omega

theorem merkleTreeCacheSize_err [FloatRows] {b k d : Nat} (hb : Arity b) (hk : 1 ≤ k)
    (hf : FloatRows.ExactAt b k) (hd : k ≤ d) :
    Res.IsErr (merkleTreeCacheSize (b ^ k) b d) := by
  unfold merkleTreeCacheSize
  rw [merkleTreeLen_pow hb hk, Res.ok_bind, rowCount_pow hf]
  dsimp only
  rw [subP_ok (by omega), Res.ok_bind, ensure_false (by omega)]
  simp

theorem nodes_strictMono {b : Nat} (hb : 1 ≤ b) : StrictMono (nodes b) := by
  apply strictMono_nat_of_lt_succ
  intro n
  have : 0 < b ^ (n + 1) := Nat.pow_pos hb
  simp [nodes]; omega

theorem merkleTreeLeafs.loop_spec {b s : Nat} (hb : b = 2 ^ s) (len : Nat) (r : Nat) :
    ∀ f j cur, cur < f → cur + nodes b j = len + 1 →
      (merkleTreeLeafs.loop len s f (b ^ j) cur = .ok r ↔
        ∃ k, j ≤ k ∧ len = nodes b k ∧ r = b ^ k) ∧
      Res.Returns (merkleTreeLeafs.loop len s f (b ^ j) cur) := by
  have hb1 : 1 ≤ b := by rw [hb]; exact Nat.one_le_two_pow
  intro f
  induction f with
  | zero => intro j cur h; omega
  | succ f ih =>
    intro j cur hf hcur
    have hmono := nodes_strictMono hb1
    unfold merkleTreeLeafs.loop
    by_cases h1 : cur = 1
    · subst h1
      simp only [ne_eq, not_true_eq_false, ↓reduceIte, Except.ok.injEq]
      refine ⟨⟨fun h => ⟨j, Nat.le_refl _, by omega, h.symm⟩, ?_⟩, Or.inl (isOk_ok _)⟩
      rintro ⟨k, _, hk2, hk3⟩
      have : nodes b j = nodes b k := by omega
      rw [hk3, hmono.injective this]
    · simp only [ne_eq, h1, not_false_eq_true, ↓reduceIte]
      have hsh : b ^ j <<< s = b ^ (j + 1) := by
        rw [Nat.shiftLeft_eq, ← hb, Nat.pow_succ]
      have hn : nodes b (j + 1) = nodes b j + b ^ (j + 1) := rfl
      rw [hsh]
      have hpos : 0 < b ^ (j + 1) := Nat.pow_pos hb1
      by_cases h2 : cur > b ^ (j + 1)
      · have := pow_le_nodes b j
        have hn0 : 0 < nodes b j := Nat.lt_of_lt_of_le (Nat.pow_pos hb1) this
        rw [ensure_true h2, Res.ok_bind, subP_ok (by omega), Res.ok_bind,
          ensure_true (by omega), Res.ok_bind]
        have ⟨h3, h4⟩ := ih (j + 1) (cur - b ^ (j + 1)) (by omega) (by omega)
        refine ⟨h3.trans ⟨?_, ?_⟩, h4⟩
        · rintro ⟨k, a, b, c⟩; exact ⟨k, by omega, b, c⟩
        · rintro ⟨k, a, b', c⟩
          refine ⟨k, ?_, b', c⟩
          rcases Nat.lt_or_ge j k with h | h
          · exact h
          · have : k = j := by omega
            subst this; omega
      · rw [ensure_false h2]
        refine ⟨⟨fun h => by simp at h, ?_⟩, Or.inr ⟨_, rfl⟩⟩
        rintro ⟨k, a, b', c⟩
        exfalso
        rcases Nat.lt_or_ge j k with h | h
        · have := hmono.monotone (show j + 1 ≤ k from h)
          omega
        · have : k = j := by omega
          subst this; omega

theorem merkleTreeLeafs_ok_iff {b : Nat} (hb : Arity b) (len r : Nat) :
    merkleTreeLeafs len b = .ok r ↔
      ∃ k, r = b ^ k ∧ (len = nodes b k ∨ (b = 2 ∧ len + 1 = nodes b k)) := by
  unfold merkleTreeLeafs
  rw [ensure_true ((eq_nextPow2_iff b).2 hb.pow2), Res.ok_bind]
  by_cases h2 : b = 2
  · subst h2
    simp only [↓reduceIte, Res.ok_bind, ensure_bind_ok, eq_nextPow2_iff, nodes_two,
      Except.ok.injEq, true_and]
    constructor
    · rintro ⟨⟨m, hm⟩, rfl⟩
      refine ⟨m, hm, ?_⟩
      have := Nat.two_pow_pos m
      omega
    · rintro ⟨k, rfl, h⟩
      have := Nat.two_pow_pos k
      have hl : len / 2 + 1 = 2 ^ k := by omega
      exact ⟨⟨k, hl⟩, hl⟩
  · obtain ⟨h3, h4⟩ := hb.shift
    have key := fun r => (merkleTreeLeafs.loop_spec h3 len r (len + 1) 0 len (by omega)
      (by simp [nodes])).1
    simp only [Nat.pow_zero] at key
    simp only [h2, ↓reduceIte, bind_ok_iff, ensure_ok_iff, eq_nextPow2_iff, Except.ok.injEq,
      false_and, or_false, exists_const]
    constructor
    · rintro ⟨a, ha, _, rfl⟩
      obtain ⟨k, _, e1, e2⟩ := (key a).1 ha
      exact ⟨k, e2, e1⟩
    · rintro ⟨k, e1, e2⟩
      refine ⟨r, (key r).2 ⟨k, by omega, e2, e1⟩, ?_, rfl⟩
      rw [e1]; exact hb.pow_isPow2 k

theorem merkleTreeLeafs_returns (len b : Nat) : Res.Returns (merkleTreeLeafs len b) := by
  unfold merkleTreeLeafs
  by_cases hb : b = nextPow2 b
  · rw [ensure_true hb, Res.ok_bind]
    obtain ⟨s, rfl⟩ := (eq_nextPow2_iff b).1 hb
    have h : Res.Returns (if 2 ^ s = 2 then Except.ok (len / 2 + 1)
        else merkleTreeLeafs.loop len (log2Pow2 (2 ^ s)) (len + 1) 1 len) := by
      split
      · exact Or.inl (isOk_ok _)
      · rw [log2Pow2_pow]
        exact (merkleTreeLeafs.loop_spec rfl len 0 (len + 1) 0 len (by omega)
          (by simp [nodes])).2
    rcases h with ⟨a, ha⟩ | ⟨m, hm⟩
    · rw [ha, Res.ok_bind]
      by_cases h : a = nextPow2 a
      · rw [ensure_true h]; exact Or.inl (isOk_ok _)
      · rw [ensure_false h]; exact Or.inr (isErr_err _)
    · rw [hm]; exact Or.inr (isErr_err _)
  · rw [ensure_false hb]; exact Or.inr (isErr_err _)

theorem isMerkleTreeSizeValid.loop_pow {s : Nat} (hs : 1 ≤ s) (leafs : Nat) :
    ∀ m f, m < f → 2 ^ m ≤ leafs → isMerkleTreeSizeValid.loop leafs s f (2 ^ m)
      = .ok (decide (s ∣ m)) := by
  intro m
  induction m using Nat.strongRecOn with
  | _ m ih =>
    intro f hf hle
    obtain ⟨f, rfl⟩ : ∃ g, f = g + 1 := ⟨f - 1, by omega⟩
    unfold isMerkleTreeSizeValid.loop
    rcases Nat.eq_zero_or_pos m with h0 | h0
    · subst h0; simp
    · have h1 : (2:Nat) ^ m ≠ 1 := by
        have : 2 ^ 1 ≤ 2 ^ m := Nat.pow_le_pow_right (by omega) h0
        omega
      simp only [ne_eq, h1, not_false_eq_true, ↓reduceIte]
      rcases Nat.lt_or_ge m s with h2 | h2
      · have : 2 ^ m >>> s = 0 := by
          rw [Nat.shiftRight_eq_div_pow]
          exact Nat.div_eq_of_lt (Nat.pow_lt_pow_right (by omega) h2)
        have h3 : ¬ s ∣ m := fun h => by have := Nat.le_of_dvd h0 h; omega
        simp [this, h3]
      · have hsh : 2 ^ m >>> s = 2 ^ (m - s) := by
          rw [Nat.shiftRight_eq_div_pow, Nat.pow_div h2 (by omega)]
        rw [hsh]
        have hp := Nat.two_pow_pos (m - s)
        have hlt : 2 ^ (m - s) ≤ 2 ^ m := Nat.pow_le_pow_right (by omega) (by omega)
        have hc : ¬ (2 ^ (m - s) > leafs ∨ 2 ^ (m - s) = 0) := by omega
        simp only [hc, ↓reduceIte]
        rw [ih (m - s) (by omega) f (by omega) (by omega)]
        congr 2
        rw [eq_iff_iff, Nat.dvd_sub_iff_left h2 (Nat.dvd_refl s)]

theorem pow_eq_pow_iff_dvd {s m : Nat} : (∃ k, 2 ^ m = (2 ^ s) ^ k) ↔ s ∣ m := by
  constructor
  · rintro ⟨k, h⟩
    rw [← Nat.pow_mul] at h
    exact ⟨k, Nat.pow_right_injective (Nat.le_refl 2) h⟩
  · rintro ⟨k, rfl⟩
    exact ⟨k, by rw [Nat.pow_mul]⟩

theorem isMerkleTreeSizeValid.loop_one (leafs : Nat) : ∀ f, leafs ≠ 1 → 0 < leafs →
    isMerkleTreeSizeValid.loop leafs 0 f leafs = .error .diverge
  | 0, _, _ => rfl
  | f + 1, h, h0 => by
    unfold isMerkleTreeSizeValid.loop
    have : ¬ (leafs > leafs ∨ leafs = 0) := by omega
    simp only [ne_eq, h, not_false_eq_true, ↓reduceIte, Nat.shiftRight_zero, this]
    exact isMerkleTreeSizeValid.loop_one leafs f h h0

end Verif
