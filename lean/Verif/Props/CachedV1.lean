import Verif.Lemmas.CachedPath
import Verif.Props.CachedProof
/-! Property C28 on files of version 1 when `gen_cached_proof` takes fewer rows as discarded than were
discarded: which leaves get `Err`, and which a different proof. -/
set_option linter.unusedSectionVars false
namespace Verif
open Spec StoreOps

section
variable {E : Type} [Element E] [LawfulElement E] [FloatRows] {A : Alg E} {b k : Nat}

/-- The block of siblings of a node lies in the row. -/
theorem sibling_block {i l : Nat} (hb : 2 ≤ b) (hi : i < b ^ k) (hlk : l < k) :
    i / b ^ l / b * b + b ≤ b ^ (k - l) := by
  have : i / b ^ l / b < b ^ (k - l - 1) := by
    rw [Nat.div_lt_iff_lt_mul (by omega), Nat.div_lt_iff_lt_mul (Nat.pow_pos (by omega)),
      ← Nat.pow_succ, ← Nat.pow_add]
    rwa [show k - l - 1 + 1 + l = k by omega]
  calc i / b ^ l / b * b + b = (i / b ^ l / b + 1) * b := by ring
    _ ≤ b ^ (k - l - 1) * b := Nat.mul_le_mul_right _ this
    _ = b ^ (k - l) := by rw [← Nat.pow_succ]; congr 1; omega

omit [Element E] [LawfulElement E] [FloatRows] in
/-- The proof for leaf 2 or 3 of a binary tree shows the first node of row one. -/
theorem honestProof_second {x y : Nat → E} {i : Nat} (hk : 2 ≤ k) (hi : i / 2 = 1)
    (h : honestProof x 2 k i = honestProof y 2 k i) : x (2 ^ k) = y (2 ^ k) := by
  simp only [honestProof, Proof.base.injEq, true_and] at h
  obtain ⟨n, rfl⟩ : ∃ n, k = n + 2 := ⟨k - 2, by omega⟩
  have h1 := congrArg (fun l => l[2]?) h.1
  have hs1 : ∀ x : Nat → E, sibs x 2 (rowStart 2 (n + 2) 1) 1 = [x (2 ^ (n + 2))] := fun x => by
    simp [sibs, rowStart, List.range_succ]
  have hs0 : ∀ x : Nat → E, ∃ e, sibs x 2 0 i = [e] := fun x => by
    rcases (show i = 2 ∨ i = 3 by omega) with rfl | rfl
    · exact ⟨x 3, by simp [sibs, List.range_succ]⟩
    · exact ⟨x 2, by simp [sibs, List.range_succ]⟩
  have ha : ∀ x : Nat → E, ∃ e rest, auth x 2 (n + 2) (n + 2) i = e :: x (2 ^ (n + 2)) :: rest := fun x => by
    obtain ⟨e, he⟩ := hs0 x
    refine ⟨e, auth x 2 (n + 2) n (1 / 2), ?_⟩
    rw [auth, auth, hi, show n + 2 - (n + 1) = 1 by omega, hs1, show n + 2 - (n + 1 + 1) = 0 by omega]
    show sibs x 2 0 i ++ _ = _
    rw [he]
    rfl
  obtain ⟨e1, r1, a1⟩ := ha x
  obtain ⟨e2, r2, a2⟩ := ha y
  rw [a1, a2] at h1
  simpa only [List.cons_append, List.getElem?_cons_succ, List.getElem?_cons_zero, Option.some.injEq] using h1

/-- **C28** for a level-cache tree over a version 1 file, when fewer rows are taken as discarded than
were discarded: `gen_cached_proof` returns `Err` for every leaf, except for the leaves 2 and 3 of a
binary tree with one discarded row.  For those it returns the full tree's proof with the first cached
node in place of the discarded sibling; this is not the full tree's proof unless the two nodes are
equal. -/
theorem C28_v1_uncovered_refuted (hb : Arity b) (hb' : b ≤ buildChunkNodes) (hk : 1 ≤ k)
    (hf : ∀ j, j ≤ k → FloatRows.ExactAt b j) {leaves : List E} {f : Nat → E} {c : StoreConfig} {fs : FS}
    {t : BaseTree (DiskStore E) E}
    (ht : t.IsFileTree A b k leaves f c fs) (hd : c.rowsToDiscard < k)
    {t' : BaseTree (DiskStore E) E} {fs' : FS} (h : t.compact b c 1 fs = (.ok true, t', fs')) :
    ∃ (s : LevelCacheStore E) (u : BaseTree (LevelCacheStore E) E),
      LevelCacheStore.newFromDisk t.length b c fs' = (.ok s, fs') ∧
      BaseTree.fromDataStore b 0 0 s t.leafs fs' = .ok u ∧
      ∀ (σ : Sched), σ.Valid → ∀ rows : Option Nat,
        BaseTree.effectiveDiscard t.leafs b rows < c.rowsToDiscard → ∀ i, i < t.leafs →
          (¬ (b = 2 ∧ c.rowsToDiscard = 1 ∧ i / 2 = 1) →
            ∃ m, u.genCachedProof A b 0 0 σ i rows fs' = (.error (.err m), fs')) ∧
          (b = 2 ∧ c.rowsToDiscard = 1 ∧ i / 2 = 1 → ∃ p q,
            u.genCachedProof A b 0 0 σ i rows fs' = (.ok p, fs') ∧ t.genProof b 0 0 fs i = .ok q ∧
            p = honestProof (fun n => if n = b ^ k then f (rowStart b k 2) else f n) b k i ∧
            (f (b ^ k) ≠ f (rowStart b k 2) → p ≠ q)) := by
  obtain ⟨s, hs, hl, hsr, hfile⟩ := LevelCacheStore.open_v1 hb hk (hf k (Nat.le_refl _)) ht hd h
  have hb2 := hb.two_le
  have hp := nodes_pos b k
  have hle := LevelCacheStore.rowStart_cache (b := b) hd
  have hp2 := nodes_pos b (k - 1 - c.rowsToDiscard)
  have hge := pow_le_rowStart b k c.rowsToDiscard
  have hcount := ht.layout.count
  have hlow : ∀ i, i < b ^ k → LevelCacheStore.readAt fs' s i = .ok (f i) := fun i hi => by
    rw [ht.layout.leaf i (by omega)]; exact hl.readAt_base_v1 hsr hcount hfile _
  have hhigh : ∀ i, rowStart b k (c.rowsToDiscard + 1) ≤ i → i < nodes b k →
      LevelCacheStore.readAt fs' s i = .ok (f i) := fun i h1 h2 =>
    hl.readAt_cached_v1 hd hsr hcount hfile h1 h2
  have hmid : ∀ i, b ^ k < i → i < rowStart b k (c.rowsToDiscard + 1) →
      Res.IsErr (LevelCacheStore.readAt fs' s i) := fun i h1 h2 => hl.discarded_err h1 h2 _
  refine ⟨s, ⟨s, b ^ k, nodes b k, k + 1, f (nodes b k - 1)⟩, hs, ?_, fun σ hσ rows he i hi => ?_⟩
  · rw [ht.leafs]; exact fromDataStore_view hb hk (hf k (Nat.le_refl _)) hl (hhigh _ (by omega) (by omega))
  rw [ht.leafs] at he hi
  have h1 : 1 ≤ c.rowsToDiscard := by omega
  have hbd := hl.readAt_boundary_v1 hd h1 hsr hcount hb2 hfile
  have hrc : (⟨s, b ^ k, nodes b k, k + 1, f (nodes b k - 1)⟩ : BaseTree (LevelCacheStore E) E).ReadsCached
      fs' b k c.rowsToDiscard leaves f := BaseTree.readsCached_v1 ht.layout hd hl hsr rfl rfl rfl hfile
  have hret : ∀ i, Res.Returns (LevelCacheStore.readAt fs' s i) := fun i => by
    rcases Nat.lt_or_ge i (b ^ k) with h1' | h1'
    · exact .inl ⟨_, hlow i h1'⟩
    · rcases Nat.lt_or_ge i (rowStart b k (c.rowsToDiscard + 1)) with h2 | h2
      · rcases Nat.lt_or_ge (b ^ k) i with h3 | h3
        · exact .inr (hmid i h3 h2)
        · obtain rfl : i = b ^ k := by omega
          exact .inl ⟨_, hbd⟩
      · rcases Nat.lt_or_ge i (nodes b k) with h3 | h3
        · exact .inl ⟨_, hhigh i h2 h3⟩
        · exact .inr (LevelCacheStore.readAt_err_len (by rw [hl.len]; exact h3) _)
  have h7 : rowStart b k 2 = b ^ k + b ^ (k - 1) := by simp [rowStart]
  have h8 : rowStart b k 1 = b ^ k := by simp [rowStart]
  have hrl := hf k (Nat.le_refl _)
  have hrr := hf (k - 1 - BaseTree.effectiveDiscard (b ^ k) b rows) (by omega)
  -- a sibling at or above the first row looked up, beyond the boundary
  have hdead : ∀ l, BaseTree.effectiveDiscard (b ^ k) b rows < l → l ≤ c.rowsToDiscard →
      ∀ x, i / b ^ l / b * b ≤ x → x < i / b ^ l / b * b + b → x ≠ i / b ^ l →
      b ^ k < rowStart b k l + x →
      ∃ m, BaseTree.genCachedProof A b 0 0 σ
        (⟨s, b ^ k, nodes b k, k + 1, f (nodes b k - 1)⟩ : BaseTree (LevelCacheStore E) E) i rows fs'
          = (.error (.err m), fs') := fun l h2 h3 x h4 h5 h6 h9 => by
    have hblk := sibling_block hb2 hi (show l < k by omega)
    have hrow : rowStart b k (l + 1) = rowStart b k l + b ^ (k - l) := rfl
    have hmono := rowStart_mono (b := b) (k := k) (show l + 1 ≤ c.rowsToDiscard + 1 by omega)
    exact hrc.genCachedProof_dead (l := l) hb hb' hrl hrr hσ ht.layout hret (by omega) h2 hi
      ⟨x, h4, h5, h6, hmid _ h9 (by omega)⟩
  refine ⟨fun hx => ?_, ?_⟩
  · obtain ⟨x, h2, h3, h4⟩ := exists_sibling
      (j := i / b ^ (BaseTree.effectiveDiscard (b ^ k) b rows + 1)) hb2
    rcases Nat.eq_zero_or_pos (BaseTree.effectiveDiscard (b ^ k) b rows) with h0 | h0
    · have hrow1 : ∀ x, i / b / b * b ≤ x → x < i / b / b * b + b → x ≠ i / b → x ≠ 0 →
        ∃ m, BaseTree.genCachedProof A b 0 0 σ
        (⟨s, b ^ k, nodes b k, k + 1, f (nodes b k - 1)⟩ : BaseTree (LevelCacheStore E) E) i rows fs'
          = (.error (.err m), fs') := fun x h4 h5 h6 h9 => by
        refine hdead 1 (by omega) h1 x ?_ ?_ ?_ (by omega) <;> rwa [Nat.pow_one]
      by_cases hz : i / b / b = 0
      · rw [hz, Nat.zero_mul, Nat.zero_add] at hrow1
        by_cases h1i : i / b = 1
        · by_cases hb3 : b = 2
          · subst hb3
            have h12 : i / 2 ^ 2 = 0 := by
              rw [show (2 : Nat) ^ 2 = 2 * 2 from rfl, ← Nat.div_div_eq_div_mul]; exact hz
            have hpp : 0 < 2 ^ (k - 1) := Nat.pow_pos (by omega)
            exact hdead 2 (by omega) (by omega) 1 (by rw [h12]; simp) (by rw [h12]; simp)
              (by rw [h12]; simp) (by omega)
          · exact hrow1 2 (by omega) (by omega) (by omega) (by omega)
        · exact hrow1 1 (by omega) (by omega) (fun h => h1i h.symm) (by omega)
      · have h5 : b ≤ i / b / b * b := Nat.le_mul_of_pos_left _ (Nat.pos_of_ne_zero hz)
        obtain ⟨x, h2, h3, h4⟩ := exists_sibling (j := i / b) hb2
        exact hrow1 x h2 h3 h4 (by omega)
    · have hmono := rowStart_mono (b := b) (k := k)
        (show 2 ≤ BaseTree.effectiveDiscard (b ^ k) b rows + 1 by omega)
      have hpp : 0 < b ^ (k - 1) := Nat.pow_pos (by omega)
      exact hdead (BaseTree.effectiveDiscard (b ^ k) b rows + 1) (by omega) (by omega) x h2 h3 h4 (by omega)
  · rintro ⟨rfl, hd1, hi1⟩
    have hr0 : BaseTree.effectiveDiscard (2 ^ k) 2 rows = 0 := by omega
    have hk2 : 2 ≤ k := by omega
    have hpw : 4 ≤ 2 ^ k := Nat.pow_le_pow_right (n := 2) (by omega) hk2
    have hpw1 : 2 ≤ 2 ^ (k - 1) := Nat.pow_le_pow_right (n := 2) (i := 1) (by omega) (by omega)
    rw [hd1] at hbd hhigh hle hp2
    simp only [Nat.reduceAdd] at hbd hhigh hle
    obtain ⟨g, hg, hreads⟩ := ht.isTreeOf.exists_reads
    have hfull := BaseTree.genProof_eq hb hk hreads hi
    have h4i : i / 2 ^ 1 = 1 := by rw [Nat.pow_one]; exact hi1
    refine ⟨_, _, hrc.genCachedProof_path hb hb' hk hrl hrr hσ ht.layout (r := 0) hr0.symm hi
      (f' := fun n => if n = 2 ^ k then f (rowStart 2 k 2) else f n)
      (fun j hj => if_neg (by omega)) (if_neg (by omega)) (fun l hl j hj => if_neg ?_) ?_, hfull, rfl, ?_⟩
    · rw [h4i]
      rcases Nat.eq_zero_or_pos l with rfl | hl0
      · simp only [rowStart, Nat.zero_add, Nat.sub_zero, Nat.pow_one] at hj ⊢
        omega
      · obtain rfl : l = 1 := by omega
        simp only [Nat.zero_add, Nat.sub_self, Nat.pow_zero] at hj ⊢
        omega
    · intro l hl0 hlk x hx1 hx2 hx3
      have hblk := sibling_block hb2 hi hlk
      rcases Nat.lt_or_ge l 2 with hl2 | hl2
      · obtain rfl : l = 1 := by omega
        rw [h4i] at hx1 hx2 hx3
        obtain rfl : x = 0 := by omega
        rw [h8, if_pos (Nat.add_zero _)]
        exact hbd
      · have hmono := rowStart_mono (b := 2) (k := k) hl2
        have hln := rowStart_le_nodes 2 k l (by omega)
        have hpl := pow_le_nodes 2 (k - l)
        rw [if_neg (by omega)]
        exact hhigh _ (by omega) (by omega)
    · intro hne heq
      have hg' : ∀ n, n < nodes 2 k → g n = f n := layout_unique hg ht.layout
      have := honestProof_second hk2 hi1 heq
      rw [if_pos rfl, hg' _ (by omega)] at this
      exact hne this.symm

end

/-! The toy tree `72, 73, 74, 75 | 91, 155 | 250` with one discarded row and none requested: `Err` for
the leaves 0 and 1, and 250 in place of 91 for the leaves 2 and 3. -/
section
attribute [local instance] idealRows
example : toyOpenV1 1 (some 0)
    = some [none, none, some [74, 75, 250, 250], some [75, 74, 250, 250]] := by decide +kernel
end
end Verif
