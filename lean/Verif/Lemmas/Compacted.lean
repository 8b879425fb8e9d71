import Verif.Lemmas.Compact
import Verif.Lemmas.RangeReads
import Verif.Lemmas.TreeSlice
/-! What a compacted `DiskStore` still does. -/
set_option linter.unusedSectionVars false
namespace Verif
open Spec StoreOps

theorem nodes_mono (b : Nat) {m n : Nat} (h : m ≤ n) : nodes b m ≤ nodes b n := by
  induction h with
  | refl => exact Nat.le_refl _
  | step _ ih => rw [nodes]; omega

theorem two_nodes_lt {b m k : Nat} (hb : 2 ≤ b) (h : m < k) : 2 * nodes b m < nodes b k := by
  have h1 := nodes_mono b h
  have h2 := LevelCacheStore.nodes_lt_pow hb m
  rw [Nat.succ_eq_add_one, nodes] at h1
  omega

section
variable {E : Type} [Element E] [LawfulElement E] [FloatRows]

/-- `compact` with the copied region past the end of the file. -/
theorem DiskStore.compact_again {b k m : Nat} (hb : Arity b) (hm : m < k)
    (hf : FloatRows.ExactAt b m) {c : StoreConfig} {fs : FS} {bs : Bytes}
    (hfile : fs.file c.file = some bs) (hbs : bs.length = nodes b m * Element.byteLen E)
    (lfd : Bool) (version : Nat) :
    ∃ msg, compact (⟨nodes b m, c.file, lfd, nodes b k * Element.byteLen E⟩ : DiskStore E) b c version fs
      = (.error (.err msg), ⟨nodes b m, c.file, lfd, nodes b k * Element.byteLen E⟩, fs) := by
  have hp := LawfulElement.byteLen_pos (E := E)
  by_cases hm0 : m = 0
  · subst hm0
    obtain ⟨msg, hmsg⟩ : Res.IsErr (compactPlan
        (⟨nodes b 0, c.file, lfd, nodes b k * Element.byteLen E⟩ : DiskStore E) b c) := by
      obtain ⟨msg, hmsg⟩ : Res.IsErr (merkleTreeCacheSize (b ^ 0) b c.rowsToDiscard) := by
        unfold merkleTreeCacheSize merkleTreeLen
        rw [ensure_false (by have := hb.two_le; simp; omega)]
        exact ⟨_, rfl⟩
      refine ⟨msg, ?_⟩
      unfold compactPlan
      rw [(merkleTreeLeafs_ok_iff hb _ _).2 ⟨0, rfl, Or.inl rfl⟩, Res.ok_bind]
      dsimp only
      rw [hmsg]; rfl
    exact ⟨msg, by unfold compact; rw [hmsg]⟩
  by_cases hd : c.rowsToDiscard < m
  · have hle := nodes_mono b (show m - 1 - c.rowsToDiscard ≤ m by omega)
    have hlt : nodes b (m - 1 - c.rowsToDiscard) < nodes b m := by
      have := two_nodes_lt (b := b) hb.two_le (show m - 1 - c.rowsToDiscard < m by omega)
      omega
    have h2 := two_nodes_lt (b := b) hb.two_le hm
    have h0 := nodes_pos b (m - 1 - c.rowsToDiscard)
    have hpl : compactPlan (⟨nodes b m, c.file, lfd, nodes b k * Element.byteLen E⟩ : DiskStore E) b c =
        .ok (b ^ m * Element.byteLen E, nodes b (m - 1 - c.rowsToDiscard) * Element.byteLen E,
          (nodes b k - nodes b (m - 1 - c.rowsToDiscard)) * Element.byteLen E) := by
      unfold compactPlan
      dsimp only
      rw [(merkleTreeLeafs_ok_iff hb _ _).2 ⟨m, rfl, Or.inl rfl⟩, Res.ok_bind,
        merkleTreeCacheSize_pow hb (by omega) hf hd, Res.ok_bind]
      rw [ensure_true ⟨Nat.mul_lt_mul_of_pos_right hlt hp, by
        have := Nat.mul_pos h0 hp; omega⟩, Res.ok_bind,
        subP_ok (Nat.mul_le_mul_right _ (by omega)), Res.ok_bind, ← Nat.sub_mul]
    refine ⟨"Failed to copy all data", ?_⟩
    unfold compact
    rw [hpl]
    dsimp only
    rw [hfile]
    dsimp only
    have hdrop : bs.drop ((nodes b k - nodes b (m - 1 - c.rowsToDiscard)) * Element.byteLen E) = [] :=
      List.drop_eq_nil_of_le (by rw [hbs]; exact Nat.mul_le_mul_right _ (by omega))
    have hcf : compactFile E c.file (version == 1) (b ^ m * Element.byteLen E)
        (nodes b (m - 1 - c.rowsToDiscard) * Element.byteLen E)
        ((nodes b k - nodes b (m - 1 - c.rowsToDiscard)) * Element.byteLen E) fs
        = (.error (.err "Failed to copy all data"), fs) := by
      unfold compactFile
      rw [M.bind_ok (a := ()) (fs' := fs) (by
        unfold FS.openFile; rw [M.get_run, FS.contents_ok hfile]; rfl)]
      dsimp only
      rw [M.bind_ok (a := 0) (fs' := fs) (by
        unfold copyWithin
        rw [M.bind_ok (a := bs) (fs' := fs) (by rw [M.get_run, FS.contents_ok hfile])]
        rw [hdrop, if_neg (by simp), M.bind_ok (a := ()) (fs' := fs) (by
          unfold FS.writeAllAt; rw [FS.contents_ok hfile]; rfl)]
        rfl)]
      exact M.bind_error (mEnsure_false (by have := Nat.mul_pos h0 hp; omega) _ _)
    rw [hcf]
  · obtain ⟨msg, hmsg⟩ := compactPlan_err (E := E) hb (by omega) hf (c := c) (by omega)
      (s := ⟨nodes b m, c.file, lfd, nodes b k * Element.byteLen E⟩) rfl
    exact ⟨msg, by unfold compact; rw [hmsg]⟩

/-- `len` after a version 1 compaction is not the length of a tree. -/
theorem v1_len_err {b k d : Nat} (hb : Arity b) (hd : 1 ≤ d) (hdk : d < k) :
    Res.IsErr (merkleTreeLeafs (b ^ k + nodes b (k - 1 - d)) b) := by
  refine isErr_of_not_ok (merkleTreeLeafs_returns _ _) fun r h => ?_
  obtain ⟨j, _, hj⟩ := (merkleTreeLeafs_ok_iff hb _ _).1 h
  have hb2 := hb.two_le
  have hk : nodes b k = nodes b (k - 1) + b ^ k := by
    obtain ⟨n, rfl⟩ : ∃ n, k = n + 1 := ⟨k - 1, by omega⟩
    rfl
  have hlt := two_nodes_lt hb2 (show k - 1 - d < k - 1 by omega)
  have hpow : nodes b (k - 1) < b ^ k := by
    have := LevelCacheStore.nodes_lt_pow hb2 (k - 1)
    rwa [show k - 1 + 1 = k by omega] at this
  have h0 := nodes_pos b (k - 1 - d)
  rcases Nat.lt_or_ge j k with hjk | hjk
  · have := nodes_mono b (show j ≤ k - 1 by omega)
    omega
  · have := nodes_mono b hjk
    omega

theorem DiskStore.compact_leafs_err {b : Nat} {c : StoreConfig} {s : DiskStore E}
    (h : Res.IsErr (merkleTreeLeafs s.len b)) (version : Nat) (fs : FS) :
    ∃ msg, compact s b c version fs = (.error (.err msg), s, fs) := by
  obtain ⟨msg, hm⟩ := h
  refine ⟨msg, ?_⟩
  unfold compact compactPlan
  rw [hm]
  rfl

end

/-! ### Proofs from a tree whose store has become too short -/
section
variable {E : Type}

theorem siblings_returns {rd : Nat → Res E} (h : ∀ i, Res.Returns (rd i)) (j : Nat) :
    ∀ n k, Res.Returns (BaseTree.siblings rd j n k)
  | 0, _ => .inl ⟨_, rfl⟩
  | n + 1, k => by
    rw [BaseTree.siblings]
    split
    · rcases h k with ⟨e, he⟩ | ⟨m, hm⟩
      · rw [he, Res.ok_bind]
        rcases siblings_returns h j n (k + 1) with ⟨es, hes⟩ | ⟨m, hm⟩
        · rw [hes]; exact .inl ⟨_, rfl⟩
        · rw [hm]; exact .inr ⟨_, rfl⟩
      · rw [hm]; exact .inr ⟨_, rfl⟩
    · exact siblings_returns h j n (k + 1)

/-- With a total length that ends before the last row but one, the proof loop returns, and its path
is too short. -/
theorem proofLoop_short {rd : Nat → Res E} {b k total : Nat} (hb : Arity b)
    (hr : ∀ i, Res.Returns (rd i)) (ht : total + b ≤ nodes b k) :
    ∀ (n fuel j : Nat), 1 ≤ n → n ≤ k → n < fuel →
    Res.IsErr (BaseTree.proofLoop rd b total fuel (rowStart b k (k - n)) (b ^ n) j) ∨
      ∃ l p, BaseTree.proofLoop rd b total fuel (rowStart b k (k - n)) (b ^ n) j = .ok (l, p) ∧
        p.length < n
  | n, 0, j, _, _, hf => by omega
  | 0, fuel + 1, j, h1, _, _ => by omega
  | n + 1, fuel + 1, j, h1, hn, hf => by
    have hb2 := hb.two_le
    rw [BaseTree.proofLoop]
    by_cases hc : rowStart b k (k - (n + 1)) + 1 < total
    · rw [if_pos hc]
      have hrow : rowStart b k (k - (n + 1)) + b ^ (n + 1) = rowStart b k (k - n) := by
        rw [show k - n = (k - (n + 1)) + 1 by omega, rowStart]
        congr 2; omega
      have hn1 : 1 ≤ n := by
        rcases Nat.eq_zero_or_pos n with rfl | h
        · have := rowStart_le_nodes b k (k - 1) (by omega)
          rw [show k - (k - 1) = 1 by omega] at this
          simp only [nodes, Nat.zero_add, Nat.pow_one] at this hc
          omega
        · exact h
      simp only []
      rcases siblings_returns (rd := fun k_1 => rd (rowStart b k (k - (n + 1)) + k_1)) (fun i => hr _) j b
        (j / b * b) with ⟨es, hes⟩ | ⟨m, hm⟩
      · rw [hes, Res.ok_bind]
        have hsh : b ^ (n + 1) >>> log2Pow2 b = b ^ n := by
          rw [hb.shiftRight, Nat.pow_succ, Nat.mul_div_cancel _ (by omega)]
        rw [hrow, hsh]
        rcases proofLoop_short hb hr ht n fuel (j >>> log2Pow2 b) hn1 (by omega) (by omega)
          with ⟨m, hm⟩ | ⟨l, p, hlp, hp⟩
        · rw [hm]; exact .inl ⟨m, rfl⟩
        · rw [hlp]
          exact .inr ⟨_, _, rfl, by simp; omega⟩
      · rw [hm]; exact .inl ⟨m, rfl⟩
    · rw [if_neg hc]
      exact .inr ⟨_, _, rfl, by simp⟩

variable [Element E] [LawfulElement E]

theorem genProof_short {S : Type} [StoreOps S E] {b k : Nat} (hb : Arity b) (hk : 1 ≤ k) {fs : FS}
    {t : BaseTree S E} (hl : t.leafs = b ^ k) (hrows : t.rowCount = k + 1)
    (hr : ∀ i, Res.Returns (t.readAt fs i)) (ht : t.length + b ≤ nodes b k) (i : Nat) :
    Res.IsErr (t.genProof b 0 0 fs i) := by
  unfold BaseTree.genProof
  rw [hl, hrows]
  by_cases hi : i < b ^ k
  · rw [ensure_true hi, Res.ok_bind, ensure_true ((eq_nextPow2_iff _).2 (hb.pow_isPow2 k)), Res.ok_bind,
      ensure_true ((eq_nextPow2_iff _).2 hb.pow2), Res.ok_bind]
    have hlem : merkleProofLemmaLen (k + 1) b = .ok (2 + (b - 1) * k) := by
      unfold merkleProofLemmaLen
      rw [subP_ok (by have := hb.two_le; omega), Res.ok_bind, subP_ok (by omega), Res.ok_bind,
        Nat.add_sub_cancel]
    rw [hlem, Res.ok_bind, subP_ok (by omega), Res.ok_bind, ensure_true rfl, Res.ok_bind,
      ensure_true rfl, Res.ok_bind]
    rcases hr i with ⟨e, he⟩ | ⟨m, hm⟩
    · rw [he, Res.ok_bind]
      have hkf : k < t.length + b ^ k + 2 := by
        have := Nat.lt_pow_self (n := k) (show 1 < b by have := hb.two_le; omega)
        omega
      have := proofLoop_short hb (rd := t.readAt fs) hr ht k (t.length + b ^ k + 2) i hk (Nat.le_refl _) hkf
      rw [Nat.sub_self] at this
      simp only [rowStart] at this
      rcases this with ⟨m, hm⟩ | ⟨l, p, hlp, hp⟩
      · rw [hm]; exact ⟨m, rfl⟩
      · rw [hlp, Res.ok_bind]
        dsimp only
        by_cases hlen : (e :: l ++ [t.root]).length = 2 + (b - 1) * k
        · rw [ensure_true hlen, Res.ok_bind, ensure_false (by simp; omega)]
          exact ⟨_, rfl⟩
        · rw [ensure_false hlen]; exact ⟨_, rfl⟩
    · rw [hm]; exact ⟨m, rfl⟩
  · rw [ensure_false hi]; exact ⟨_, rfl⟩

theorem DiskStore.readAt_returns (fs : FS) (s : DiskStore E) (i : Nat) :
    Res.Returns (StoreOps.readAt fs s i : Res E) := by
  show Res.Returns (DiskStore.readAt fs s i)
  rcases h : DiskStore.readAt fs s i with e | a
  · right
    unfold DiskStore.readAt at h
    dsimp only at h
    unfold DiskStore.checkRange at h
    dsimp only at h
    by_cases h1 : i * Element.byteLen E < s.len * Element.byteLen E
    · rw [ensure_true h1, Res.ok_bind] at h
      by_cases h2 : i * Element.byteLen E + Element.byteLen E ≤ s.len * Element.byteLen E
      · rw [ensure_true h2, Res.ok_bind] at h
        unfold DiskStore.storeReadRange at h
        rw [subP_ok (by omega), Res.ok_bind, Nat.add_sub_cancel_left] at h
        unfold FS.readExactAt FS.contents at h
        rcases hf : fs.file s.file with _ | bs
        · rw [hf] at h; exact ⟨_, h.symm⟩
        · rw [hf, Res.ok_bind, if_neg (by have := LawfulElement.byteLen_pos (E := E); omega)] at h
          split at h
          · rw [Res.ok_bind] at h
            unfold Element.fromSlice at h
            rw [if_pos (by rw [region_length]; omega)] at h
            cases h
          · exact ⟨_, h.symm⟩
      · rw [ensure_false h2] at h; exact ⟨_, h.symm⟩
    · rw [ensure_false h1] at h; exact ⟨_, h.symm⟩
  · exact .inl ⟨a, rfl⟩

end
end Verif
