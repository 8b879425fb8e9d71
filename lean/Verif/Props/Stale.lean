import Verif.Lemmas.Stale
import Verif.Props.Compact
import Verif.Props.Reopen
/-! Property C78: a handle on a tree whose file is compacted through another handle. -/
namespace Verif
open Spec StoreOps

section
variable {E : Type} [Element E] [LawfulElement E] [FloatRows] {A : Alg E} {b k : Nat} {leaves : List E}
  {f : Nat → E} {c : StoreConfig} {fs fs' : FS} {t t₂ t' : BaseTree (DiskStore E) E}

/-- Opening the file of a tree gives such a second handle. -/
theorem C78_second_handle (hb : Arity b) (hk : 1 ≤ k) (hf : FloatRows.ExactAt b k)
    (ht : t.IsFileTree A b k leaves f c fs) :
    ∃ (s : DiskStore E) (u : BaseTree (DiskStore E) E),
      Store.newFromDisk t.length b c fs = (.ok s, fs) ∧
      BaseTree.fromDataStore b 0 0 s t.leafs fs = .ok u ∧ u.IsFileTree A b k leaves f c fs := by
  refine ⟨⟨nodes b k, c.file, true, nodes b k * Element.byteLen E⟩, _, ?_, ?_, ht.reopened (nodes b k)⟩
  · rw [show t.length = nodes b k from ht.len]
    exact ht.opened
  · rw [ht.leafs]
    exact BaseTree.fromDataStore_run hb hk hf rfl ht.last

/-- **C78.** Two trees have the same file open, and the first is compacted to version 2.  From then on
the second returns `Err` from `gen_proof` for every index. -/
theorem C78_v2_no_proof (hb : Arity b) (hk : 1 ≤ k) (hf : FloatRows.ExactAt b k)
    (ht : t.IsFileTree A b k leaves f c fs) (ht₂ : t₂.IsFileTree A b k leaves f c fs) {version : Nat}
    (hv : version ≠ 1) (h : t.compact b c version fs = (.ok true, t', fs')) (i : Nat) :
    Res.IsErr (t₂.genProof b 0 0 fs' i) := by
  obtain ⟨hd, hfile⟩ := ht.compacted_file hb hk hf h
  rw [compacted, if_neg hv] at hfile
  exact (ht₂.readsOnly hb hd hfile).genProof_err hb hk i

/-- **C78.** Nor does it return a proof from `gen_cached_proof`. -/
theorem C78_v2_no_cached_proof (hb : Arity b) (hb' : b ≤ buildChunkNodes) (hk : 1 ≤ k)
    (hf : FloatRows.ExactAt b k) (ht : t.IsFileTree A b k leaves f c fs)
    (ht₂ : t₂.IsFileTree A b k leaves f c fs) {version : Nat} (hv : version ≠ 1)
    (h : t.compact b c version fs = (.ok true, t', fs')) {rows : Option Nat}
    (hf' : FloatRows.ExactAt b (k - 1 - BaseTree.effectiveDiscard (b ^ k) b rows)) {σ : Sched}
    (hσ : σ.Valid) {i : Nat} (hi : i < b ^ k) :
    ∃ m, t₂.genCachedProof A b 0 0 σ i rows fs' = (.error (.err m), fs') := by
  obtain ⟨hd, hfile⟩ := ht.compacted_file hb hk hf h
  rw [compacted, if_neg hv] at hfile
  exact (ht₂.readsOnly hb hd hfile).genCachedProof_err hb hb' hk hf hf' hσ hi

/-- **C78.** What the second handle reads after a compaction to version 2: the cached rows, at the
indices the leaves had, and `Err` from there on. -/
theorem C78_v2_reads (hb : Arity b) (hk : 1 ≤ k) (hf : FloatRows.ExactAt b k)
    (ht : t.IsFileTree A b k leaves f c fs) (ht₂ : t₂.IsFileTree A b k leaves f c fs) {version : Nat}
    (hv : version ≠ 1) (h : t.compact b c version fs = (.ok true, t', fs')) (i : Nat) :
    (i < nodes b (k - 1 - c.rowsToDiscard) →
      t₂.readAt fs' i = .ok (f (rowStart b k (c.rowsToDiscard + 1) + i))) ∧
    (nodes b (k - 1 - c.rowsToDiscard) ≤ i → Res.IsErr (t₂.readAt fs' i)) := by
  obtain ⟨hd, hfile⟩ := ht.compacted_file hb hk hf h
  rw [compacted, if_neg hv] at hfile
  have hr := ht₂.readsOnly hb hd hfile
  constructor
  · intro hi
    rw [hr.reads i (by rw [cachedRows_length]; exact hi)]
    simp [cachedRows]
  · intro hi
    exact hr.bad i (by rw [cachedRows_length]; exact hi)

/-- **C78.** What the second handle reads after a compaction to version 1: the right leaves; then the
cached rows, at the indices of the discarded ones; and `Err` from there on. -/
theorem C78_v1_reads (hb : Arity b) (hk : 1 ≤ k) (hf : FloatRows.ExactAt b k)
    (ht : t.IsFileTree A b k leaves f c fs) (ht₂ : t₂.IsFileTree A b k leaves f c fs)
    (h : t.compact b c 1 fs = (.ok true, t', fs')) (i : Nat) :
    (∀ hi : i < leaves.length, t₂.readAt fs' i = .ok leaves[i]) ∧
    (b ^ k ≤ i → i < b ^ k + nodes b (k - 1 - c.rowsToDiscard) →
      t₂.readAt fs' i = .ok (f (rowStart b k (c.rowsToDiscard + 1) + (i - b ^ k)))) ∧
    (b ^ k + nodes b (k - 1 - c.rowsToDiscard) ≤ i → Res.IsErr (t₂.readAt fs' i)) := by
  obtain ⟨hd, hfile⟩ := ht.compacted_file hb hk hf h
  rw [compacted, if_pos rfl, ← ht₂.handle] at hfile
  have hn : (leaves ++ cachedRows b k c.rowsToDiscard f).length
      = b ^ k + nodes b (k - 1 - c.rowsToDiscard) := by
    rw [List.length_append, cachedRows_length, ht.layout.count]
  have hle : (leaves ++ cachedRows b k c.rowsToDiscard f).length ≤ t₂.store.len := by
    have h1 : t₂.store.len = nodes b k := ht₂.len
    have h2 := LevelCacheStore.rowStart_cache (b := b) hd
    have h3 := pow_le_rowStart b k c.rowsToDiscard
    omega
  refine ⟨fun hi => ?_, fun h1 h2 => ?_, fun hi => DiskStore.readAt_past hfile (by omega)⟩
  · refine (DiskStore.readAt_present hfile hle (by simp; omega)).trans ?_
    rw [List.getElem_append_left hi]
  · refine (DiskStore.readAt_present hfile hle (by omega)).trans ?_
    rw [List.getElem_append_right (by rw [ht.layout.count]; exact h1)]
    simp [cachedRows, ht.layout.count]

/-- **C78.** A compaction to version 1 that discards no row keeps all nodes: the file stays as it was, and the
second handle is still the tree, with all its reads and proofs. -/
theorem C78_v1_nothing_discarded (hb : Arity b) (hk : 1 ≤ k) (hf : FloatRows.ExactAt b k)
    (ht : t.IsFileTree A b k leaves f c fs) (ht₂ : t₂.IsFileTree A b k leaves f c fs)
    (h0 : c.rowsToDiscard = 0) (h : t.compact b c 1 fs = (.ok true, t', fs')) :
    fs'.file c.file = fs.file c.file ∧ t₂.IsFileTree A b k leaves f c fs' ∧
      t₂.IsTreeOf A b k leaves fs' := by
  obtain ⟨hd, hfile⟩ := ht.compacted_file hb hk hf h
  have he : leaves ++ cachedRows b k 0 f = allNodes b k f := by
    have h2 := LevelCacheStore.rowStart_cache (b := b) (k := k) (d := 0) (by omega)
    have h3 : rowStart b k 1 = b ^ k := by simp [rowStart]
    rw [Nat.zero_add, h3] at h2
    have hc := ht.layout.count
    refine List.ext_getElem ?_ fun i h4 h5 => ?_
    · rw [List.length_append, cachedRows_length, hc]; simpa [allNodes] using h2
    · by_cases hi : i < leaves.length
      · rw [List.getElem_append_left hi]
        simp [allNodes, ht.layout.leaf i hi]
      · rw [List.getElem_append_right (by omega)]
        simp only [cachedRows, allNodes, List.getElem_map, List.getElem_range]
        rw [Nat.zero_add, h3]
        congr 1
        omega
  rw [compacted, if_pos rfl, h0, he] at hfile
  have ht₃ : t₂.IsFileTree A b k leaves f c fs' :=
    ⟨ht₂.leafs, ht₂.len, ht₂.rows, ht₂.layout, ht₂.root, ht₂.handle, ht₂.size, hfile⟩
  exact ⟨hfile.trans ht.file.symm, ht₃, ht₃.isTreeOf⟩

/-- **C78.** After a compaction to version 1 that discards a row, the second handle returns `Err` from
`gen_proof` for every index, with one exception: a binary tree of four leaves. -/
theorem C78_v1_no_proof (hb : Arity b) (hk : 1 ≤ k) (hf : FloatRows.ExactAt b k)
    (ht : t.IsFileTree A b k leaves f c fs) (ht₂ : t₂.IsFileTree A b k leaves f c fs)
    (h1 : 1 ≤ c.rowsToDiscard) (hne : ¬ (b = 2 ∧ k = 2))
    (h : t.compact b c 1 fs = (.ok true, t', fs')) (i : Nat) : Res.IsErr (t₂.genProof b 0 0 fs' i) := by
  have hb2 := hb.two_le
  obtain ⟨hd, -⟩ := ht.compacted_file hb hk hf h
  have hreads := C78_v1_reads hb hk hf ht ht₂ h
  by_cases hi : i < b ^ k
  swap
  · unfold BaseTree.genProof
    rw [ht₂.leafs, ensure_false hi]; exact ⟨_, rfl⟩
  obtain ⟨x, hx1, hx2, hx3, hx4⟩ := stale_sibling hb2 (d := c.rowsToDiscard) (k := k) (by omega) h1 hne hi
  exact BaseTree.genProof_dead (l := k - 1) hb ht₂.leafs ht₂.rows ht₂.len
    (fun i => DiskStore.readAt_returns _ _ _) (by omega) hi ⟨x, hx1, hx2, hx3, (hreads _).2.2 hx4⟩

/-- **C78.** After a compaction to version 1 that discards a row, a cached proof of the second handle
that takes all rows below the root as discarded is still the tree's proof (it is computed from the
leaves alone). -/
theorem C78_v1_cached_proof (hb : Arity b) (hb' : b ≤ buildChunkNodes) (hk : 1 ≤ k)
    (hf : FloatRows.ExactAt b k) (ht : t.IsFileTree A b k leaves f c fs)
    (ht₂ : t₂.IsFileTree A b k leaves f c fs) (h : t.compact b c 1 fs = (.ok true, t', fs'))
    {rows : Option Nat} (hr : BaseTree.effectiveDiscard (b ^ k) b rows + 1 = k)
    (hf' : FloatRows.ExactAt b 0) {σ : Sched} (hσ : σ.Valid) {i : Nat} (hi : i < b ^ k) :
    t₂.genCachedProof A b 0 0 σ i rows fs' = (.ok (honestProof f b k i), fs') := by
  have hr' : k - 1 - BaseTree.effectiveDiscard (b ^ k) b rows = 0 := by omega
  refine genCachedProof_of_reads hb hb' hk hf (by rw [hr']; exact hf') hσ ht.layout
    (ht₂.readsLeaves hb hk hf ht h) (fun j h1 h2 => ?_) hi
  have := rowStart_top b k
  rw [hr] at h1
  omega

/-- **C78.** All other cached proofs of the second handle are `Err`, with the same exception. -/
theorem C78_v1_no_cached_proof (hb : Arity b) (hb' : b ≤ buildChunkNodes) (hk : 1 ≤ k)
    (hf : FloatRows.ExactAt b k) (ht : t.IsFileTree A b k leaves f c fs)
    (ht₂ : t₂.IsFileTree A b k leaves f c fs) (h1 : 1 ≤ c.rowsToDiscard) (hne : ¬ (b = 2 ∧ k = 2))
    (h : t.compact b c 1 fs = (.ok true, t', fs')) {rows : Option Nat}
    (hr : BaseTree.effectiveDiscard (b ^ k) b rows + 1 < k)
    (hf' : FloatRows.ExactAt b (k - 1 - BaseTree.effectiveDiscard (b ^ k) b rows)) {σ : Sched}
    (hσ : σ.Valid) {i : Nat} (hi : i < b ^ k) :
    ∃ m, t₂.genCachedProof A b 0 0 σ i rows fs' = (.error (.err m), fs') := by
  have hb2 := hb.two_le
  have hreads := C78_v1_reads hb hk hf ht ht₂ h
  obtain ⟨hd, -⟩ := ht.compacted_file hb hk hf h
  have hrc := ht₂.readsLeaves hb hk hf ht h
  have hret : ∀ i, Res.Returns (t₂.readAt fs' i) := fun i => DiskStore.readAt_returns _ _ _
  obtain ⟨x, hx1, hx2, hx3, hx4⟩ := stale_sibling hb2 (d := c.rowsToDiscard) (k := k) (by omega) h1 hne hi
  refine hrc.genCachedProof_dead (l := k - 1) hb hb' hf hf' hσ ht.layout hret (by omega) (by omega) hi
    ⟨x, hx1, hx2, hx3, (hreads _).2.2 hx4⟩

/-- **C78.** Compacting the file once more, through the second handle and with any configuration of
the file: after a compaction to version 2 this returns `Err` and changes nothing. -/
theorem C78_v2_compact_again (hb : Arity b) (hk : 1 ≤ k) (hf : FloatRows.ExactAt b k)
    (ht : t.IsFileTree A b k leaves f c fs) (ht₂ : t₂.IsFileTree A b k leaves f c fs) {version : Nat}
    (hv : version ≠ 1) (h : t.compact b c version fs = (.ok true, t', fs')) {c₂ : StoreConfig}
    (hc : c₂.file = c.file) (version₂ : Nat) :
    ∃ m, t₂.compact b c₂ version₂ fs' = (.error (.err m), t₂, fs') := by
  obtain ⟨hd, hfile⟩ := ht.compacted_file hb hk hf h
  rw [compacted, if_neg hv, ← hc] at hfile
  obtain ⟨m, hm⟩ := DiskStore.compact_stale (c := c₂) hb hk hf (s := t₂.store) ht₂.len ht₂.size
    (ht₂.handle.trans hc.symm) hfile (by
      rw [length_encodeAll, cachedRows_length]
      apply Nat.mul_le_mul_right
      have h1 := LevelCacheStore.nodes_lt_pow hb.two_le (k - 1 - c.rowsToDiscard)
      have h2 : b ^ (k - 1 - c.rowsToDiscard + 1) ≤ b ^ k :=
        Nat.pow_le_pow_right (by have := hb.two_le; omega) (by omega)
      have h3 := pow_le_rowStart b k c₂.rowsToDiscard
      omega) version₂
  exact ⟨m, BaseTree.compact_of_store hm⟩

/-- **C78.** The same after a compaction to version 1, when both configurations discard a row. -/
theorem C78_v1_compact_again (hb : Arity b) (hk : 1 ≤ k) (hf : FloatRows.ExactAt b k)
    (ht : t.IsFileTree A b k leaves f c fs) (ht₂ : t₂.IsFileTree A b k leaves f c fs)
    (h1 : 1 ≤ c.rowsToDiscard) (h : t.compact b c 1 fs = (.ok true, t', fs')) {c₂ : StoreConfig}
    (hc : c₂.file = c.file) (h2 : 1 ≤ c₂.rowsToDiscard) (version₂ : Nat) :
    ∃ m, t₂.compact b c₂ version₂ fs' = (.error (.err m), t₂, fs') := by
  obtain ⟨hd, hfile⟩ := ht.compacted_file hb hk hf h
  rw [compacted, if_pos rfl, ← hc] at hfile
  obtain ⟨m, hm⟩ := DiskStore.compact_stale (c := c₂) hb hk hf (s := t₂.store) ht₂.len ht₂.size
    (ht₂.handle.trans hc.symm) hfile (by
      rw [length_encodeAll, List.length_append, cachedRows_length, ht.layout.count]
      apply Nat.mul_le_mul_right
      have h3 := LevelCacheStore.nodes_lt_pow hb.two_le (k - 1 - c.rowsToDiscard)
      have h4 : b ^ (k - 1 - c.rowsToDiscard + 1) ≤ b ^ (k - 1) :=
        Nat.pow_le_pow_right (by have := hb.two_le; omega) (by omega)
      have h5 := rowStart_mono (b := b) (k := k) (show 2 ≤ c₂.rowsToDiscard + 1 by omega)
      have h6 : rowStart b k 2 = b ^ k + b ^ (k - 1) := by simp [rowStart]
      omega) version₂
  exact ⟨m, BaseTree.compact_of_store hm⟩

end

/-! Concrete instances and refutations: the toy tree `72, 73, 74, 75 | 91, 155 | 250`. -/
section
attribute [local instance] idealRows

/-- The tree as it was before the compaction, with the file as it is afterwards. -/
def toyStaleRead (d version i : Nat) : Res UInt8 := (toyTree d).readAt (toyCompacted d version).2.2 i
def toyStaleProof (d version i : Nat) : Res (Proof UInt8) :=
  (toyTree d).genProof 2 0 0 (toyCompacted d version).2.2 i

/-- **C78, refuted for single reads**: after a compaction to version 2, `read_at(0)` of the other
handle returns another node than it returned before, with no error. -/
theorem C78_reads_refuted :
    (toyTree 0).readAt (toyFile 0) 0 = .ok 72 ∧ (toyCompacted 0 2).1 = .ok true ∧
    toyStaleRead 0 2 0 = .ok 91 := by
  refine ⟨?_, ?_, ?_⟩ <;> rfl

/-- **C78, refuted for the exception**: after a compaction to version 1 of a binary tree of four leaves
with one row discarded, `gen_proof(2)` of the other handle returns a proof, and it is not valid. -/
theorem C78_v1_refuted :
    (toyCompacted 1 1).1 = .ok true ∧
    ∃ p, toyStaleProof 1 1 2 = .ok p ∧ p.validate toyAlg 2 = .ok false := by
  refine ⟨rfl, ?_⟩
  exact ⟨_, rfl, by decide +kernel⟩

def toyStaleCached (d version i : Nat) (rows : Option Nat) : Res (Proof UInt8) :=
  ((toyTree d).genCachedProof toyAlg 2 0 0 Sched.sequential i rows (toyCompacted d version).2.2).1

/-- **C78, refuted for the exception**, for cached proofs: so does `gen_cached_proof` when asked to take
no row as discarded. -/
theorem C78_v1_cached_refuted :
    (toyCompacted 1 1).1 = .ok true ∧
    ∃ p, toyStaleCached 1 1 2 (some 0) = .ok p ∧ p.validate toyAlg 2 = .ok false := by
  refine ⟨rfl, ?_⟩
  exact ⟨_, rfl, by decide +kernel⟩

example : toyStaleCached 1 1 2 none = (toyTree 1).genProof 2 0 0 (toyFile 1) 2 := by decide +kernel
example : (toyStaleCached 1 2 2 none).isOk = false := by decide +kernel

/-- **C78, refuted for a second compaction that keeps more rows**: after a compaction to version 1 with
one row discarded, compacting to version 2 with none discarded through the other handle returns `Err`,
but has overwritten the first leaf. -/
theorem C78_compact_again_refuted :
    (toyCompacted 1 1).2.2.file (StoreConfig.new "d" "t" 1).file = some [72, 73, 74, 75, 250] ∧
    ((toyTree 1).compact 2 (StoreConfig.new "d" "t" 0) 2 (toyCompacted 1 1).2.2).1.isOk = false ∧
    ((toyTree 1).compact 2 (StoreConfig.new "d" "t" 0) 2 (toyCompacted 1 1).2.2).2.2.file
      (StoreConfig.new "d" "t" 1).file = some [250, 73, 74, 75, 250] := by
  refine ⟨?_, ?_, ?_⟩ <;> decide +kernel

example : ((toyStaleProof 1 1 0).isOk, (toyStaleProof 1 1 1).isOk, (toyStaleProof 1 1 3).isOk)
    = (false, false, true) := by decide +kernel
example : ((toyStaleProof 0 2 0).isOk, (toyStaleProof 1 2 0).isOk, (toyStaleRead 0 2 3).isOk)
    = (false, false, false) := by decide +kernel
-- version 1, no row discarded
example : toyStaleProof 0 1 2 = (toyTree 0).genProof 2 0 0 (toyFile 0) 2 ∧ (toyStaleProof 0 1 2).isOk = true := by
  decide +kernel

end
end Verif
