import Verif.Lemmas.Compacted
import Verif.Spec.Toy
import Verif.Spec.Ideal
/-! Properties C26, C29, C30, C31: compaction. -/
namespace Verif
open Spec StoreOps

section
variable {E : Type} [Element E] [LawfulElement E] [FloatRows] {A : Alg E}

/-- The trees the theorems of this file speak about are those the constructors build: a tree built
with a configuration naming a new file is in that file, node after node. -/
theorem C26_built (hA : A.LawfulReset) {b : Nat} {σ : Sched} (hσ : σ.Valid) {src : Source A}
    (hs : src.Valid) (hf : FloatRows.FloorAt b src.leaves.length) {c : StoreConfig} {fs fs' : FS}
    {t : BaseTree (DiskStore E) E} (hc : fs.file c.file = none)
    (h : src.build b σ (some c) fs = (.ok t, fs')) :
    Arity b ∧ ∃ k f, 1 ≤ k ∧ FloatRows.ExactAt b k ∧ t.IsFileTree A b k src.leaves f c fs' := by
  obtain ⟨hb, _, k, d, hk, he, hn, hm, hfr⟩ := Source.build_sound hA hσ hs hf
    (cfg := some c) (fun c' h' => by cases h'; exact hc) h
  exact ⟨hb, k, _, hk, he, hm.isFileTree hn hfr⟩

/-- **C26.** Compacting a tree succeeds when fewer rows are discarded than the tree has above its
leaves.  Then the file holds exactly the cached rows (version 2), or the leaves followed by the
cached rows (version 1); `len` is the number of elements in the file; root, leaf count and row
count are unchanged, and so is every other file. -/
theorem C26_compact {b k : Nat} (hb : Arity b) (hk : 1 ≤ k) (hf : FloatRows.ExactAt b k)
    {leaves : List E} {f : Nat → E} {c : StoreConfig} {fs : FS} {t : BaseTree (DiskStore E) E}
    (ht : t.IsFileTree A b k leaves f c fs) (hd : c.rowsToDiscard < k) (version : Nat) :
    ∃ (t' : BaseTree (DiskStore E) E) (fs' : FS), t.compact b c version fs = (.ok true, t', fs') ∧
      fs'.file c.file = some (if version = 1 then encodeAll (leaves ++ cachedRows b k c.rowsToDiscard f)
        else encodeAll (cachedRows b k c.rowsToDiscard f)) ∧
      (∃ bs, fs'.file c.file = some bs ∧ bs.length = t'.length * Element.byteLen E) ∧
      (t'.root, t'.leafs, t'.rowCount) = (t.root, t.leafs, t.rowCount) ∧
      ∀ g, g ≠ c.file → fs'.file g = fs.file g := by
  obtain ⟨fs', h1, h2, h3⟩ := DiskStore.compact_ok hb hk hf hd ht.len ht.size ht.layout ht.file version
  refine ⟨⟨⟨compactedLen version b k c.rowsToDiscard, c.file, t.store.loadedFromDisk,
    t.store.storeSize⟩, t.leafs, t.len, t.rowCount, t.root⟩, fs', ?_, h2, ⟨_, h2, ?_⟩, rfl, h3.1⟩
  · exact BaseTree.compact_of_store h1
  · show _ = compactedLen version b k c.rowsToDiscard * _
    unfold compacted compactedLen
    split
    · rw [length_encodeAll, List.length_append, ht.layout.count, cachedRows_length]
    · rw [length_encodeAll, cachedRows_length]

/-- **C26.** Otherwise it returns `Err` and changes nothing. -/
theorem C26_refused {b k : Nat} (hb : Arity b) (hk : 1 ≤ k) (hf : FloatRows.ExactAt b k)
    {leaves : List E} {f : Nat → E} {c : StoreConfig} {fs : FS} {t : BaseTree (DiskStore E) E}
    (ht : t.IsFileTree A b k leaves f c fs) (hd : k ≤ c.rowsToDiscard) (version : Nat) :
    ∃ m, t.compact b c version fs = (.error (.err m), t, fs) := by
  obtain ⟨m, hm⟩ := DiskStore.compactPlan_err hb hk hf hd (s := t.store) ht.len
  refine ⟨m, ?_⟩
  exact BaseTree.compact_of_store (by unfold DiskStore.compact; rw [hm])

/-- **C29.** Build the same leaves as a `LevelCacheStore` tree, and as a `DiskStore` tree that is
then compacted to version 2.  Both succeed for the same configurations; the files hold the same bytes
and the trees have the same root, leaf count and row count.  The two schedules of the parallel tasks
may differ. -/
theorem C29_level_cache_eq_compacted (hA : A.LawfulReset) {b : Nat} {σ₁ σ₂ : Sched} (hσ₁ : σ₁.Valid)
    (hσ₂ : σ₂.Valid) {src : Source A} (hs : src.Valid)
    (hf : FloatRows.FloorAt b src.leaves.length) {c : StoreConfig} {fs₁ fs₂ fs₁' fs₂' : FS}
    (hc₁ : fs₁.file c.file = none) (hc₂ : fs₂.file c.file = none)
    {tc : BaseTree (LevelCacheStore E) E} (h₁ : src.build b σ₁ (some c) fs₁ = (.ok tc, fs₁'))
    {td : BaseTree (DiskStore E) E} (h₂ : src.build b σ₂ (some c) fs₂ = (.ok td, fs₂'))
    {version : Nat} (hv : version ≠ 1) :
    ∃ (td' : BaseTree (DiskStore E) E) (fs₃ : FS), td.compact b c version fs₂' = (.ok true, td', fs₃) ∧
      fs₃.file c.file = fs₁'.file c.file ∧
      (tc.root, tc.leafs, tc.rowCount) = (td'.root, td'.leafs, td'.rowCount) := by
  obtain ⟨hb, k, f, hk, he, hft⟩ := C26_built hA hσ₂ hs hf hc₂ h₂
  obtain ⟨_, _, k', d, hk', _, hn, hm, _⟩ := Source.build_cached_sound hA hσ₁ hs hf hc₁ h₁
  have hco := hm.isCacheOf hn
  obtain rfl : k = k' := Nat.pow_right_injective hb.two_le (hft.layout.count.symm.trans hn)
  obtain ⟨td', fs₃, g1, g2, _, g4, _⟩ := C26_compact hb hk he hft hk' version
  obtain ⟨g, hg, hr, hgf⟩ := hco.nodes
  refine ⟨td', fs₃, g1, ?_, ?_⟩
  · rw [g2, if_neg hv, hgf]
    congr 2
    unfold cachedRows
    apply List.map_congr_left
    intro i hi
    have hi := List.mem_range.1 hi
    apply layout_unique hft.layout hg
    have := LevelCacheStore.rowStart_cache (b := b) hk'
    omega
  · rw [g4, hco.leafs, hco.rows, hft.leafs, hft.rows, hr, hft.root,
      layout_unique hft.layout hg _ (by have := nodes_pos b k; omega)]

/-- **C29.** The level-cache build accepts exactly the configurations for which the disk build and
the compaction both succeed. -/
theorem C29_succeed_alike (hA : A.LawfulReset) {b : Nat} {σ₁ σ₂ : Sched} (hσ₁ : σ₁.Valid)
    (hσ₂ : σ₂.Valid) {src : Source A} (hs : src.Valid)
    (hf : FloatRows.FloorAt b src.leaves.length) {c : StoreConfig} {fs₁ fs₂ : FS}
    (hc₁ : fs₁.file c.file = none) (hc₂ : fs₂.file c.file = none) (version : Nat) :
    (∃ (tc : BaseTree (LevelCacheStore E) E) (fs₁' : FS),
      src.build b σ₁ (some c) fs₁ = (.ok tc, fs₁')) ↔
    ∃ (td td' : BaseTree (DiskStore E) E) (fs₂' fs₃ : FS),
      src.build b σ₂ (some c) fs₂ = (.ok td, fs₂') ∧
      td.compact b c version fs₂' = (.ok true, td', fs₃) := by
  constructor
  · rintro ⟨tc, fs₁', h⟩
    obtain ⟨hb, hb', k, d, hk, he, hn, hm, _⟩ := Source.build_cached_sound hA hσ₁ hs hf hc₁ h
    obtain ⟨td, fs₂', d', h1, h2, h3⟩ := Source.build_ok (S := DiskStore E) hA hb hb' (by omega) he hσ₂
      src hs hn (fs := fs₂) (some c) (fun c' h' => by cases h'; exact hc₂)
    obtain ⟨td', fs₃, g1, _⟩ := C26_compact hb (by omega) he (h2.isFileTree hn h3) hk version
    exact ⟨td, td', fs₂', fs₃, h1, g1⟩
  · rintro ⟨td, td', fs₂', fs₃, h, g⟩
    obtain ⟨hb, hb', k, d, hk, he, hn, hm, hfr⟩ := Source.build_sound hA hσ₂ hs hf
      (cfg := some c) (fun c' h' => by cases h'; exact hc₂) h
    by_cases hd : c.rowsToDiscard < k
    · obtain ⟨tc, fs₁', _, h1, _⟩ := Source.build_cached hA hb hb' he hσ₁ src hs hn hd hc₁
      exact ⟨tc, fs₁', h1⟩
    · obtain ⟨m, hm⟩ := C26_refused hb hk he (hm.isFileTree hn hfr) (by omega) version
      rw [hm] at g
      simp at g

/-- **C30.** A second `compact` of a store compacted to version 2, with the same configuration (and
either version), returns `Err` and changes neither the tree nor any file. -/
theorem C30_compact_twice {b k : Nat} (hb : Arity b) (hk : 1 ≤ k)
    (hf : ∀ j, j ≤ k → FloatRows.ExactAt b j)
    {leaves : List E} {f : Nat → E} {c : StoreConfig} {fs : FS} {t : BaseTree (DiskStore E) E}
    (ht : t.IsFileTree A b k leaves f c fs) {version : Nat} (hv : version ≠ 1)
    {t' : BaseTree (DiskStore E) E} {fs' : FS} (h : t.compact b c version fs = (.ok true, t', fs'))
    (version' : Nat) : ∃ m, t'.compact b c version' fs' = (.error (.err m), t', fs') := by
  have hd : c.rowsToDiscard < k := by
    by_contra hd
    obtain ⟨m, hm⟩ := C26_refused hb hk (hf k (Nat.le_refl _)) ht (by omega) version
    rw [hm] at h; simp at h
  obtain ⟨fs₁, h1, h2, h3⟩ := DiskStore.compact_ok hb hk (hf k (Nat.le_refl _)) hd ht.len ht.size
    ht.layout ht.file version
  have h0 : t.compact b c version fs = (.ok true,
      { t with store := ⟨compactedLen version b k c.rowsToDiscard, c.file, t.store.loadedFromDisk,
        t.store.storeSize⟩ }, fs₁) := by
    exact BaseTree.compact_of_store h1
  rw [h] at h0
  simp only [Prod.mk.injEq, true_and] at h0
  obtain ⟨rfl, rfl⟩ := h0
  unfold compacted at h2
  rw [if_neg hv] at h2
  obtain ⟨m, hm⟩ := DiskStore.compact_again (k := k) (m := k - 1 - c.rowsToDiscard) hb (by omega)
    (hf _ (by omega)) h2 (by rw [length_encodeAll, cachedRows_length]) t.store.loadedFromDisk version'
  refine ⟨m, ?_⟩
  refine BaseTree.compact_of_store ?_
  dsimp only
  unfold compactedLen
  rw [if_neg hv, ht.size, hm]

/-- **C30**, beyond the statement: after a version 1 compaction that discarded at least one row a
second `compact` also returns `Err` and changes nothing. -/
theorem C30_compact_twice_v1 {b k : Nat} (hb : Arity b) (hk : 1 ≤ k) (hf : FloatRows.ExactAt b k)
    {leaves : List E} {f : Nat → E} {c : StoreConfig} {fs : FS} {t : BaseTree (DiskStore E) E}
    (ht : t.IsFileTree A b k leaves f c fs) (h1 : 1 ≤ c.rowsToDiscard)
    {t' : BaseTree (DiskStore E) E} {fs' : FS} (h : t.compact b c 1 fs = (.ok true, t', fs'))
    (version' : Nat) : ∃ m, t'.compact b c version' fs' = (.error (.err m), t', fs') := by
  have hd : c.rowsToDiscard < k := by
    by_contra hd
    obtain ⟨m, hm⟩ := C26_refused hb hk hf ht (by omega) 1
    rw [hm] at h; simp at h
  obtain ⟨fs₁, g1, g2, g3⟩ := DiskStore.compact_ok hb hk hf hd ht.len ht.size ht.layout ht.file 1
  have h0 : t.compact b c 1 fs = (.ok true,
      { t with store := ⟨compactedLen 1 b k c.rowsToDiscard, c.file, t.store.loadedFromDisk,
        t.store.storeSize⟩ }, fs₁) := by
    exact BaseTree.compact_of_store g1
  rw [h] at h0
  simp only [Prod.mk.injEq, true_and] at h0
  obtain ⟨rfl, rfl⟩ := h0
  obtain ⟨m, hm⟩ := DiskStore.compact_leafs_err (E := E) (b := b) (c := c)
    (s := ⟨compactedLen 1 b k c.rowsToDiscard, c.file, t.store.loadedFromDisk, t.store.storeSize⟩)
    (v1_len_err hb h1 hd) version' fs'
  refine ⟨m, ?_⟩
  exact BaseTree.compact_of_store hm

/-- **C31.** After a compaction to version 2, or to version 1 with at least one discarded row,
`gen_proof` on the `DiskStore` tree returns `Err` for every index. -/
theorem C31_no_proof {b k : Nat} (hb : Arity b) (hk : 1 ≤ k) (hf : FloatRows.ExactAt b k)
    {leaves : List E} {f : Nat → E} {c : StoreConfig} {fs : FS} {t : BaseTree (DiskStore E) E}
    (ht : t.IsFileTree A b k leaves f c fs) {version : Nat}
    (hv : version ≠ 1 ∨ 1 ≤ c.rowsToDiscard)
    {t' : BaseTree (DiskStore E) E} {fs' : FS} (h : t.compact b c version fs = (.ok true, t', fs'))
    (i : Nat) : Res.IsErr (t'.genProof b 0 0 fs' i) := by
  have hd : c.rowsToDiscard < k := by
    by_contra hd
    obtain ⟨m, hm⟩ := C26_refused hb hk hf ht (by omega) version
    rw [hm] at h; simp at h
  obtain ⟨fs₁, g1, g2, g3⟩ := DiskStore.compact_ok hb hk hf hd ht.len ht.size ht.layout ht.file version
  have h0 : t.compact b c version fs = (.ok true,
      { t with store := ⟨compactedLen version b k c.rowsToDiscard, c.file, t.store.loadedFromDisk,
        t.store.storeSize⟩ }, fs₁) := by
    exact BaseTree.compact_of_store g1
  rw [h] at h0
  simp only [Prod.mk.injEq, true_and] at h0
  obtain ⟨rfl, rfl⟩ := h0
  have hlen : compactedLen version b k c.rowsToDiscard + b ≤ nodes b k := ?_
  · exact genProof_short (S := DiskStore E) (t := ⟨⟨compactedLen version b k c.rowsToDiscard, c.file,
      t.store.loadedFromDisk, t.store.storeSize⟩, t.leafs, t.len, t.rowCount, t.root⟩) hb hk ht.leafs
      ht.rows (fun i => DiskStore.readAt_returns _ _ _) hlen i
  have hk' : nodes b k = nodes b (k - 1) + b ^ k := by
    obtain ⟨n, rfl⟩ : ∃ n, k = n + 1 := ⟨k - 1, by omega⟩
    rfl
  unfold compactedLen
  split
  · have h1 : 1 ≤ c.rowsToDiscard := by omega
    have hk1 : nodes b (k - 1) = nodes b (k - 2) + b ^ (k - 1) := by
      obtain ⟨n, rfl⟩ : ∃ n, k = n + 2 := ⟨k - 2, by omega⟩
      rfl
    have := nodes_mono b (show k - 1 - c.rowsToDiscard ≤ k - 2 by omega)
    have : b ≤ b ^ (k - 1) := Nat.le_self_pow (by omega) b
    omega
  · have := nodes_mono b (show k - 1 - c.rowsToDiscard ≤ k - 1 by omega)
    have : b ≤ b ^ k := Nat.le_self_pow (by omega) b
    omega

/-- **C31**, the excluded case: compacting to version 1 without discarding a row changes nothing, so
every proof is still the right one. -/
theorem C31_v1_keep_all {b k : Nat} (hb : Arity b) (hk : 1 ≤ k) (hf : FloatRows.ExactAt b k)
    {leaves : List E} {f : Nat → E} {c : StoreConfig} {fs : FS} {t : BaseTree (DiskStore E) E}
    (ht : t.IsFileTree A b k leaves f c fs) (h0 : c.rowsToDiscard = 0) :
    ∃ (t' : BaseTree (DiskStore E) E) (fs' : FS), t.compact b c 1 fs = (.ok true, t', fs') ∧
      t'.IsFileTree A b k leaves f c fs' ∧ ∀ i, t'.genProof b 0 0 fs' i = t.genProof b 0 0 fs i := by
  obtain ⟨fs₁, g1, g2, g3⟩ := DiskStore.compact_ok hb hk hf (c := c) (by omega) ht.len ht.size
    ht.layout ht.file 1
  have hk' : nodes b k = b ^ k + nodes b (k - 1) := by
    obtain ⟨n, rfl⟩ : ∃ n, k = n + 1 := ⟨k - 1, by omega⟩
    rw [nodes, Nat.add_comm]; rfl
  have hft : BaseTree.IsFileTree A b k leaves f c fs₁ { t with store := ⟨compactedLen 1 b k
      c.rowsToDiscard, c.file, t.store.loadedFromDisk, t.store.storeSize⟩ } := by
    refine ⟨ht.leafs, ?_, ht.rows, ht.layout, ht.root, rfl, ht.size, ?_⟩
    · show compactedLen 1 b k c.rowsToDiscard = _
      rw [h0, compactedLen, if_pos rfl, Nat.sub_zero, hk']
    · rw [g2, compacted, if_pos rfl, ← allNodes_drop f (show c.rowsToDiscard < k by omega),
        ← allNodes_take ht.layout, h0]
      rw [show rowStart b k (0 + 1) = b ^ k by simp [rowStart], List.take_append_drop]
  refine ⟨_, fs₁, ?_, hft, fun i => ?_⟩
  · exact BaseTree.compact_of_store g1
  · have hr : ∀ {t : BaseTree (DiskStore E) E} {fs : FS}, t.IsFileTree A b k leaves f c fs →
        t.Reads fs b k f := by
      intro t fs ht
      obtain ⟨g, hg, hgr⟩ := ht.isTreeOf.exists_reads
      refine ⟨ht.leafs, ht.len, ht.rows, fun i hi => ?_, ht.root⟩
      rw [hgr.reads i hi, layout_unique hg ht.layout i hi]
    exact genProof_congr hb hk (hr ht) (hr hft) i

end

/-! Concrete instances: a tree of four leaves in a file, compacted with no and with one discarded
row. -/
section
attribute [local instance] idealRows

/-- The nodes `72, 73, 74, 75 | 91, 155 | 250` of the toy tree over `1, 2, 3, 4`. -/
def toyFile (d : Nat) : FS :=
  FS.empty.set (StoreConfig.new "d" "t" d).file (some [72, 73, 74, 75, 91, 155, 250])
def toyTree (d : Nat) : BaseTree (DiskStore UInt8) UInt8 :=
  ⟨⟨7, (StoreConfig.new "d" "t" d).file, false, 7⟩, 4, 7, 3, 250⟩

/-- The toy tree after compaction. -/
def toyCompacted (d version : Nat) : Res Bool × BaseTree (DiskStore UInt8) UInt8 × FS :=
  (toyTree d).compact 2 (StoreConfig.new "d" "t" d) version (toyFile d)

/-- Did it succeed, how long is the store, what is in the file, does a proof come out. -/
def toyReport (d version : Nat) : Bool × Nat × Option Bytes × Bool :=
  ((toyCompacted d version).1.isOk, (toyCompacted d version).2.1.length,
    (toyCompacted d version).2.2.file (StoreConfig.new "d" "t" d).file,
    ((toyCompacted d version).2.1.genProof 2 0 0 (toyCompacted d version).2.2 1).isOk)

example : (((Source.new [1, 2, 3, 4]).build (S := DiskStore UInt8) (A := toyAlg) 2 Sched.sequential
    (some (StoreConfig.new "d" "t" 1)) FS.empty).2.file (StoreConfig.new "d" "t" 1).file
      = some [72, 73, 74, 75, 91, 155, 250]) := by decide +kernel
example : toyReport 1 2 = (true, 1, some [250], false) := by decide +kernel
example : toyReport 1 1 = (true, 5, some [72, 73, 74, 75, 250], false) := by decide +kernel
example : toyReport 0 2 = (true, 3, some [91, 155, 250], false) := by decide +kernel
example : toyReport 0 1 = (true, 7, some [72, 73, 74, 75, 91, 155, 250], true) := by decide +kernel

end
end Verif
