import Verif.Lemmas.Source64
import Verif.Props.Construct
/-
C71: constructing trees on 64-bit words (src/merkle.rs:334-640 and 1512-1770 with the stores in src/store).

`src.build64 o` is the constructor `src` with every size, index and offset a 64-bit word, `o` saying what a
build does on overflow: `checked` panics, `wrapping` wraps around.  `M.RunsAs` compares whole runs, so errors,
panics and what is left in the files are covered, not only trees that get built.
-/
namespace Verif
open Spec

section
variable {E : Type} [Element E] [LawfulElement E] [FloatRows] {o : Overflow} {A : Alg E} {b : Nat} {σ : Sched}

/-- C71 for `VecStore`: while twice the leaves fit in 2^63 bytes, a constructor on words does what it does on
natural numbers. -/
theorem C71_vec (hσ : σ.Valid) {src : Source A} (hs : src.Valid) (hb : b ≤ 2 ^ 63) (hb1 : b ≠ 1)
    (hn : 2 * src.leaves.length * Element.byteLen E ≤ 2 ^ 63)
    (hblk : buildDataBlockSize * Element.byteLen E < 2 ^ 63) (cfg : Option StoreConfig) :
    M.RunsAs (BaseTree.mapStore Vec64.mk) (src.build64 o b σ cfg : M (BaseTree (Vec64 o E) E))
      (src.build b σ cfg) :=
  Source.build64_runs hσ src hs (WordSizes.of_source hb hb1 hn hblk).vec cfg

/-- C71 for `MmapStore`. -/
theorem C71_mmap (hσ : σ.Valid) {src : Source A} (hs : src.Valid) (hb : b ≤ 2 ^ 63) (hb1 : b ≠ 1)
    (hn : 2 * src.leaves.length * Element.byteLen E ≤ 2 ^ 63)
    (hblk : buildDataBlockSize * Element.byteLen E < 2 ^ 63) (cfg : Option StoreConfig) :
    M.RunsAs (BaseTree.mapStore Mmap64.mk) (src.build64 o b σ cfg : M (BaseTree (Mmap64 o E) E))
      (src.build b σ cfg) :=
  Source.build64_runs hσ src hs (WordSizes.of_source hb hb1 hn hblk).mmap cfg

/-- C71 for `DiskStore`. -/
theorem C71_disk (hσ : σ.Valid) {src : Source A} (hs : src.Valid) (hb : b ≤ 2 ^ 63) (hb1 : b ≠ 1)
    (hn : 2 * src.leaves.length * Element.byteLen E ≤ 2 ^ 63)
    (hblk : buildDataBlockSize * Element.byteLen E < 2 ^ 63) (cfg : Option StoreConfig) :
    M.RunsAs (BaseTree.mapStore Disk64.mk) (src.build64 o b σ cfg : M (BaseTree (Disk64 o E) E))
      (src.build b σ cfg) :=
  Source.build64_runs hσ src hs (WordSizes.of_source hb hb1 hn hblk).disk cfg

/-- C71 for `LevelCacheStore`, which also computes the number of leaves from the number of nodes, and with it
the start of the cached rows. -/
theorem C71_level_cache (hσ : σ.Valid) {src : Source A} (hs : src.Valid) (hb : b ≤ 2 ^ 63) (hb1 : b ≠ 1)
    (hn : 2 * src.leaves.length * Element.byteLen E ≤ 2 ^ 63)
    (hblk : buildDataBlockSize * Element.byteLen E < 2 ^ 63) (hK : CacheFits src.leaves.length b)
    (cfg : Option StoreConfig) :
    M.RunsAs (BaseTree.mapStore LevelCache64.mk) (src.build64 o b σ cfg : M (BaseTree (LevelCache64 o E) E))
      (src.build b σ cfg) :=
  Source.build64_runs hσ src hs ((WordSizes.of_source hb hb1 hn hblk).levelCache hK) cfg

/-! ### From the bytes of a whole tree -/

variable {n : Nat} {bytes : Bytes} {sub top : Nat}

/-- C71, `from_tree_slice` and `from_tree_slice_with_config` on `VecStore`, whatever the bytes. -/
theorem C71_tree_slice_vec (hb : b ≤ 2 ^ 63) (hb1 : b ≠ 1) (hn : 2 * n * Element.byteLen E ≤ 2 ^ 63)
    (hl : bytes.length + Element.byteLen E ≤ 2 ^ 63) (hblk : buildDataBlockSize * Element.byteLen E < 2 ^ 63) :
    M.RunsAs (BaseTree.mapStore Vec64.mk) (BaseTree.fromTreeSlice64 o b sub top bytes n : M (BaseTree (Vec64 o E) E))
      (BaseTree.fromTreeSlice b sub top bytes n) ∧
    ∀ c, M.RunsAs (BaseTree.mapStore Vec64.mk)
      (BaseTree.fromTreeSliceWithConfig64 o b sub top bytes n c : M (BaseTree (Vec64 o E) E))
      (BaseTree.fromTreeSliceWithConfig b sub top bytes n c) := by
  obtain ⟨W, h1, h2⟩ := WordSizes.of_slice hb hb1 hn hl hblk
  exact ⟨(fromTreeSlice64_sim h2.vec bytes h1 sub top).run_eq,
    fun c => (fromTreeSliceWithConfig64_sim h2.vec bytes h1 sub top c).run_eq⟩

/-- C71, `from_tree_slice` and `from_tree_slice_with_config` on `MmapStore`. -/
theorem C71_tree_slice_mmap (hb : b ≤ 2 ^ 63) (hb1 : b ≠ 1) (hn : 2 * n * Element.byteLen E ≤ 2 ^ 63)
    (hl : bytes.length + Element.byteLen E ≤ 2 ^ 63) (hblk : buildDataBlockSize * Element.byteLen E < 2 ^ 63) :
    M.RunsAs (BaseTree.mapStore Mmap64.mk)
      (BaseTree.fromTreeSlice64 o b sub top bytes n : M (BaseTree (Mmap64 o E) E))
      (BaseTree.fromTreeSlice b sub top bytes n) ∧
    ∀ c, M.RunsAs (BaseTree.mapStore Mmap64.mk)
      (BaseTree.fromTreeSliceWithConfig64 o b sub top bytes n c : M (BaseTree (Mmap64 o E) E))
      (BaseTree.fromTreeSliceWithConfig b sub top bytes n c) := by
  obtain ⟨W, h1, h2⟩ := WordSizes.of_slice hb hb1 hn hl hblk
  exact ⟨(fromTreeSlice64_sim h2.mmap bytes h1 sub top).run_eq,
    fun c => (fromTreeSliceWithConfig64_sim h2.mmap bytes h1 sub top c).run_eq⟩

/-- C71, `from_tree_slice` and `from_tree_slice_with_config` on `DiskStore`. -/
theorem C71_tree_slice_disk (hb : b ≤ 2 ^ 63) (hb1 : b ≠ 1) (hn : 2 * n * Element.byteLen E ≤ 2 ^ 63)
    (hl : bytes.length + Element.byteLen E ≤ 2 ^ 63) (hblk : buildDataBlockSize * Element.byteLen E < 2 ^ 63) :
    M.RunsAs (BaseTree.mapStore Disk64.mk)
      (BaseTree.fromTreeSlice64 o b sub top bytes n : M (BaseTree (Disk64 o E) E))
      (BaseTree.fromTreeSlice b sub top bytes n) ∧
    ∀ c, M.RunsAs (BaseTree.mapStore Disk64.mk)
      (BaseTree.fromTreeSliceWithConfig64 o b sub top bytes n c : M (BaseTree (Disk64 o E) E))
      (BaseTree.fromTreeSliceWithConfig b sub top bytes n c) := by
  obtain ⟨W, h1, h2⟩ := WordSizes.of_slice hb hb1 hn hl hblk
  exact ⟨(fromTreeSlice64_sim h2.disk bytes h1 sub top).run_eq,
    fun c => (fromTreeSliceWithConfig64_sim h2.disk bytes h1 sub top c).run_eq⟩

/-- C71, `from_tree_slice` and `from_tree_slice_with_config` on `LevelCacheStore`. -/
theorem C71_tree_slice_level_cache (hb : b ≤ 2 ^ 63) (hb1 : b ≠ 1) (hn : 2 * n * Element.byteLen E ≤ 2 ^ 63)
    (hl : bytes.length + Element.byteLen E ≤ 2 ^ 63) (hblk : buildDataBlockSize * Element.byteLen E < 2 ^ 63)
    (hK : CacheFits n b) :
    M.RunsAs (BaseTree.mapStore LevelCache64.mk)
      (BaseTree.fromTreeSlice64 o b sub top bytes n : M (BaseTree (LevelCache64 o E) E))
      (BaseTree.fromTreeSlice b sub top bytes n) ∧
    ∀ c, M.RunsAs (BaseTree.mapStore LevelCache64.mk)
      (BaseTree.fromTreeSliceWithConfig64 o b sub top bytes n c : M (BaseTree (LevelCache64 o E) E))
      (BaseTree.fromTreeSliceWithConfig b sub top bytes n c) := by
  obtain ⟨W, h1, h2⟩ := WordSizes.of_slice hb hb1 hn hl hblk
  exact ⟨(fromTreeSlice64_sim (h2.levelCache hK) bytes h1 sub top).run_eq,
    fun c => (fromTreeSliceWithConfig64_sim (h2.levelCache hK) bytes h1 sub top c).run_eq⟩

/-! ### Over a given store -/

/-- C71, `from_data_store` on `VecStore`. -/
theorem C71_data_store_vec (hb : b ≤ 2 ^ 63) (hb1 : b ≠ 1) (hn : n < 2 ^ 63) (fs : FS) (s : VecStore E) :
    (BaseTree.fromDataStore64 o b sub top (⟨s⟩ : Vec64 o E) n fs : Res (BaseTree (Vec64 o E) E))
      = (BaseTree.fromDataStore b sub top s n fs).map (BaseTree.mapStore Vec64.mk) :=
  fromDataStore64_eq hn hb hb1 fs rfl (last64_of fs rfl fun _ _ => rfl) sub top

/-- C71, `from_data_store` on `MmapStore`. -/
theorem C71_data_store_mmap (hb : b ≤ 2 ^ 63) (hb1 : b ≠ 1) (hn : n < 2 ^ 63) (fs : FS) {s : MmapStore E}
    (hs : s.len * Element.byteLen E < 2 ^ 63) :
    (BaseTree.fromDataStore64 o b sub top (⟨s⟩ : Mmap64 o E) n fs : Res (BaseTree (Mmap64 o E) E))
      = (BaseTree.fromDataStore b sub top s n fs).map (BaseTree.mapStore Mmap64.mk) := by
  have := half_lt_word
  refine fromDataStore64_eq hn hb hb1 fs rfl (last64_of fs rfl fun i hi => ?_) sub top
  have : (i + 1) * Element.byteLen E ≤ s.len * Element.byteLen E := Nat.mul_le_mul_right _ hi
  exact Mmap64.readAt_eq fs (by omega) (by omega)

/-- C71, `from_data_store` on `DiskStore`. -/
theorem C71_data_store_disk (hb : b ≤ 2 ^ 63) (hb1 : b ≠ 1) (hn : n < 2 ^ 63) (fs : FS) {s : DiskStore E}
    (hs : s.len * Element.byteLen E < 2 ^ 63) :
    (BaseTree.fromDataStore64 o b sub top (⟨s⟩ : Disk64 o E) n fs : Res (BaseTree (Disk64 o E) E))
      = (BaseTree.fromDataStore b sub top s n fs).map (BaseTree.mapStore Disk64.mk) := by
  have := half_lt_word
  refine fromDataStore64_eq hn hb hb1 fs rfl (last64_of fs rfl fun i hi => ?_) sub top
  have : (i + 1) * Element.byteLen E ≤ s.len * Element.byteLen E := Nat.mul_le_mul_right _ hi
  exact Disk64.readAt_eq fs hs (by omega)

/-- C71, `from_data_store` on `LevelCacheStore`. -/
theorem C71_data_store_level_cache (hb : b ≤ 2 ^ 63) (hb1 : b ≠ 1) (hn : n < 2 ^ 63) (fs : FS)
    {s : LevelCacheStore E} (hs : LevelCache64.Fits s) :
    (BaseTree.fromDataStore64 o b sub top (⟨s⟩ : LevelCache64 o E) n fs : Res (BaseTree (LevelCache64 o E) E))
      = (BaseTree.fromDataStore b sub top s n fs).map (BaseTree.mapStore LevelCache64.mk) := by
  have := half_lt_word
  have h1 := hs.len
  refine fromDataStore64_eq hn hb hb1 fs rfl (last64_of fs rfl fun i hi => ?_) sub top
  have : (i + 1) * Element.byteLen E ≤ s.len * Element.byteLen E := Nat.mul_le_mul_right _ hi
  exact LevelCache64.readAt_eq fs hs (by omega)

/-! ### What is built -/

/-- C71 with C08: what a constructor on words builds in memory is the Merkle tree of the leaves, read back with word
offsets. -/
theorem C71_tree_vec (hA : A.LawfulReset) (hσ : σ.Valid) {src : Source A} (hs : src.Valid) (hb : b ≤ 2 ^ 63)
    (hb1 : b ≠ 1) (hn : 2 * src.leaves.length * Element.byteLen E ≤ 2 ^ 63)
    (hblk : buildDataBlockSize * Element.byteLen E < 2 ^ 63) (hf : FloatRows.FloorAt b src.leaves.length)
    {cfg : Option StoreConfig} {fs fs' : FS} {t : BaseTree (Vec64 o E) E}
    (hc : ∀ c ∈ cfg, fs.file c.file = none) (h : src.build64 o b σ cfg fs = (.ok t, fs')) :
    ∃ k, 1 ≤ k ∧ t.IsTreeOf A b k src.leaves fs' := by
  obtain ⟨t, h1, rfl⟩ := (C71_vec hσ hs hb hb1 hn hblk cfg).tree h
  obtain ⟨k, hk, ht⟩ := C08_vec hA hσ hs hf hc h1
  exact ⟨k, hk, ht.mapStore rfl fun _ _ => rfl⟩

/-- C71 with C08: what a constructor on words builds in a map is the Merkle tree of the leaves, read back with word
offsets. -/
theorem C71_tree_mmap (hA : A.LawfulReset) (hσ : σ.Valid) {src : Source A} (hs : src.Valid) (hb : b ≤ 2 ^ 63)
    (hb1 : b ≠ 1) (hn : 2 * src.leaves.length * Element.byteLen E ≤ 2 ^ 63)
    (hblk : buildDataBlockSize * Element.byteLen E < 2 ^ 63) (hf : FloatRows.FloorAt b src.leaves.length)
    {cfg : Option StoreConfig} {fs fs' : FS} {t : BaseTree (Mmap64 o E) E}
    (hc : ∀ c ∈ cfg, fs.file c.file = none) (h : src.build64 o b σ cfg fs = (.ok t, fs')) :
    ∃ k, 1 ≤ k ∧ t.IsTreeOf A b k src.leaves fs' := by
  obtain ⟨t, h1, rfl⟩ := (C71_mmap hσ hs hb hb1 hn hblk cfg).tree h
  obtain ⟨k, hk, ht⟩ := C08_mmap hA hσ hs hf hc h1
  have := half_lt_word
  have hl : t.store.len * Element.byteLen E < 2 ^ 63 := ht.len_lt hb1 hn hblk
  refine ⟨k, hk, ht.mapStore rfl fun i hi => ?_⟩
  have : (i + 1) * Element.byteLen E ≤ t.store.len * Element.byteLen E := Nat.mul_le_mul_right _ hi
  exact Mmap64.readAt_eq fs' (by omega) (by omega)

/-- C71 with C08: what a constructor on words builds in a file is the Merkle tree of the leaves, read back with word
offsets. -/
theorem C71_tree_disk (hA : A.LawfulReset) (hσ : σ.Valid) {src : Source A} (hs : src.Valid) (hb : b ≤ 2 ^ 63)
    (hb1 : b ≠ 1) (hn : 2 * src.leaves.length * Element.byteLen E ≤ 2 ^ 63)
    (hblk : buildDataBlockSize * Element.byteLen E < 2 ^ 63) (hf : FloatRows.FloorAt b src.leaves.length)
    {cfg : Option StoreConfig} {fs fs' : FS} {t : BaseTree (Disk64 o E) E}
    (hc : ∀ c ∈ cfg, fs.file c.file = none) (h : src.build64 o b σ cfg fs = (.ok t, fs')) :
    ∃ k, 1 ≤ k ∧ t.IsTreeOf A b k src.leaves fs' := by
  obtain ⟨t, h1, rfl⟩ := (C71_disk hσ hs hb hb1 hn hblk cfg).tree h
  obtain ⟨k, hk, ht⟩ := C08_disk hA hσ hs hf hc h1
  have := half_lt_word
  have hl : t.store.len * Element.byteLen E < 2 ^ 63 := ht.len_lt hb1 hn hblk
  refine ⟨k, hk, ht.mapStore rfl fun i hi => ?_⟩
  have : (i + 1) * Element.byteLen E ≤ t.store.len * Element.byteLen E := Nat.mul_le_mul_right _ hi
  exact Disk64.readAt_eq fs' (by omega) (by omega)

end

/-! ### The hypotheses can be met -/
section examples

attribute [local instance] idealRows

/-- The sixteen leaves of `exampleSource` satisfy every hypothesis, for every store and both kinds of build. -/
example (o : Overflow) : M.RunsAs (BaseTree.mapStore Disk64.mk)
    (exampleSource.build64 o 4 Sched.sequential (some exampleConfig) : M (BaseTree (Disk64 o UInt8) UInt8))
    (exampleSource.build 4 Sched.sequential (some exampleConfig)) :=
  C71_disk Sched.sequential_valid (src := exampleSource) trivial (by decide) (by decide) (by decide) (by decide) _

theorem cacheFits_example : CacheFits exampleSource.leaves.length 2 where
  full := ⟨4, by decide, by decide⟩
  rows m hm _ := by rw [merkleTreeRowCount, if_pos rfl]; exact log2Pow2_even (by omega)

example (o : Overflow) : M.RunsAs (BaseTree.mapStore LevelCache64.mk)
    (exampleSource.build64 o 2 Sched.sequential (some exampleConfig) : M (BaseTree (LevelCache64 o UInt8) UInt8))
    (exampleSource.build 2 Sched.sequential (some exampleConfig)) :=
  C71_level_cache Sched.sequential_valid (src := exampleSource) trivial (by decide) (by decide) (by decide)
    (by decide) cacheFits_example _

/-- What the two sides above give is a tree, not an error. -/
example (o : Overflow) : Res.IsOk
    (exampleSource.build64 (S := Disk64 o UInt8) o 4 Sched.sequential none FS.empty).1 := by
  have h := C71_disk (o := o) Sched.sequential_valid (src := exampleSource) trivial (b := 4) (by decide) (by decide)
    (by decide) (by decide) none FS.empty
  obtain ⟨t, ht⟩ := ((C11_disk (E := UInt8) (A := toyAlg) (src := exampleSource) (cfg := none)
    (fs := FS.empty) toyAlg_reset ⟨2, by decide, rfl⟩ (by decide)
    Sched.sequential_valid trivial (idealRows_floor (by decide) (by decide)) (by simp)).1).2
    ⟨2, by decide, rfl⟩
  rw [h, ht]
  exact ⟨_, rfl⟩

end examples
end Verif
