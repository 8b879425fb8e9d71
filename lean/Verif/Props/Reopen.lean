import Verif.Lemmas.Reopen
import Verif.Lemmas.TreeSlice
import Verif.Spec.Toy
import Verif.Spec.Ideal
/-! Property C32: opening a tree again.  In every theorem the tree was built with a configuration
naming a file that did not exist; `fs'` is the file system after the build. -/
namespace Verif
open Spec StoreOps

section
variable {E : Type} [Element E] [LawfulElement E] [FloatRows] {A : Alg E}

section
variable (hA : A.LawfulReset) {b : Nat} {σ : Sched} (hσ : σ.Valid) {src : Source A} (hs : src.Valid)
  (hf : FloatRows.FloorAt b src.leaves.length) {c : StoreConfig} {fs fs' : FS}
  (hc : fs.file c.file = none)
include hA hσ hs hf hc

/-- **C32**, `DiskStore`: `new_from_disk` followed by `from_data_store` gives the same tree. -/
theorem C32_disk_open {t : BaseTree (DiskStore E) E}
    (h : src.build b σ (some c) fs = (.ok t, fs')) :
    ∃ (s : DiskStore E) (u : BaseTree (DiskStore E) E),
      Store.newFromDisk t.length b c fs' = (.ok s, fs') ∧
      BaseTree.fromDataStore b 0 0 s t.leafs fs' = .ok u ∧ BaseTree.SameAs b fs' t u := by
  obtain ⟨hb, _, k, d, hk, he, hn, hm, hfr⟩ := Source.build_sound hA hσ hs hf
    (cfg := some c) (fun c' h' => by cases h'; exact hc) h
  have ht := hm.isFileTree hn hfr
  refine ⟨⟨nodes b k, c.file, true, nodes b k * Element.byteLen E⟩, _, ?_, ?_,
    ht.sameAs (ht.reopened (nodes b k))⟩
  · rw [show t.length = nodes b k from ht.len]
    exact ht.opened
  · rw [ht.leafs]
    exact BaseTree.fromDataStore_run hb hk he rfl ht.last

/-- **C32**, `DiskStore`: every constructor from leaves with the same configuration, given as many
leaves as the first time but no matter which, returns the same tree and leaves the disk alone.
`from_byte_slice_with_config` is the exception, see below. -/
theorem C32_disk_build {t : BaseTree (DiskStore E) E}
    (h : src.build b σ (some c) fs = (.ok t, fs')) {src₂ : Source A} (hby : src₂.isBytes = false)
    (hlen : src₂.leaves.length = src.leaves.length) (σ₂ : Sched) :
    ∃ u : BaseTree (DiskStore E) E, src₂.build b σ₂ (some c) fs' = (.ok u, fs') ∧
      BaseTree.SameAs b fs' t u := by
  obtain ⟨hb, _, k, d, hk, he, hn, hm, hfr⟩ := Source.build_sound hA hσ hs hf
    (cfg := some c) (fun c' h' => by cases h'; exact hc) h
  have ht := hm.isFileTree hn hfr
  have hnew : Store.newWithConfig (S := DiskStore E) (nodes b k) b c fs'
      = (.ok ⟨nodes b k, c.file, true, nodes b k * Element.byteLen E⟩, fs') :=
    (DiskStore.newWithConfig_existing ht.file).trans ht.opened
  refine ⟨_, ?_, ht.sameAs (ht.reopened (nodes b k))⟩
  rw [Source.build_loaded hb hk he hnew rfl σ₂ hby (hlen.trans hn), ht.last]
  rfl

/-- **C32**, `DiskStore`: not even the iterator is consulted.  It may fail, or yield fewer or more
leaves than its size hint says. -/
theorem C32_disk_iterator {t : BaseTree (DiskStore E) E}
    (h : src.build b σ (some c) fs = (.ok t, fs')) (items : List (Res E)) (σ₂ : Sched) :
    ∃ u : BaseTree (DiskStore E) E,
      BaseTree.tryFromIterWithConfig A b σ₂ (some src.leaves.length) items c fs' = (.ok u, fs') ∧
      BaseTree.SameAs b fs' t u := by
  obtain ⟨hb, _, k, d, hk, he, hn, hm, hfr⟩ := Source.build_sound hA hσ hs hf
    (cfg := some c) (fun c' h' => by cases h'; exact hc) h
  have ht := hm.isFileTree hn hfr
  have hnew : Store.newWithConfig (S := DiskStore E) (nodes b k) b c fs'
      = (.ok ⟨nodes b k, c.file, true, nodes b k * Element.byteLen E⟩, fs') :=
    (DiskStore.newWithConfig_existing ht.file).trans ht.opened
  refine ⟨_, ?_, ht.sameAs (ht.reopened (nodes b k))⟩
  rw [hn, BaseTree.tryFromIterWithConfig_loaded hb hk he hnew rfl σ₂, ht.last]
  rfl

/-- **C32**, `DiskStore`: with another number of leaves every constructor returns `Err`; it never
returns another tree, and leaves the disk alone. -/
theorem C32_disk_other_count {t : BaseTree (DiskStore E) E}
    (h : src.build b σ (some c) fs = (.ok t, fs')) {src₂ : Source A}
    (hf₂ : FloatRows.FloorAt b src₂.leaves.length)
    (hlen : src₂.leaves.length ≠ src.leaves.length) (σ₂ : Sched) :
    ∃ m, src₂.build (S := DiskStore E) b σ₂ (some c) fs' = (.error (.err m), fs') := by
  obtain ⟨hb, _, k, d, hk, he, hn, hm, hfr⟩ := Source.build_sound hA hσ hs hf
    (cfg := some c) (fun c' h' => by cases h'; exact hc) h
  have ht := hm.isFileTree hn hfr
  have hne := hb.two_le
  rcases hsz : BaseTree.sizes b src₂.leaves.length with e | ⟨size, rows⟩
  · have := sizes_returns (b := b) (n := src₂.leaves.length) (by omega)
    rcases this with ⟨a, ha⟩ | ⟨m, hm⟩
    · rw [hsz] at ha; cases ha
    · rw [hsz] at hm
      cases hm
      exact ⟨m, Source.build_bad_sizes hsz σ₂ rfl⟩
  · have hs2 := sizes_ne hb hf₂ (fun h' => hlen (h'.trans hn.symm)) hsz
    obtain ⟨m, hw⟩ := DiskStore.newFromDisk_wrong (E := E) (b := b) (n := size) ht.file (by
      rw [allNodes_bytes]
      intro h'
      exact hs2 (Nat.eq_of_mul_eq_mul_right LawfulElement.byteLen_pos h').symm)
    have hw : DiskStore.newWithConfig (E := E) size b c fs' = (.error (.err m), fs') :=
      (DiskStore.newWithConfig_existing ht.file).trans hw
    refine ⟨m, ?_⟩
    cases hby : src₂.isBytes with
    | false => exact Source.build_refused hsz hw σ₂ hby rfl
    | true =>
      cases src₂ with
      | bytes es =>
        show BaseTree.fromByteSliceWithConfig A b σ₂ (encodeAll es) c fs' = _
        unfold BaseTree.fromByteSliceWithConfig
        rw [M.bind_ok (a := es.length) (fs' := fs') (by
          unfold BaseTree.sliceLeafs
          rw [M.ofRes_run, modP_encodeAll, Res.ok_bind, ensure_true rfl, Res.ok_bind, div_encodeAll]),
          M.bind_ok (a := (size, rows)) (fs' := fs') (by rw [M.ofRes_run]; exact congrArg (·, fs') hsz)]
        dsimp only
        apply M.bind_error
        show DiskStore.newFromSliceWithConfig _ _ _ _ _ = _
        unfold DiskStore.newFromSliceWithConfig
        rw [M.bind_ok (a := 0) (fs' := fs') (by rw [M.ofRes_run, modP_encodeAll]),
          M.bind_ok (mEnsure_true rfl _ _), M.bind_error hw]
      | _ => cases hby

/-- **C32**, `DiskStore`: `from_tree_slice_with_config` returns the tree on disk too, whatever nodes it
is given. -/
theorem C32_disk_tree_slice {t : BaseTree (DiskStore E) E}
    (h : src.build b σ (some c) fs = (.ok t, fs')) {es : List E} (hlen : es.length = t.length) :
    ∃ u : BaseTree (DiskStore E) E,
      BaseTree.fromTreeSliceWithConfig b 0 0 (encodeAll es) t.leafs c fs' = (.ok u, fs') ∧
      BaseTree.SameAs b fs' t u := by
  obtain ⟨hb, _, k, d, hk, he, hn, hm, hfr⟩ := Source.build_sound hA hσ hs hf
    (cfg := some c) (fun c' h' => by cases h'; exact hc) h
  have ht := hm.isFileTree hn hfr
  have hlen : es.length = nodes b k := hlen.trans ht.len
  refine ⟨_, ?_, ht.sameAs (ht.reopened (nodes b k))⟩
  unfold BaseTree.fromTreeSliceWithConfig
  rw [ht.leafs]
  rw [M.bind_ok (a := nodes b k) (fs' := fs') (by
    unfold BaseTree.treeSliceLen
    rw [M.ofRes_run, ensure_true rfl, Res.ok_bind, ensure_true rfl, Res.ok_bind,
      merkleTreeLen_pow hb hk, Res.ok_bind, length_encodeAll, divP_ok LawfulElement.byteLen_pos,
      Res.ok_bind, Nat.mul_div_cancel _ LawfulElement.byteLen_pos,
      ensure_true hlen.symm, Res.ok_bind, sizeValid_pow hb, Res.ok_bind, ensure_true rfl]
    rfl)]
  rw [M.bind_ok (a := (⟨nodes b k, c.file, true, nodes b k * Element.byteLen E⟩ : DiskStore E))
    (fs' := fs') (by
      show DiskStore.newFromSliceWithConfig _ _ _ _ _ = _
      unfold DiskStore.newFromSliceWithConfig
      rw [M.bind_ok (a := 0) (fs' := fs') (by rw [M.ofRes_run, modP_encodeAll]),
        M.bind_ok (mEnsure_true rfl _ _),
        M.bind_ok ((DiskStore.newWithConfig_existing ht.file).trans ht.opened)]
      rfl),
    M.bind_ok (a := t.root) (fs' := fs') (by rw [M.get_run, ht.last]), rowCount_pow he]
  rfl

/-- **C32** fails for `from_byte_slice_with_config` on `DiskStore`: given a finished file it returns
`Err` (`build` wants a store that holds only the leaves), even when the leaves are those of the tree. -/
theorem C32_disk_byte_slice_refuted {t : BaseTree (DiskStore E) E}
    (h : src.build b σ (some c) fs = (.ok t, fs')) {es : List E}
    (hlen : es.length = src.leaves.length) (σ₂ : Sched) :
    ∃ m, BaseTree.fromByteSliceWithConfig (S := DiskStore E) A b σ₂ (encodeAll es) c fs'
      = (.error (.err m), fs') := by
  obtain ⟨hb, _, k, d, hk, he, hn, hm, hfr⟩ := Source.build_sound hA hσ hs hf
    (cfg := some c) (fun c' h' => by cases h'; exact hc) h
  have ht := hm.isFileTree hn hfr
  obtain ⟨m, hm⟩ := DiskStore.build_len (A := A) (b := b) (n := b ^ k) (rows := k + 1) σ₂
    (s := (⟨nodes b k, c.file, true, nodes b k * Element.byteLen E⟩ : DiskStore E)) fs'
    (pow_ne_nodes hk) (some c)
  refine ⟨m, ?_⟩
  unfold BaseTree.fromByteSliceWithConfig
  rw [M.bind_ok (a := b ^ k) (fs' := fs') (by
    unfold BaseTree.sliceLeafs
    rw [M.ofRes_run, modP_encodeAll, Res.ok_bind, ensure_true rfl, Res.ok_bind, div_encodeAll,
      hlen, hn]),
    M.bind_ok (a := (nodes b k, k + 1)) (fs' := fs')
      (by rw [M.ofRes_run, BaseTree.sizes_ok hb hk he])]
  dsimp only
  rw [M.bind_ok (a := (⟨nodes b k, c.file, true, nodes b k * Element.byteLen E⟩ : DiskStore E))
    (fs' := fs') (by
      show DiskStore.newFromSliceWithConfig _ _ _ _ _ = _
      unfold DiskStore.newFromSliceWithConfig
      rw [M.bind_ok (a := 0) (fs' := fs') (by rw [M.ofRes_run, modP_encodeAll]),
        M.bind_ok (mEnsure_true rfl _ _),
        M.bind_ok ((DiskStore.newWithConfig_existing ht.file).trans ht.opened)]
      rfl)]
  exact M.bind_error hm

/-- **C32**, `MmapStore`: `new_from_disk` followed by `from_data_store` gives the same tree. -/
theorem C32_mmap_open {t : BaseTree (MmapStore E) E}
    (h : src.build b σ (some c) fs = (.ok t, fs')) :
    ∃ (s : MmapStore E) (u : BaseTree (MmapStore E) E),
      Store.newFromDisk t.length b c fs' = (.ok s, fs') ∧
      BaseTree.fromDataStore b 0 0 s t.leafs fs' = .ok u ∧ BaseTree.SameAs b fs' t u := by
  obtain ⟨hb, _, k, d, hk, he, hn, hm, hfr⟩ := Source.build_sound hA hσ hs hf
    (cfg := some c) (fun c' h' => by cases h'; exact hc) h
  obtain ⟨bs, h1, h2, h3⟩ := hm.mmap_store (c := c) (hfr.own t.store.file rfl)
  have hlen : StoreOps.len (E := E) t.store = nodes b k := hm.filled.len_eq
  refine ⟨t.store, ⟨t.store, b ^ k, nodes b k, k + 1, t.root⟩, ?_, ?_, .of_store rfl hm.leafs.symm
    hm.rows.symm rfl⟩
  · rw [show t.length = nodes b k from hlen]
    exact h3
  · rw [hm.leafs]
    exact BaseTree.fromDataStore_run hb hk he hlen hm.last

/-- **C32** fails for the constructors with a configuration on `MmapStore`: over a finished file all of
them but `from_byte_slice_with_config` return `Err` (the store never says that it was loaded). -/
theorem C32_mmap_build_refuted {t : BaseTree (MmapStore E) E}
    (h : src.build b σ (some c) fs = (.ok t, fs')) {src₂ : Source A} (hby : src₂.isBytes = false)
    (hlen : src₂.leaves.length = src.leaves.length) (σ₂ : Sched) :
    ∃ m, src₂.build (S := MmapStore E) b σ₂ (some c) fs' = (.error (.err m), fs') := by
  obtain ⟨hb, _, k, d, hk, he, hn, hm, hfr⟩ := Source.build_sound hA hσ hs hf
    (cfg := some c) (fun c' h' => by cases h'; exact hc) h
  obtain ⟨bs, h1, h2, h3⟩ := hm.mmap_store (c := c) (hfr.own t.store.file rfl)
  exact Source.build_mmap_existing hb hk he h1 h2 σ₂ hby (hlen.trans hn)

/-- **C32** fails for `from_byte_slice_with_config` on `MmapStore`: it overwrites the finished file and
returns the tree of the leaves it is given. -/
theorem C32_mmap_byte_slice_refuted {t : BaseTree (MmapStore E) E}
    (h : src.build b σ (some c) fs = (.ok t, fs')) {es : List E}
    (hlen : es.length = src.leaves.length) {σ₂ : Sched} (hσ₂ : σ₂.Valid) :
    ∃ (k : Nat) (u : BaseTree (MmapStore E) E) (fs'' : FS),
      BaseTree.fromByteSliceWithConfig A b σ₂ (encodeAll es) c fs' = (.ok u, fs'') ∧
      u.IsTreeOf A b k es fs'' := by
  obtain ⟨hb, hb', k, d, hk, he, hn, hm, hfr⟩ := Source.build_sound hA hσ hs hf
    (cfg := some c) (fun c' h' => by cases h'; exact hc) h
  obtain ⟨bs, h1, h2, h3⟩ := hm.mmap_store (c := c) (hfr.own t.store.file rfl)
  obtain ⟨u, fs'', g1, g2⟩ := BaseTree.fromByteSliceWithConfig_mmap (A := A) hb hb' hk he h1 h2 hσ₂ d
    (es := es) (hlen.trans hn)
  exact ⟨k, u, fs'', g1, g2.isTreeOf (hlen.trans hn)⟩

/-- **C32**, `LevelCacheStore`: `new_from_disk_with_reader` followed by `from_data_store` gives a tree
with the same root, leaf count, length and row count, whatever the reader.  (For its proofs see C28:
they need a reader that delivers the leaves.) -/
theorem C32_level_cache_open {t : BaseTree (LevelCacheStore E) E}
    (h : src.build b σ (some c) fs = (.ok t, fs')) (r : ExternalReader) :
    ∃ (s : LevelCacheStore E) (u : BaseTree (LevelCacheStore E) E),
      LevelCacheStore.newFromDiskWithReader t.length b c r fs' = (.ok s, fs') ∧
      BaseTree.fromDataStore b 0 0 s t.leafs fs' = .ok u ∧ u.summary = t.summary := by
  obtain ⟨hb, hb', k, d, hk, he, hn, hm, _⟩ := Source.build_cached_sound hA hσ hs hf hc h
  have ht := hm.isCacheOf hn
  obtain ⟨f, h1, h2, h3⟩ := ht.nodes
  have h3 : fs'.file c.file = some (encodeAll (cachedRows b k c.rowsToDiscard f)) := h3
  have hl : LevelCacheStore.View b k c.rowsToDiscard
      (⟨nodes b k, c.file, b ^ k, rowStart b k (c.rowsToDiscard + 1) * Element.byteLen E, false,
        (encodeAll (cachedRows b k c.rowsToDiscard f)).length, some r⟩ : LevelCacheStore E) :=
    ⟨rfl, rfl, rfl⟩
  have hp := nodes_pos b k
  have hle := rowStart_le_nodes b k (c.rowsToDiscard + 1) hk
  have hp2 := nodes_pos b (k - (c.rowsToDiscard + 1))
  refine ⟨_, _, by
      rw [show t.length = nodes b k from ht.len]
      exact LevelCacheStore.newFromDiskWithReader_run hb (by omega) he hk h3 (by
        rw [length_encodeAll, cachedRows_length]) r,
    by rw [ht.leafs]; exact fromDataStore_view hb (by omega) he hl
        (hl.readAt_cached_v2 hk rfl h3 (by omega) (by omega)), ?_⟩
  unfold BaseTree.summary
  rw [ht.leafs, ht.rows, show t.length = nodes b k from ht.len, h2]
  rfl

/-- **C32** fails for the constructors with a configuration on `LevelCacheStore`: over a finished file
they open a store without a reader, which looks for the root behind the end of the file, and so
return `Err`. -/
theorem C32_level_cache_build_refuted {t : BaseTree (LevelCacheStore E) E}
    (h : src.build b σ (some c) fs = (.ok t, fs')) {src₂ : Source A} (hby : src₂.isBytes = false)
    (hlen : src₂.leaves.length = src.leaves.length) (σ₂ : Sched) :
    ∃ m, src₂.build (S := LevelCacheStore E) b σ₂ (some c) fs' = (.error (.err m), fs') := by
  obtain ⟨hb, hb', k, d, hk, he, hn, hm, _⟩ := Source.build_cached_sound hA hσ hs hf hc h
  have ht := hm.isCacheOf hn
  obtain ⟨f, h1, h2, h3⟩ := ht.nodes
  have h3 : fs'.file c.file = some (encodeAll (cachedRows b k c.rowsToDiscard f)) := h3
  have hnew : Store.newWithConfig (S := LevelCacheStore E) (nodes b k) b c fs' = _ :=
    (LevelCacheStore.newWithConfig_existing h3).trans
      (LevelCacheStore.newFromDisk_run hb (by omega) he hk h3)
  rw [Source.build_loaded hb (by omega) he hnew rfl σ₂ hby (hlen.trans hn)]
  obtain ⟨m, hm⟩ := LevelCacheStore.last_no_reader (E := E) (b := b) (c := c) (ld := true)
    (n := (encodeAll (cachedRows b k c.rowsToDiscard f)).length) hk (by have := hb.two_le; omega) h3
    (by rw [length_encodeAll, cachedRows_length])
  rw [hm]
  exact ⟨m, rfl⟩

/-- The same for `new_from_disk`, the constructor without a reader. -/
theorem C32_level_cache_no_reader_refuted {t : BaseTree (LevelCacheStore E) E}
    (h : src.build b σ (some c) fs = (.ok t, fs')) :
    ∃ (s : LevelCacheStore E), Store.newFromDisk t.length b c fs' = (.ok s, fs') ∧
      Res.IsErr (BaseTree.fromDataStore b 0 0 s t.leafs fs') := by
  obtain ⟨hb, hb', k, d, hk, he, hn, hm, _⟩ := Source.build_cached_sound hA hσ hs hf hc h
  have ht := hm.isCacheOf hn
  obtain ⟨f, h1, h2, h3⟩ := ht.nodes
  have h3 : fs'.file c.file = some (encodeAll (cachedRows b k c.rowsToDiscard f)) := h3
  obtain ⟨m, hm⟩ := LevelCacheStore.last_no_reader (E := E) (b := b) (c := c) (ld := true)
    (n := (encodeAll (cachedRows b k c.rowsToDiscard f)).length) hk (by have := hb.two_le; omega) h3
    (by rw [length_encodeAll, cachedRows_length])
  refine ⟨_, by
      rw [show t.length = nodes b k from ht.len]
      exact LevelCacheStore.newFromDisk_run hb (by omega) he hk h3, m, ?_⟩
  rw [ht.leafs]
  unfold BaseTree.fromDataStore
  rw [ensure_true rfl, Res.ok_bind, ensure_true rfl, Res.ok_bind,
    ensure_true ((eq_nextPow2_iff _).2 (hb.pow_isPow2 k)).symm, Res.ok_bind,
    ensure_true ((eq_nextPow2_iff _).2 hb.pow2).symm, Res.ok_bind,
    merkleTreeLen_pow hb (by omega), Res.ok_bind, ensure_true (by rfl), Res.ok_bind, sizeValid_pow hb,
    Res.ok_bind, ensure_true rfl, Res.ok_bind, hm]
  rfl

end
/-- **C32**, compound trees on `DiskStore`: `from_store_configs` over the files of finished trees gives
the sub-tree `from_trees` makes of those trees: the same root, leaf count, length and row count, and
children that are the same trees. -/
theorem C32_disk_store_configs {b k : Nat} (hb : Arity b) (hk : 1 ≤ k) (he : FloatRows.ExactAt b k)
    {fs : FS} {ts : List (BaseTree (DiskStore E) E)} {cs : List StoreConfig}
    (hts : List.Forall₂ (fun t c => ∃ leaves f, BaseTree.IsFileTree A b k leaves f c fs t) ts cs)
    (sub : Nat) :
    ∃ us : List (BaseTree (DiskStore E) E), List.Forall₂ (BaseTree.SameAs b fs) ts us ∧
      fromStoreConfigs (S := DiskStore E) A b sub (b ^ k) cs fs = (fromTrees A sub us, fs) ∧
      (fromTrees A sub us).map (fun n => (n.root, n.leafs, n.len, n.rowCount))
        = (fromTrees A sub ts).map (fun n => (n.root, n.leafs, n.len, n.rowCount)) := by
  obtain ⟨us, h1, h2⟩ : ∃ us : List (BaseTree (DiskStore E) E), List.Forall₂ (BaseTree.SameAs b fs) ts us ∧
      collectM (fun c => do
        let n ← M.ofRes (merkleTreeLen (b ^ k) b)
        let s : DiskStore E ← Store.newWithConfig n b c
        M.get (BaseTree.fromDataStore b 0 0 s (b ^ k))) cs fs = (.ok us, fs) := by
    induction hts with
    | nil => exact ⟨[], .nil, rfl⟩
    | cons h _ ih =>
      obtain ⟨leaves, f, ht⟩ := h
      obtain ⟨us, h1, h2⟩ := ih
      refine ⟨_, .cons (ht.sameAs (ht.reopened (nodes b k))) h1, ?_⟩
      unfold collectM
      rw [M.bind_ok (a := _) (fs' := fs) (by
        rw [M.bind_ok (a := nodes b k) (fs' := fs) (by rw [M.ofRes_run, merkleTreeLen_pow hb hk]),
          M.bind_ok (a := (⟨nodes b k, _, true, nodes b k * Element.byteLen E⟩ : DiskStore E)) (fs' := fs)
            (by exact (DiskStore.newWithConfig_existing ht.file).trans ht.opened)]
        rw [M.get_run, BaseTree.fromDataStore_run hb hk he (by rfl) ht.last]), M.bind_ok h2]
      rfl
  refine ⟨us, h1, ?_, ?_⟩
  · unfold fromStoreConfigs
    rw [M.bind_ok h2, M.ofRes_run]
  · exact fromTrees_congr A sub (h1.imp fun _ _ h => h.summary)

end

/-! Concrete instances: a tree over `1, 2, 3, 4`, opened with the leaves `9, 9, 9, 9`. -/
section
attribute [local instance] idealRows

def reopenCfg : StoreConfig := StoreConfig.new "d" "t" 0
def reopenFs (S : Type) [Store S UInt8] : FS :=
  ((Source.new [1, 2, 3, 4]).build (S := S) (A := toyAlg) 2 Sched.sequential (some reopenCfg) FS.empty).2
/-- Root of the reopened tree and the file afterwards. -/
def reopenReport (S : Type) [Store S UInt8] (src : Source toyAlg) : Option UInt8 × Option Bytes :=
  let r := src.build (S := S) 2 Sched.sequential (some reopenCfg) (reopenFs S)
  ((match r.1 with | .ok t => some t.root | .error _ => none), r.2.file reopenCfg.file)

example : reopenReport (DiskStore UInt8) (.new [9, 9, 9, 9])
    = (some 250, some [72, 73, 74, 75, 91, 155, 250]) := by decide +kernel
example : reopenReport (DiskStore UInt8) (.new [9, 9])
    = (none, some [72, 73, 74, 75, 91, 155, 250]) := by decide +kernel
example : reopenReport (DiskStore UInt8) (.bytes [72, 73, 74, 75])
    = (none, some [72, 73, 74, 75, 91, 155, 250]) := by decide +kernel
example : reopenReport (MmapStore UInt8) (.new [1, 2, 3, 4])
    = (none, some [72, 73, 74, 75, 91, 155, 250]) := by decide +kernel
example : (reopenReport (MmapStore UInt8) (.bytes [9, 9, 9, 9])).1.isSome
    ∧ reopenReport (MmapStore UInt8) (.bytes [9, 9, 9, 9])
      ≠ (some 250, some [72, 73, 74, 75, 91, 155, 250]) := by decide +kernel
example : reopenReport (LevelCacheStore UInt8) (.new [1, 2, 3, 4])
    = (none, some [91, 155, 250]) := by decide +kernel

end
end Verif
