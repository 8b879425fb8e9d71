import Verif.Lemmas.Crash
import Verif.Lemmas.Interrupted
import Verif.Spec.Toy
import Verif.Spec.Ideal
/-! Property C34: a crash inside `compact`.  The crash states are those of `Spec/Crash.lean`. -/
namespace Verif
open Spec StoreOps

/-- However `io::copy` splits the bytes into blocks, copying them to a lower position of the same file
writes the original bytes: `copyWithin` of the model is right for every block size. -/
theorem C34_copy_blocks {bs : Bytes} {src dst p : Nat} {cur : Bytes} (hds : dst ≤ src)
    (hs : src ≤ bs.length) (h : CopyState bs src dst p cur) :
    src + p ≤ bs.length ∧ cur = patch bs dst (region bs src p) := h.eq hds hs

section
variable {E : Type} [Element E] [LawfulElement E] [FloatRows] {A : Alg E} {b k : Nat}
  {leaves : List E} {f : Nat → E} {c : StoreConfig} {fs fs' : FS} {t : BaseTree (DiskStore E) E}
  {version : Nat}

section
variable (hb : Arity b) (hk : 1 ≤ k) (hf : FloatRows.ExactAt b k) (ht : t.IsFileTree A b k leaves f c fs)
include hb hk hf ht

/-- **C34.** In every crash state of `compact`, `new_from_disk_with_reader` returns `Err`, or a store
that reads every cached node as the full tree did before. -/
theorem C34_crash (h : t.store.CompactCrash b c version fs fs') (r : ExternalReader) :
    (∃ m, LevelCacheStore.newFromDiskWithReader (E := E) t.length b c r fs' = (.error (.err m), fs')) ∨
    ∃ s : LevelCacheStore E,
      LevelCacheStore.newFromDiskWithReader t.length b c r fs' = (.ok s, fs') ∧
      ∀ i, rowStart b k (c.rowsToDiscard + 1) ≤ i → i < t.length → readAt fs' s i = t.readAt fs i := by
  have hlen : t.length = nodes b k := ht.len
  have hL := LawfulElement.byteLen_pos (E := E)
  rw [hlen]
  rcases h.cases hb hk hf ht with ⟨bs, h1, h2⟩ | ⟨hd, h1⟩
  · refine .inl (LevelCacheStore.newFromDiskWithReader_wrong hb hk hf h1 (fun hd he => ?_) r)
    have := LevelCacheStore.rowStart_cache (b := b) hd
    have := pow_le_rowStart b k c.rowsToDiscard
    have : 0 < b ^ k := Nat.pow_pos (by have := hb.two_le; omega)
    have := Nat.eq_of_mul_eq_mul_right hL (h2.symm.trans he)
    omega
  · unfold compacted at h1
    split at h1
    · refine .inl (LevelCacheStore.newFromDiskWithReader_wrong hb hk hf h1 (fun hd he => ?_) r)
      rw [length_encodeAll, List.length_append, ht.layout.count, cachedRows_length] at he
      have : 0 < b ^ k := Nat.pow_pos (by have := hb.two_le; omega)
      have := Nat.eq_of_mul_eq_mul_right hL he
      omega
    · refine .inr ⟨_, LevelCacheStore.newFromDiskWithReader_run hb hk hf hd h1 (by
        rw [length_encodeAll, cachedRows_length]) r, fun i h2 h3 => ?_⟩
      obtain ⟨g, hg, hreads⟩ := ht.isTreeOf.exists_reads
      rw [hreads.reads i h3, layout_unique hg ht.layout i h3]
      have hl : LevelCacheStore.View b k c.rowsToDiscard
          (⟨nodes b k, c.file, b ^ k, rowStart b k (c.rowsToDiscard + 1) * Element.byteLen E, false,
            (encodeAll (cachedRows b k c.rowsToDiscard f)).length, some r⟩ : LevelCacheStore E) :=
        ⟨rfl, rfl, rfl⟩
      exact hl.readAt_cached_v2 hd rfl h1 h2 h3

/-- **C34**: the store opens only when `compact` (to version 2) has done all its work: the file holds
exactly the cached rows. -/
theorem C34_opens_iff (h : t.store.CompactCrash b c version fs fs') (r : ExternalReader) :
    (∃ (s : LevelCacheStore E) (fs'' : FS),
      LevelCacheStore.newFromDiskWithReader t.length b c r fs' = (.ok s, fs'')) ↔
    c.rowsToDiscard < k ∧ fs'.file c.file = some (encodeAll (cachedRows b k c.rowsToDiscard f)) := by
  have hlen : t.length = nodes b k := ht.len
  have hL := LawfulElement.byteLen_pos (E := E)
  rw [hlen]
  constructor
  · rintro ⟨s, fs'', hs⟩
    rcases h.cases hb hk hf ht with ⟨bs, h1, h2⟩ | ⟨hd, h1⟩
    · obtain ⟨m, hm⟩ := LevelCacheStore.newFromDiskWithReader_wrong hb hk hf h1 (fun hd he => by
        have := LevelCacheStore.rowStart_cache (b := b) hd
        have := pow_le_rowStart b k c.rowsToDiscard
        have : 0 < b ^ k := Nat.pow_pos (by have := hb.two_le; omega)
        have := Nat.eq_of_mul_eq_mul_right hL (h2.symm.trans he)
        omega) r
      rw [hm] at hs
      cases hs
    · unfold compacted at h1
      split at h1
      · obtain ⟨m, hm⟩ := LevelCacheStore.newFromDiskWithReader_wrong hb hk hf h1 (fun hd he => by
          rw [length_encodeAll, List.length_append, ht.layout.count, cachedRows_length] at he
          have : 0 < b ^ k := Nat.pow_pos (by have := hb.two_le; omega)
          have := Nat.eq_of_mul_eq_mul_right hL he
          omega) r
        rw [hm] at hs
        cases hs
      · exact ⟨hd, h1⟩
  · rintro ⟨hd, h1⟩
    exact ⟨_, _, LevelCacheStore.newFromDiskWithReader_run hb hk hf hd h1 (by
        rw [length_encodeAll, cachedRows_length]) r⟩

/-- The crash states are not an invention: the state in which a successful `compact` ends is one of
them, and so is the file with any number of the bytes copied. -/
theorem C34_states (hd : c.rowsToDiscard < k) (version : Nat) :
    (∃ t' fs', t.compact b c version fs = (.ok true, t', fs') ∧ ∃ fs'',
      t.store.CompactCrash b c version fs fs'' ∧ fs''.file = fs'.file) ∧
    ∀ p, p ≤ nodes b (k - 1 - c.rowsToDiscard) * Element.byteLen E →
      t.store.CompactCrash b c version fs (fs.set c.file (some
        (patch (encodeAll (allNodes b k f)) (if version = 1 then b ^ k * Element.byteLen E else 0)
          (region (encodeAll (allNodes b k f))
            (rowStart b k (c.rowsToDiscard + 1) * Element.byteLen E) p)))) := by
  have hlen : (encodeAll (allNodes b k f)).length = nodes b k * Element.byteLen E := by
    rw [length_encodeAll, allNodes_length]
  have hc := LevelCacheStore.rowStart_cache (b := b) hd
  have hbytes : rowStart b k (c.rowsToDiscard + 1) * Element.byteLen E
      + nodes b (k - 1 - c.rowsToDiscard) * Element.byteLen E = nodes b k * Element.byteLen E := by
    rw [← Nat.add_mul, hc]
  have hplan := DiskStore.compactPlan_ok hb hk hf hd (s := t.store) ht.len ht.size
  have hcopy : ∀ p, p ≤ nodes b (k - 1 - c.rowsToDiscard) * Element.byteLen E →
      CopyState (encodeAll (allNodes b k f)) (rowStart b k (c.rowsToDiscard + 1) * Element.byteLen E)
        (if version = 1 then b ^ k * Element.byteLen E else 0) p
        (patch (encodeAll (allNodes b k f)) (if version = 1 then b ^ k * Element.byteLen E else 0)
          (region (encodeAll (allNodes b k f))
            (rowStart b k (c.rowsToDiscard + 1) * Element.byteLen E) p)) := by
    intro p hp
    have := CopyState.block (dst := if version = 1 then b ^ k * Element.byteLen E else 0) p
      (CopyState.start (bs := encodeAll (allNodes b k f))
        (src := rowStart b k (c.rowsToDiscard + 1) * Element.byteLen E)) (by omega)
    simpa using this
  refine ⟨?_, fun p hp => .copying hplan ht.file (hcopy p hp)⟩
  obtain ⟨fs₁, g1, g2, g3⟩ := DiskStore.compact_ok hb hk hf hd ht.len ht.size ht.layout ht.file version
  have hcr := DiskStore.CompactCrash.truncated (version := version) hplan ht.file (by omega)
    (hcopy _ (Nat.le_refl _))
  refine ⟨_, fs₁, BaseTree.compact_of_store g1, _, hcr, ?_⟩
  funext g
  by_cases hg : g = c.file
  · subst hg
    rw [FS.set_self, compacted_bytes ht.layout hd version, g2]
  · rw [FS.set_other _ hg, g3.1 _ hg]

/-- Not covered by C34, and not detected: `DiskStore::new_from_disk` accepts the file of an interrupted
compaction to version 2.  Its root is right, but as soon as one element is copied, leaf 0 reads as a node
of the lowest cached row. -/
theorem C34_disk_store_refuted (hd : c.rowsToDiscard < k) (hv : version ≠ 1) {p : Nat}
    (hp : Element.byteLen E ≤ p) (hp' : p ≤ nodes b (k - 1 - c.rowsToDiscard) * Element.byteLen E) :
    ∃ fs', t.store.CompactCrash b c version fs fs' ∧ ∃ s : DiskStore E,
      DiskStore.newFromDisk t.length b c fs' = (.ok s, fs') ∧
      readAt fs' s (t.length - 1) = t.readAt fs (t.length - 1) ∧
      readAt fs' s 0 = t.readAt fs (rowStart b k (c.rowsToDiscard + 1)) := by
  have hlen : (encodeAll (allNodes b k f)).length = nodes b k * Element.byteLen E := by
    rw [length_encodeAll, allNodes_length]
  have hL := LawfulElement.byteLen_pos (E := E)
  have hc := LevelCacheStore.rowStart_cache (b := b) hd
  have hN := nodes_pos b (k - 1 - c.rowsToDiscard)
  have hlt : nodes b (k - 1 - c.rowsToDiscard) ≤ nodes b k - 1 := by
    have := two_nodes_lt hb.two_le (show k - 1 - c.rowsToDiscard < k by omega)
    omega
  have e1 : (nodes b k - 1) * Element.byteLen E + Element.byteLen E = nodes b k * Element.byteLen E := by
    rw [← Nat.succ_mul]; congr 1; omega
  have hmul := Nat.mul_le_mul_right (Element.byteLen E) hlt
  have hbytes : rowStart b k (c.rowsToDiscard + 1) * Element.byteLen E
      + nodes b (k - 1 - c.rowsToDiscard) * Element.byteLen E = nodes b k * Element.byteLen E := by
    rw [← Nat.add_mul, hc]
  have hreads : ∀ i, i < nodes b k → t.readAt fs i = .ok (f i) := fun i hi => by
    obtain ⟨g, hg, hr⟩ := ht.isTreeOf.exists_reads
    rw [hr.reads i hi, layout_unique hg ht.layout i hi]
  have hnode : ∀ i, i < nodes b k → region (encodeAll (allNodes b k f)) (i * Element.byteLen E)
      (Element.byteLen E) = Element.toBytes (f i) := fun i hi => by
    rw [region_encodeAll _ _ (by rw [allNodes_length]; exact hi)]
    simp [allNodes]
  have hst := (C34_states hb hk hf ht hd version).2 p hp'
  rw [if_neg hv] at hst
  have hrl : (region (encodeAll (allNodes b k f))
      (rowStart b k (c.rowsToDiscard + 1) * Element.byteLen E) p).length = p := by
    rw [region_length]; omega
  refine ⟨_, hst, _, (by
    rw [show t.length = nodes b k from ht.len]
    exact DiskStore.newFromDisk_run (FS.set_self _ _ _) (by rw [patch_length (by omega), hlen])), ?_, ?_⟩
  · rw [show t.length = nodes b k from ht.len, hreads _ (by omega)]
    refine DiskStore.readAt_eq (by show _ < nodes b k; omega) ⟨_, FS.set_self _ _ _, ?_, ?_⟩
    · rw [patch_length (by omega), hlen, Nat.sub_add_cancel (by omega)]
    · rw [region_patch_disjoint (by omega) (.inr (by omega)), hnode _ (by omega)]
  · rw [hreads _ (by omega)]
    refine DiskStore.readAt_eq (by show _ < nodes b k; omega) ⟨_, FS.set_self _ _ _, ?_, ?_⟩
    · rw [patch_length (by omega), hlen]; exact Nat.mul_le_mul_right _ (by omega)
    · have := region_patch_inside (bs := encodeAll (allNodes b k f)) (off := 0)
        (data := region (encodeAll (allNodes b k f))
          (rowStart b k (c.rowsToDiscard + 1) * Element.byteLen E) p) (by omega) (a := 0)
        (n := Element.byteLen E) (by omega)
      rw [Nat.zero_add] at this
      rw [Nat.zero_mul, this, region_region _ _ _ _ _ (by omega), Nat.add_zero, hnode _ (by omega)]

/-- Not covered by C34, and not detected: a crash before anything is copied in a compaction to version 1.
`new_from_disk` accepts the file, which still holds all nodes, and the last node reads as one of a lower
row if at least one row is discarded. -/
theorem C34_version_1_refuted (hd : c.rowsToDiscard < k) (h1 : 1 ≤ c.rowsToDiscard) :
    t.store.CompactCrash b c 1 fs fs ∧ ∃ s : LevelCacheStore E,
      LevelCacheStore.newFromDisk t.length b c fs = (.ok s, fs) ∧
      last fs s = t.readAt fs (b ^ k + nodes b (k - 1 - c.rowsToDiscard) - 1) ∧
      b ^ k + nodes b (k - 1 - c.rowsToDiscard) - 1 < t.length - 1 := by
  have hreads : ∀ i, i < nodes b k → t.readAt fs i = .ok (f i) := fun i hi => by
    obtain ⟨g, hg, hr⟩ := ht.isTreeOf.exists_reads
    rw [hr.reads i hi, layout_unique hg ht.layout i hi]
  have hle := pow_add_nodes_le (b := b) hd
  have hp := nodes_pos b (k - 1 - c.rowsToDiscard)
  have hlt : b ^ k + nodes b (k - 1 - c.rowsToDiscard) < nodes b k := by
    have := two_nodes_lt hb.two_le (show k - 1 - c.rowsToDiscard < k - 1 by omega)
    have : nodes b k = nodes b (k - 1) + b ^ k := by
      obtain ⟨n, rfl⟩ : ∃ n, k = n + 1 := ⟨k - 1, by omega⟩
      rfl
    omega
  rw [show t.length = nodes b k from ht.len]
  refine ⟨.untouched, _, LevelCacheStore.newFromDisk_run hb hk hf hd ht.file, ?_, by omega⟩
  rw [LevelCacheStore.last_loaded (by have := hb.two_le; omega) hd ht.file,
    if_pos (by rw [allNodes_bytes]; exact Nat.mul_le_mul_right _ hle),
    region_encodeAll _ _ (by rw [allNodes_length]; omega), fromSlice_toBytes, hreads _ (by omega)]
  simp [allNodes]

/-- C34 needs that the writes reach the disk in order.  `compact` syncs only at its end; if the
new length is on disk and the copied bytes are not, the file opens and the leaves read as cached rows. -/
theorem C34_unordered_writes_refuted (hd : c.rowsToDiscard < k) (r : ExternalReader)
    (h : fs'.file c.file = some ((encodeAll (allNodes b k f)).take
      (nodes b (k - 1 - c.rowsToDiscard) * Element.byteLen E))) :
    ∃ s : LevelCacheStore E, LevelCacheStore.newFromDiskWithReader t.length b c r fs' = (.ok s, fs') ∧
      ∀ i, i < nodes b (k - 1 - c.rowsToDiscard) →
        readAt fs' s (rowStart b k (c.rowsToDiscard + 1) + i) = t.readAt fs i := by
  have hreads : ∀ i, i < nodes b k → t.readAt fs i = .ok (f i) := fun i hi => by
    obtain ⟨g, hg, hr⟩ := ht.isTreeOf.exists_reads
    rw [hr.reads i hi, layout_unique hg ht.layout i hi]
  have hc := LevelCacheStore.rowStart_cache (b := b) hd
  have hrows : (allNodes b k f).take (nodes b (k - 1 - c.rowsToDiscard))
      = cachedRows b k c.rowsToDiscard (fun j => f (j - rowStart b k (c.rowsToDiscard + 1))) := by
    apply List.ext_getElem
    · rw [List.length_take, allNodes_length, cachedRows_length]; omega
    · intro i h1 h2
      rw [getElem_cachedRows, List.getElem_take]
      simp [allNodes]
  rw [← encodeAll_take, hrows] at h
  rw [show t.length = nodes b k from ht.len]
  refine ⟨_, LevelCacheStore.newFromDiskWithReader_run hb hk hf hd h (by
    rw [length_encodeAll, cachedRows_length]) r, fun i hi => ?_⟩
  have hl : LevelCacheStore.View b k c.rowsToDiscard
      (⟨nodes b k, c.file, b ^ k, rowStart b k (c.rowsToDiscard + 1) * Element.byteLen E, false,
        (encodeAll (cachedRows b k c.rowsToDiscard
          (fun j => f (j - rowStart b k (c.rowsToDiscard + 1))))).length, some r⟩ :
        LevelCacheStore E) := ⟨rfl, rfl, rfl⟩
  rw [hreads i (by omega)]
  refine (hl.readAt_cached_v2 hd rfl h (Nat.le_add_right _ _) (by omega)).trans ?_
  rw [Nat.add_sub_cancel_left]

end
end

/-! Concrete instances: the tree over the leaves `1, 2, 3, 4` (in the file: 72, 73, 74, 75, 91, 155, 250)
compacted with `rows_to_discard = 0`; the cached rows are 91, 155, 250. -/
section
attribute [local instance] idealRows

/-- Whether the file with these contents opens with a reader, and what index 6 then reads as. -/
def crashReport (bs : Bytes) : Bool × Option UInt8 :=
  let c := StoreConfig.new "d" "t" 0
  let fs := FS.empty.set c.file (some bs)
  let r := LevelCacheStore.newFromDiskWithReader (E := UInt8) 7 2 c (.ofFile (.named "r") 0) fs
  (r.1.isOk, match r.1 with
    | .ok s => (match StoreOps.readAt (E := UInt8) r.2 s 6 with | .ok e => some e | .error _ => none)
    | .error _ => none)

example : CopyState [72, 73, 74, 75, 91, 155, 250] 4 0 2 [91, 155, 74, 75, 91, 155, 250] :=
  .block 1 (.block 1 .start (by decide)) (by decide)
example : crashReport [72, 73, 74, 75, 91, 155, 250] = (false, none) := by decide +kernel
example : crashReport [91, 155, 74, 75, 91, 155, 250] = (false, none) := by decide +kernel
example : crashReport [91, 155, 250, 75, 91, 155, 250] = (false, none) := by decide +kernel
example : crashReport [91, 155, 250] = (true, some 250) := by decide +kernel

/-- The file after one round of the build loop of `LevelCacheStore` over the leaves 72, 73, 74, 75: the
loop is given fuel for one round only, so it stops with `diverge` behind it. -/
def midBuild : Res (LevelCacheStore UInt8 × Nat) × FS :=
  let c := StoreConfig.new "d" "t" 0
  LevelCacheStore.buildLoop toyAlg 2 Sched.sequential c 4 1 4 0 0
    ⟨4, c.file, 4, 4, false, 7, none⟩ (FS.empty.set c.file (some [72, 73, 74, 75, 0, 0, 0]))

/-- Beside C34: the same check does not detect an interrupted *build* of a `LevelCacheStore`.  The file is
cut to its final length when the lowest cached row is computed, before the rows above it are: after the
first of two rounds it opens with a reader, and the root reads as 0 instead of 250. -/
theorem C34_level_cache_build_refuted :
    midBuild.2.file (StoreConfig.new "d" "t" 0).file = some [91, 155, 0] ∧
    crashReport [91, 155, 0] = (true, some 0) := by decide +kernel

end
end Verif
