import Verif.Lemmas.Replica
import Verif.Spec.Toy
import Verif.Spec.Ideal
/-! Properties C27 and C47: compacted trees read through `LevelCacheStore`, external readers. -/
namespace Verif
open Spec StoreOps

section
variable {E : Type} [Element E] [LawfulElement E] [FloatRows] {A : Alg E}

/-- **C27**, version 2.  Compact a tree to version 2 and open the file as a `LevelCacheStore` with
any reader that delivers the original leaves.  The opened store returns the original tree's element
for every base index and every cached index, and `Err` for every discarded index and every index past
the end. -/
theorem C27_v2 {b k : Nat} (hb : Arity b) (hk : 1 ≤ k) (hf : FloatRows.ExactAt b k)
    {leaves : List E} {f : Nat → E} {c : StoreConfig} {fs : FS} {t : BaseTree (DiskStore E) E}
    (ht : t.IsFileTree A b k leaves f c fs) (hd : c.rowsToDiscard < k) {version : Nat}
    (hv : version ≠ 1) {t' : BaseTree (DiskStore E) E} {fs' : FS}
    (h : t.compact b c version fs = (.ok true, t', fs')) (r : ExternalReader)
    (hr : r.Serves fs' leaves) :
    ∃ s : LevelCacheStore E,
      LevelCacheStore.newFromDiskWithReader t.length b c r fs' = (.ok s, fs') ∧
      (∀ i, i < b ^ k ∨ rowStart b k (c.rowsToDiscard + 1) ≤ i → i < t.length →
        readAt fs' s i = t.readAt fs i) ∧
      (∀ i, b ^ k ≤ i → i < rowStart b k (c.rowsToDiscard + 1) → Res.IsErr (readAt (E := E) fs' s i)) ∧
      ∀ i, t.length ≤ i → Res.IsErr (readAt (E := E) fs' s i) := by
  obtain ⟨fs₁, g1, g2, g3⟩ := DiskStore.compact_ok hb hk hf hd ht.len ht.size ht.layout ht.file version
  have h0 := BaseTree.compact_of_store (t := t) g1
  rw [h] at h0
  simp only [Prod.mk.injEq, true_and] at h0
  obtain ⟨-, rfl⟩ := h0
  unfold compacted at g2
  rw [if_neg hv] at g2
  obtain ⟨g, hg, hreads⟩ := ht.isTreeOf.exists_reads
  have hgf : ∀ i, i < nodes b k → t.readAt fs i = .ok (f i) := fun i hi => by
    rw [hreads.reads i hi, layout_unique hg ht.layout i hi]
  have hl : LevelCacheStore.View b k c.rowsToDiscard
      (⟨nodes b k, c.file, b ^ k, rowStart b k (c.rowsToDiscard + 1) * Element.byteLen E, false,
        (encodeAll (cachedRows b k c.rowsToDiscard f)).length, some r⟩ : LevelCacheStore E) :=
    ⟨rfl, rfl, rfl⟩
  have hlen : t.length = nodes b k := ht.len
  refine ⟨_, by rw [hlen]; exact LevelCacheStore.newFromDiskWithReader_run hb hk hf hd g2 (by
    rw [length_encodeAll, cachedRows_length]) r, ?_, ?_, ?_⟩
  · intro i hi hit
    rw [hgf i (by omega)]
    rcases hi with hi | hi
    · rw [ht.layout.leaf i (by rw [ht.layout.count]; exact hi)]
      exact hl.readAt_base_v2 rfl ht.layout.count hr _
    · exact hl.readAt_cached_v2 hd rfl g2 hi (by omega)
  · intro i h1 h2
    rcases Nat.lt_or_ge (b ^ k) i with h3 | h3
    · exact hl.discarded_err h3 h2 _
    · obtain rfl : i = b ^ k := by omega
      refine hl.readAt_boundary_v2 hb.two_le hd ?_ rfl g2
      by_contra h0
      rw [show c.rowsToDiscard = 0 by omega] at h2
      simp [rowStart] at h2
  · intro i hi
    exact LevelCacheStore.readAt_err_len (by show nodes b k ≤ i; omega) _

/-- **C27** with the replica in a file: the leaves sit in another file, at any offset. -/
theorem C27_v2_replica {b k : Nat} (hb : Arity b) (hk : 1 ≤ k) (hf : FloatRows.ExactAt b k)
    {leaves : List E} {f : Nat → E} {c : StoreConfig} {fs : FS} {t : BaseTree (DiskStore E) E}
    (ht : t.IsFileTree A b k leaves f c fs) (hd : c.rowsToDiscard < k) {version : Nat}
    (hv : version ≠ 1) {t' : BaseTree (DiskStore E) E} {fs' : FS}
    (h : t.compact b c version fs = (.ok true, t', fs')) {path : String} {pre post : Bytes}
    (hne : FileId.named path ≠ c.file)
    (hrep : fs.file (.named path) = some (pre ++ encodeAll leaves ++ post)) :
    ∃ s : LevelCacheStore E,
      LevelCacheStore.newFromDiskWithReader t.length b c (.ofFile (.named path) pre.length) fs'
        = (.ok s, fs') ∧
      (∀ i, i < b ^ k ∨ rowStart b k (c.rowsToDiscard + 1) ≤ i → i < t.length →
        readAt fs' s i = t.readAt fs i) ∧
      (∀ i, b ^ k ≤ i → i < rowStart b k (c.rowsToDiscard + 1) → Res.IsErr (readAt (E := E) fs' s i)) ∧
      ∀ i, t.length ≤ i → Res.IsErr (readAt (E := E) fs' s i) := by
  refine C27_v2 hb hk hf ht hd hv h _ ?_
  obtain ⟨fs₁, g1, g2, g3⟩ := DiskStore.compact_ok hb hk hf hd ht.len ht.size ht.layout ht.file version
  have h0 := BaseTree.compact_of_store (t := t) g1
  rw [h] at h0
  simp only [Prod.mk.injEq, true_and] at h0
  obtain ⟨-, rfl⟩ := h0
  refine ExternalReader.ofFile_serves ((g3.1 _ hne).trans hrep) ?_
  unfold region
  rw [List.append_assoc, List.drop_left, ← length_encodeAll leaves, List.take_left]

/-- **C27**, version 1.  The opened store returns the original element for every base and cached
index, and `Err` for every discarded index except the first, and for every index past the end. -/
theorem C27_v1_partial {b k : Nat} (hb : Arity b) (hk : 1 ≤ k) (hf : FloatRows.ExactAt b k)
    {leaves : List E} {f : Nat → E} {c : StoreConfig} {fs : FS} {t : BaseTree (DiskStore E) E}
    (ht : t.IsFileTree A b k leaves f c fs) (hd : c.rowsToDiscard < k)
    {t' : BaseTree (DiskStore E) E} {fs' : FS} (h : t.compact b c 1 fs = (.ok true, t', fs')) :
    ∃ s : LevelCacheStore E, LevelCacheStore.newFromDisk t.length b c fs' = (.ok s, fs') ∧
      (∀ i, i < b ^ k ∨ rowStart b k (c.rowsToDiscard + 1) ≤ i → i < t.length →
        readAt fs' s i = t.readAt fs i) ∧
      (∀ i, b ^ k < i → i < rowStart b k (c.rowsToDiscard + 1) → Res.IsErr (readAt (E := E) fs' s i)) ∧
      ∀ i, t.length ≤ i → Res.IsErr (readAt (E := E) fs' s i) := by
  obtain ⟨fs₁, g1, g2, g3⟩ := DiskStore.compact_ok hb hk hf hd ht.len ht.size ht.layout ht.file 1
  have h0 := BaseTree.compact_of_store (t := t) g1
  rw [h] at h0
  simp only [Prod.mk.injEq, true_and] at h0
  obtain ⟨-, rfl⟩ := h0
  unfold compacted at g2
  rw [if_pos rfl] at g2
  obtain ⟨g, hg, hreads⟩ := ht.isTreeOf.exists_reads
  have hgf : ∀ i, i < nodes b k → t.readAt fs i = .ok (f i) := fun i hi => by
    rw [hreads.reads i hi, layout_unique hg ht.layout i hi]
  have hl : LevelCacheStore.View b k c.rowsToDiscard
      (⟨nodes b k, c.file, b ^ k, rowStart b k (c.rowsToDiscard + 1) * Element.byteLen E, true,
        (encodeAll (leaves ++ cachedRows b k c.rowsToDiscard f)).length, none⟩ : LevelCacheStore E) :=
    ⟨rfl, rfl, rfl⟩
  have hlen : t.length = nodes b k := ht.len
  refine ⟨_, by rw [hlen]; exact LevelCacheStore.newFromDisk_run hb hk hf hd g2, ?_, ?_, ?_⟩
  · intro i hi hit
    rw [hgf i (by omega)]
    rcases hi with hi | hi
    · rw [ht.layout.leaf i (by rw [ht.layout.count]; exact hi)]
      exact hl.readAt_base_v1 rfl ht.layout.count g2 _
    · exact hl.readAt_cached_v1 hd rfl ht.layout.count g2 hi (by omega)
  · intro i h1 h2
    exact hl.discarded_err h1 h2 _
  · intro i hi
    exact LevelCacheStore.readAt_err_len (by show nodes b k ≤ i; omega) _

/-- **C27** fails at the boundary index of every version 1 file with a discarded row: the store
answers the first discarded index with the first cached element instead of `Err`. -/
theorem C27_v1_boundary_refuted {b k : Nat} (hb : Arity b) (hk : 1 ≤ k) (hf : FloatRows.ExactAt b k)
    {leaves : List E} {f : Nat → E} {c : StoreConfig} {fs : FS} {t : BaseTree (DiskStore E) E}
    (ht : t.IsFileTree A b k leaves f c fs) (hd : c.rowsToDiscard < k) (h1 : 1 ≤ c.rowsToDiscard)
    {t' : BaseTree (DiskStore E) E} {fs' : FS} (h : t.compact b c 1 fs = (.ok true, t', fs')) :
    b ^ k < rowStart b k (c.rowsToDiscard + 1) ∧
    ∃ s : LevelCacheStore E, LevelCacheStore.newFromDisk t.length b c fs' = (.ok s, fs') ∧
      readAt fs' s (b ^ k) = t.readAt fs (rowStart b k (c.rowsToDiscard + 1)) ∧
      ¬ Res.IsErr (readAt (E := E) fs' s (b ^ k)) := by
  obtain ⟨fs₁, g1, g2, g3⟩ := DiskStore.compact_ok hb hk hf hd ht.len ht.size ht.layout ht.file 1
  have h0 := BaseTree.compact_of_store (t := t) g1
  rw [h] at h0
  simp only [Prod.mk.injEq, true_and] at h0
  obtain ⟨-, rfl⟩ := h0
  unfold compacted at g2
  rw [if_pos rfl] at g2
  obtain ⟨g, hg, hreads⟩ := ht.isTreeOf.exists_reads
  have hgf : ∀ i, i < nodes b k → t.readAt fs i = .ok (f i) := fun i hi => by
    rw [hreads.reads i hi, layout_unique hg ht.layout i hi]
  have hl : LevelCacheStore.View b k c.rowsToDiscard
      (⟨nodes b k, c.file, b ^ k, rowStart b k (c.rowsToDiscard + 1) * Element.byteLen E, true,
        (encodeAll (leaves ++ cachedRows b k c.rowsToDiscard f)).length, none⟩ : LevelCacheStore E) :=
    ⟨rfl, rfl, rfl⟩
  have hlen : t.length = nodes b k := ht.len
  have hread := hl.readAt_boundary_v1 hd h1 rfl ht.layout.count hb.two_le g2
  have hle := rowStart_le_nodes b k (c.rowsToDiscard + 1) hd
  have hpos := nodes_pos b (k - (c.rowsToDiscard + 1))
  have hlt : b ^ k < rowStart b k (c.rowsToDiscard + 1) := by
    have h1' := pow_le_rowStart b k (c.rowsToDiscard - 1)
    rw [show c.rowsToDiscard - 1 + 1 = c.rowsToDiscard by omega] at h1'
    have : 0 < b ^ (k - c.rowsToDiscard) := Nat.pow_pos (by have := hb.two_le; omega)
    rw [rowStart]; omega
  refine ⟨hlt, _, by rw [hlen]; exact LevelCacheStore.newFromDisk_run hb hk hf hd g2, ?_, ?_⟩
  · rw [hgf _ (by omega)]; exact hread
  · rintro ⟨m, hm⟩
    have : (Except.ok (f (rowStart b k (c.rowsToDiscard + 1))) : Res E) = .error (.err m) :=
      hread.symm.trans hm
    simp at this

omit [FloatRows] in
/-- **C47.** With a reader of a file at offset `o`, base leaf `i` comes from bytes
`[o + i * len, o + (i + 1) * len)` of that file and from nothing else; if the file is too short the
read returns `Err`. -/
theorem C47_base_leaf {s : LevelCacheStore E} {g : FileId} {o : Nat}
    (hr : s.reader = some (.ofFile g o)) {fs : FS} {bs : Bytes} (hg : fs.file g = some bs) {i : Nat}
    (hi : i < s.dataWidth) (hl : i < s.len) : ReplicaRead bs o i (readAt (E := E) fs s i) :=
  LevelCacheStore.readAt_ofFile hr hg hi hl

/-- **C47** for a compound tree: leaf `i` of a tree opened with `from_store_configs_and_replica` comes
from the replica at the offset of the tree holding the leaf, whatever the configured files hold. -/
theorem C47_compound {b k sub : Nat} (hb : Arity b) (hk : 1 ≤ k) {configs : List StoreConfig}
    {rc : ReplicaConfig} {t : Node (BaseTree (LevelCacheStore E) E) E} {fs fs' : FS}
    (h : fromStoreConfigsAndReplica A b sub (b ^ k) configs rc fs = (.ok t, fs')) {bs : Bytes}
    (hg : fs.file (.named rc.path) = some bs) {i : Nat} (hi : i < sub * b ^ k) :
    ∃ o, rc.offsets[i / b ^ k]? = some o ∧
      ReplicaRead bs o (i % b ^ k) ((Tree1.sub t).readAt sub fs' i) := by
  obtain ⟨rfl, _⟩ := fromStoreConfigsAndReplica_children hb hk h
  exact readAt_overReplicas hb hk h hg hi

/-- **C47** with a top layer (`from_sub_tree_store_configs_and_replica`). -/
theorem C47_compound_top {b k sub top : Nat} (hb : Arity b) (hk : 1 ≤ k) {configs : List StoreConfig}
    {rc : ReplicaConfig} {t : Node (Tree1 (LevelCacheStore E) E) E} {fs fs' : FS}
    (h : fromSubTreeStoreConfigsAndReplica A b sub top (b ^ k) configs rc fs = (.ok t, fs'))
    {bs : Bytes} (hg : fs.file (.named rc.path) = some bs) {i : Nat} (hi : i < top * (sub * b ^ k)) :
    ∃ o, rc.offsets[i / b ^ k]? = some o ∧
      ReplicaRead bs o (i % b ^ k) ((Tree2.top t).readAt sub top fs' i) := by
  obtain ⟨rfl, h⟩ := readAt_overReplicas_top hb hk h hg hi
  exact h

end

/-! Concrete instances: the tree `72, 73, 74, 75 | 91, 155 | 250` with one discarded row, its leaves
also in a replica file at offset 2. -/
section
attribute [local instance] idealRows

def toyReplicaFs (d : Nat) : FS :=
  (FS.empty.set (StoreConfig.new "d" "t" d).file (some [72, 73, 74, 75, 91, 155, 250])).set
    (.named "r") (some [0, 0, 72, 73, 74, 75, 9])
def toyFull (d : Nat) : BaseTree (DiskStore UInt8) UInt8 :=
  ⟨⟨7, (StoreConfig.new "d" "t" d).file, false, 7⟩, 4, 7, 3, 250⟩

/-- Compact, open with the reader, read every index. -/
def toyReadsV2 (d : Nat) : List (Option UInt8) :=
  let fs := ((toyFull d).compact 2 (StoreConfig.new "d" "t" d) 2 (toyReplicaFs d)).2.2
  match LevelCacheStore.newFromDiskWithReader (E := UInt8) 7 2 (StoreConfig.new "d" "t" d)
    (.ofFile (.named "r") 2) fs with
  | (.ok s, fs) => (List.range 8).map fun i => (readAt fs s i).toOption
  | _ => []

/-- Compact to version 1, open, read every index. -/
def toyReadsV1 (d : Nat) : List (Option UInt8) :=
  let fs := ((toyFull d).compact 2 (StoreConfig.new "d" "t" d) 1 (toyReplicaFs d)).2.2
  match LevelCacheStore.newFromDisk (E := UInt8) 7 2 (StoreConfig.new "d" "t" d) fs with
  | (.ok s, fs) => (List.range 8).map fun i => (readAt fs s i).toOption
  | _ => []

example : toyReadsV2 1 = [some 72, some 73, some 74, some 75, none, none, some 250, none] := by
  decide +kernel
example : toyReadsV2 0 = [some 72, some 73, some 74, some 75, some 91, some 155, some 250, none] := by
  decide +kernel
example : toyReadsV1 0 = [some 72, some 73, some 74, some 75, some 91, some 155, some 250, none] := by
  decide +kernel
/-- Index 4 is answered with the root. -/
example : toyReadsV1 1 = [some 72, some 73, some 74, some 75, some 250, none, some 250, none] := by
  decide +kernel

/-- Two cached trees of two leaves over one replica, at offsets 1 and 4. -/
def toyOverReplica : List (Option UInt8) :=
  let fs := ((FS.empty.set (StoreConfig.new "d" "a" 0).file (some [11])).set
    (StoreConfig.new "d" "b" 0).file (some [12])).set (.named "r") (some [0, 1, 2, 3, 4, 5, 6])
  match fromStoreConfigsAndReplica toyAlg 2 2 2 [StoreConfig.new "d" "a" 0, StoreConfig.new "d" "b" 0]
    ⟨"r", [1, 4]⟩ fs with
  | (.ok t, fs) => (List.range 4).map fun i => ((Tree1.sub t).readAt 2 fs i).toOption
  | _ => []

example : toyOverReplica = [some 1, some 2, some 4, some 5] := by decide +kernel

end
end Verif
