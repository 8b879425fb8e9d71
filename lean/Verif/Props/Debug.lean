import Verif.Model.Debug
import Verif.Props.WriteCompacted
import Verif.Props.FromStore
import Verif.Lemmas.Sources
import Verif.Lemmas.LevelWrites
/-! Property C88: what the `Debug` instances say agrees with what the methods say. -/
namespace Verif
open Spec StoreOps

/-- What `Debug` has to show for a tree: the answers of `leafs()`, `len()`, `row_count()` and `root()`. -/
def DebugStruct.ShowsTree {E : Type} (d : DebugStruct E) (leafs len rowCount : Nat) (root : E) : Prop :=
  d.name = "MerkleTree" ∧ d.get "leafs" = some (.nat leafs) ∧ d.get "len" = some (.nat len) ∧
    d.get "row_count" = some (.nat rowCount) ∧ d.get "root" = some (.elem root)

section
variable {S E : Type} [Element E] [StoreOps S E]

/-- What is shown for a base tree is right in all fields but `len`, which is the stored number. -/
theorem BaseTree.debug_get (t : BaseTree S E) :
    t.debug.name = "MerkleTree" ∧ t.debug.get "leafs" = some (.nat t.leafs) ∧
    t.debug.get "len" = some (.nat t.len) ∧ t.debug.get "row_count" = some (.nat t.rowCount) ∧
    t.debug.get "root" = some (.elem t.root) := ⟨rfl, rfl, rfl, rfl, rfl⟩

/-- The length shown for a base tree is right exactly if the stored number is the length of the store. -/
theorem BaseTree.debug_iff (t : BaseTree S E) :
    t.debug.ShowsTree t.leafs t.length t.rowCount t.root ↔ t.len = t.length := by
  obtain ⟨h1, h2, h3, h4, h5⟩ := t.debug_get
  unfold DebugStruct.ShowsTree
  rw [h3]
  simp [h1, h2, h4, h5]

/-- **C88**, compound trees, whatever they are made of. -/
theorem C88_compound :
    (∀ t : Node (BaseTree S E) E, (Tree1.sub t).debug.ShowsTree (Tree1.sub t).leafs (Tree1.sub t).length
      (Tree1.sub t).rowCount (Tree1.sub t).root) ∧
    (∀ t : Node (BaseTree S E) E, (Tree2.sub t).debug.ShowsTree (Tree2.sub t).leafs (Tree2.sub t).length
      (Tree2.sub t).rowCount (Tree2.sub t).root) ∧
    (∀ t : Node (Tree1 S E) E, (Tree2.top t).debug.ShowsTree (Tree2.top t).leafs (Tree2.top t).length
      (Tree2.top t).rowCount (Tree2.top t).root) :=
  ⟨fun _ => ⟨rfl, rfl, rfl, rfl, rfl⟩, fun _ => ⟨rfl, rfl, rfl, rfl, rfl⟩,
    fun _ => ⟨rfl, rfl, rfl, rfl, rfl⟩⟩

end

section
variable {S E : Type} [Element E] [LawfulElement E] [FloatRows]

/-- **C88**, base trees built from any source. -/
theorem C88_built [Store S E] [RejectingStore S E] [NoArityOne S E] {A : Alg E} (hA : A.LawfulReset) {b : Nat} {σ : Sched}
    (hσ : σ.Valid) {src : Source A} (hs : src.Valid) (hf : FloatRows.FloorAt b src.leaves.length)
    {cfg : Option StoreConfig} {fs fs' : FS} {t : BaseTree S E}
    (hc : ∀ c ∈ cfg, fs.file c.file = none) (h : src.build b σ cfg fs = (.ok t, fs')) :
    t.debug.ShowsTree t.leafs t.length t.rowCount t.root ∧
      ∃ k, src.leaves.length = b ^ k ∧ t.debug.ShowsTree src.leaves.length (nodes b k) (k + 1) t.root := by
  obtain ⟨hb, hb', k, d, hk, he, hn, hm, -⟩ := Source.build_sound hA hσ hs hf hc h
  have hl : t.length = nodes b k := hm.filled.len_eq
  refine ⟨t.debug_iff.2 (hm.len.trans hl.symm), k, hn, ?_⟩
  rw [hn, ← hm.leafs, ← hl, ← hm.rows]
  exact t.debug_iff.2 (hm.len.trans hl.symm)

/-- **C88**, base trees built on a `LevelCacheStore`; the store is shown as long as the whole tree, although
its file holds only the upper rows. -/
theorem C88_built_cached {A : Alg E} (hA : A.LawfulReset) {b k : Nat} (hb : Arity b) (hb' : b ≤ buildChunkNodes)
    (hf : FloatRows.ExactAt b k) {σ : Sched} (hσ : σ.Valid) (src : Source A) (hs : src.Valid)
    (hn : src.leaves.length = b ^ k) {fs : FS} {c : StoreConfig} (hd : c.rowsToDiscard < k)
    (hc : fs.file c.file = none) :
    ∃ (t : BaseTree (LevelCacheStore E) E) (fs' : FS), src.build b σ (some c) fs = (.ok t, fs') ∧
      t.debug.ShowsTree t.leafs t.length t.rowCount t.root ∧
      t.debug.ShowsTree (b ^ k) (nodes b k) (k + 1) t.root ∧
      t.store.debug.get "len" = some (.nat (nodes b k)) ∧
      t.store.debug.get "data_width" = some (.nat (b ^ k)) := by
  obtain ⟨t, fs', d, h1, h2, -⟩ := Source.build_cached hA hb hb' hf hσ src hs hn hd hc
  have hl : t.length = nodes b k := by rw [BaseTree.length, h2.store]; rfl
  have hw : t.debug.ShowsTree t.leafs t.length t.rowCount t.root := t.debug_iff.2 (h2.len.trans hl.symm)
  refine ⟨t, fs', h1, hw, ?_, ?_, ?_⟩
  · rw [← h2.leafs, ← hl, ← h2.rows]; exact hw
  · rw [h2.store]; rfl
  · rw [h2.store]; rfl

omit [LawfulElement E] in
/-- **C88**, base trees made from a store. -/
theorem C88_from_data_store [Store S E] {b : Nat} (hb : b ≠ 1) {sub top leafs : Nat} {s : S} {fs : FS}
    {t : BaseTree S E} (h : BaseTree.fromDataStore b sub top s leafs fs = .ok t) :
    t.debug.ShowsTree t.leafs t.length t.rowCount t.root := by
  obtain ⟨-, h1, h2, h3, h4, h5⟩ := (C67_ok_iff hb).1 h
  refine t.debug_iff.2 ?_
  rw [h3, BaseTree.length, h1]

/-- **C88**, not after compaction: the length shown is then the one before compaction, while `len()`
gives the number of elements left.  They differ whenever something was discarded. -/
theorem C88_compacted_refuted {A : Alg E} {b k : Nat} (hb : Arity b) (hk : 1 ≤ k) (hf : FloatRows.ExactAt b k)
    {leaves : List E} {f : Nat → E} {c : StoreConfig} {fs : FS} {t : BaseTree (DiskStore E) E}
    (ht : t.IsFileTree A b k leaves f c fs) (hl : t.len = t.length) {version : Nat}
    {t' : BaseTree (DiskStore E) E} {fs' : FS} (h : t.compact b c version fs = (.ok true, t', fs')) :
    t'.debug = t.debug ∧ t'.debug.get "len" = some (.nat (nodes b k)) ∧
      t'.length = compactedLen version b k c.rowsToDiscard ∧
      (t'.debug.ShowsTree t'.leafs t'.length t'.rowCount t'.root ↔ version = 1 ∧ c.rowsToDiscard = 0) := by
  obtain ⟨hd, -, -, h4, -⟩ := compact_store hb hk hf ht h
  have hlen : t'.length = compactedLen version b k c.rowsToDiscard := h4
  obtain ⟨fs₂, g1, -, -⟩ := DiskStore.compact_ok hb hk hf hd ht.len ht.size ht.layout ht.file version
  have h0 := BaseTree.compact_of_store (t := t) g1
  rw [h] at h0
  simp only [Prod.mk.injEq, true_and] at h0
  obtain ⟨ht', -⟩ := h0
  have e : t'.debug = t.debug := by rw [ht']; rfl
  have e1 : t'.len = nodes b k := by rw [ht']; exact hl.trans ht.len
  refine ⟨e, by rw [t'.debug_get.2.2.1, e1], hlen, ?_⟩
  rw [t'.debug_iff, e1, hlen]
  have hk' : nodes b k = nodes b (k - 1) + b ^ k := by
    obtain ⟨n, rfl⟩ : ∃ n, k = n + 1 := ⟨k - 1, by omega⟩
    rfl
  have hpos : 0 < b ^ k := Nat.pow_pos (by have := hb.two_le; omega)
  unfold compactedLen
  by_cases hv : version = 1
  · rw [if_pos hv]
    by_cases h0 : c.rowsToDiscard = 0
    · simp [hv, h0, hk']; omega
    · simp only [hv, h0, and_false, iff_false]
      have h1 : nodes b (k - 1) = nodes b (k - 1 - 1) + b ^ (k - 1) := by
        obtain ⟨n, rfl⟩ : ∃ n, k = n + 2 := ⟨k - 2, by omega⟩
        rfl
      have h2 : nodes b (k - 1 - c.rowsToDiscard) ≤ nodes b (k - 1 - 1) := nodes_mono b (by omega)
      have h3 : 0 < b ^ (k - 1) := Nat.pow_pos (by have := hb.two_le; omega)
      omega
  · rw [if_neg hv]
    simp only [hv, false_and, iff_false]
    have h2 : nodes b (k - 1 - c.rowsToDiscard) ≤ nodes b (k - 1) := nodes_mono b (by omega)
    omega

end

/-! ### Level cache stores and readers -/
section
variable {E : Type} [Element E]

/-- **C88** for a `LevelCacheStore`: all fields but `elem_len` show what they name. -/
theorem C88_level_cache_partial (s : LevelCacheStore E) :
    s.debug.name = "LevelCacheStore" ∧ s.debug.get "len" = some (.nat (len (E := E) s)) ∧
    s.debug.get "data_width" = some (.nat s.dataWidth) ∧
    s.debug.get "loaded_from_disk" = some (.bool s.loadedFromDisk) ∧
    s.debug.get "cache_index_start" = some (.nat s.cacheIndexStart) ∧
    s.debug.get "store_size" = some (.nat s.storeSize) := ⟨rfl, rfl, rfl, rfl, rfl, rfl⟩

/-- **C88**, not `elem_len` of a `LevelCacheStore`: it shows the number of elements, so it is the length of
an element only if the two happen to agree. -/
theorem C88_elem_len_refuted (s : LevelCacheStore E) :
    s.debug.get "elem_len" = s.debug.get "len" ∧
      (s.debug.get "elem_len" = some (.nat (Element.byteLen E)) ↔ len (E := E) s = Element.byteLen E) := by
  refine ⟨rfl, ?_⟩
  show some (DebugValue.nat s.len) = _ ↔ s.len = _
  simp

/-- **C88** for an `ExternalReader`: the offset and the source play no part, so all readers look alike. -/
theorem C88_reader (r r' : ExternalReader) : r.debug E = r'.debug E := rfl

end

/-! Concrete instances. -/
section
attribute [local instance] idealRows

example : (toyTree 1).debug.ShowsTree 4 7 3 250 := ⟨rfl, rfl, rfl, rfl, rfl⟩
example : (toyCompacted 1 2).2.1.debug.get "len" = some (.nat 7) ∧ (toyCompacted 1 2).2.1.length = 1 := by
  decide +kernel
example : (⟨3, .named "f", 2, 2, false, 3, none⟩ : LevelCacheStore UInt8).debug.get "elem_len" = some (.nat 3) := by
  decide +kernel

end
end Verif
