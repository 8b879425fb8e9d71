import Verif.Lemmas.CachedProof
import Verif.Lemmas.Replica
import Verif.Lemmas.Compound
import Verif.Props.Stores
/-! The trees on which `gen_cached_proof` works: disk trees and level-cache trees. -/
set_option linter.unusedSectionVars false
namespace Verif
open Spec StoreOps

section
variable {E : Type} [Element E] [LawfulElement E] {A : Alg E}

theorem Spec.IsLayout.range_leaves {H : List E → Nat → E} {b k : Nat} {leaves : List E} {f : Nat → E}
    (h : IsLayout H b k leaves f) {a n : Nat} (hn : a + n ≤ b ^ k) :
    ((List.range n).map fun j => f (a + j)) = (leaves.drop a).take n := by
  have hc := h.count
  apply List.ext_getElem
  · simp; omega
  · intro j h1 h2
    have hj : j < n := by simpa using h1
    simp only [List.getElem_map, List.getElem_range, List.getElem_take, List.getElem_drop]
    exact h.leaf _ (by omega)

/-- A full tree on a `DiskStore`. -/
theorem BaseTree.Reads.readsCached {b k : Nat} {leaves : List E} {f : Nat → E} {fs : FS}
    {t : BaseTree (DiskStore E) E} (h : t.Reads fs b k f) (hl : IsLayout A.nodeHash b k leaves f)
    (d : Nat) : t.ReadsCached fs b k d leaves f where
  leafs := h.leafs
  len := h.len
  rows := h.rows
  reads i _ hi := h.reads i hi
  root := h.root
  seg a n hn han buf hbuf := by
    have hpn := pow_le_nodes b k
    obtain ⟨r, h1, h2, h3, -⟩ := C50_disk_read_range_into (fs := fs) (t := t) (a := a) (c := a + n)
      (by omega) (f := f) (fun i _ hi => h.reads i (by omega)) (buf := buf)
      (by rw [Nat.add_sub_cancel_left]; exact hbuf)
    unfold BaseTree.readRangeInto at h1
    rw [ensure_true (by omega), Res.ok_bind] at h1
    rw [Nat.add_sub_cancel_left, hl.range_leaves han] at h3
    exact ⟨r, h1, by rw [h2, hbuf], h3⟩

namespace LevelCacheStore
variable {b k d : Nat} {s : LevelCacheStore E} {leaves : List E} {f : Nat → E} {fs : FS}

theorem View.checkRange_base (h : s.View b k d) {a n : Nat} (hn : 0 < n) (han : a + n ≤ b ^ k) :
    checkRange s (a * Element.byteLen E) ((a + n) * Element.byteLen E) = .ok () := by
  have hpn := pow_le_nodes b k
  exact checkRange_ok (by rw [h.len]; exact mul_byteLen_lt.2 (by omega))
    (by rw [h.len]; exact mul_byteLen_le.2 (by omega)) (h.inBounds_base (by omega))

/-- Reading a run of elements of a file of elements. -/
theorem readExactAt_elements {g : FileId} {es : List E} (h : fs.file g = some (encodeAll es))
    {a n : Nat} (hn : 0 < n) (han : a + n ≤ es.length) :
    fs.readExactAt g (a * Element.byteLen E) (n * Element.byteLen E)
      = .ok (encodeAll ((es.drop a).take n)) := by
  have hp := LawfulElement.byteLen_pos (E := E)
  refine (readExactAt_ok_iff (Nat.mul_pos hn hp)).2 ⟨_, h, ?_, ?_⟩
  · rw [length_encodeAll, ← Nat.add_mul]; exact Nat.mul_le_mul_right _ han
  · exact (encodeAll_run es a n).symm

theorem View.readRangeInto_v1 (h : s.View b k d) (hr : s.reader = none)
    (hn : leaves.length = b ^ k)
    (hf : fs.file s.file = some (encodeAll (leaves ++ cachedRows b k d f))) {a n : Nat} (h0 : 0 < n)
    (han : a + n ≤ b ^ k) {buf : Bytes} (hbuf : buf.length = n * Element.byteLen E) :
    readRangeInto fs s a (a + n) buf = .ok (encodeAll ((leaves.drop a).take n)) := by
  unfold readRangeInto
  dsimp only
  rw [h.checkRange_base h0 han, Res.ok_bind]
  unfold storeReadInto
  simp only [readContext_le (mul_byteLen_le.2 (show a ≤ a + n by omega))]
  rw [ensure_true (h.inBounds_base (by omega)), Res.ok_bind, hr]
  dsimp only
  have ha : s.adjustedStart (a * Element.byteLen E) = a * Element.byteLen E := by
    unfold adjustedStart
    rw [h.start, if_neg (by
      rw [ge_iff_le, mul_byteLen_le]; have := pow_le_rowStart b k d; omega)]
  rw [ha, hbuf, readExactAt_elements hf h0 (by rw [List.length_append]; omega),
    List.drop_append_of_le_length (by omega), List.take_append_of_le_length (by rw [List.length_drop]; omega)]

theorem View.readRangeInto_v2 (h : s.View b k d) {r : ExternalReader} (hr : s.reader = some r)
    (hn : leaves.length = b ^ k) (hs : r.Serves fs leaves) {a n : Nat} (h0 : 0 < n)
    (han : a + n ≤ b ^ k) {buf : Bytes} (hbuf : buf.length = n * Element.byteLen E) :
    readRangeInto fs s a (a + n) buf = .ok (encodeAll ((leaves.drop a).take n)) := by
  unfold readRangeInto
  dsimp only
  rw [h.checkRange_base h0 han, Res.ok_bind]
  unfold storeReadInto
  simp only [readContext_le (mul_byteLen_le.2 (show a ≤ a + n by omega))]
  rw [ensure_true (h.inBounds_base (by omega)), Res.ok_bind, hr]
  dsimp only
  rw [h.width, if_pos (mul_byteLen_lt.2 (by omega))]
  exact hs a n (by omega) buf hbuf

end LevelCacheStore

variable {b k d : Nat} {leaves : List E} {f : Nat → E} {fs : FS} {t : BaseTree (LevelCacheStore E) E}

theorem length_run_leaves (hc : leaves.length = b ^ k) {a n : Nat} (han : a + n ≤ b ^ k) :
    (encodeAll ((leaves.drop a).take n)).length = n * Element.byteLen E := by
  rw [length_encodeAll, List.length_take, List.length_drop, hc]
  congr 1; omega

/-- A tree over a version 1 file. -/
theorem BaseTree.readsCached_v1 (hl : IsLayout A.nodeHash b k leaves f) (hd : d < k)
    (hv : t.store.View b k d) (hr : t.store.reader = none) (hleafs : t.leafs = b ^ k)
    (hrows : t.rowCount = k + 1) (hroot : t.root = f (nodes b k - 1))
    (hf : fs.file t.store.file = some (encodeAll (leaves ++ cachedRows b k d f))) :
    t.ReadsCached fs b k d leaves f where
  leafs := hleafs
  len := hv.len
  rows := hrows
  root := hroot
  reads i hi hlt := by
    rcases hi with hi | hi
    · rw [hl.leaf i (by rw [hl.count]; exact hi)]
      exact hv.readAt_base_v1 hr hl.count hf _
    · exact hv.readAt_cached_v1 hd hr hl.count hf hi hlt
  seg a n h0 han buf hbuf :=
    ⟨_, hv.readRangeInto_v1 hr hl.count hf h0 han hbuf, length_run_leaves hl.count han,
      decodeAll_encodeAll _⟩

/-- A tree over the cached rows and a reader. -/
theorem BaseTree.readsCached_v2 (hl : IsLayout A.nodeHash b k leaves f) (hd : d < k)
    (hv : t.store.View b k d) {r : ExternalReader} (hr : t.store.reader = some r)
    (hs : r.Serves fs leaves) (hleafs : t.leafs = b ^ k)
    (hrows : t.rowCount = k + 1) (hroot : t.root = f (nodes b k - 1))
    (hf : fs.file t.store.file = some (encodeAll (cachedRows b k d f))) :
    t.ReadsCached fs b k d leaves f where
  leafs := hleafs
  len := hv.len
  rows := hrows
  root := hroot
  reads i hi hlt := by
    rcases hi with hi | hi
    · rw [hl.leaf i (by rw [hl.count]; exact hi)]
      exact hv.readAt_base_v2 hr hl.count hs _
    · exact hv.readAt_cached_v2 hd hr hf hi hlt
  seg a n h0 han buf hbuf :=
    ⟨_, hv.readRangeInto_v2 hr hl.count hs h0 han hbuf, length_run_leaves hl.count han,
      decodeAll_encodeAll _⟩

/-- Opening a level-cache store as a tree. -/
theorem fromDataStore_view [FloatRows] (hb : Arity b) (hk : 1 ≤ k) (hf : FloatRows.ExactAt b k)
    {s : LevelCacheStore E} (hv : s.View b k d) {r : E}
    (hlast : LevelCacheStore.readAt fs s (nodes b k - 1) = .ok r) :
    BaseTree.fromDataStore b 0 0 s (b ^ k) fs = .ok ⟨s, b ^ k, nodes b k, k + 1, r⟩ := by
  have hlen : StoreOps.len (E := E) s = nodes b k := hv.len
  have hp := nodes_pos b k
  unfold BaseTree.fromDataStore
  rw [ensure_true rfl, Res.ok_bind, ensure_true rfl, Res.ok_bind,
    ensure_true ((eq_nextPow2_iff _).2 (hb.pow_isPow2 k)).symm, Res.ok_bind,
    ensure_true ((eq_nextPow2_iff _).2 hb.pow2).symm, Res.ok_bind,
    merkleTreeLen_pow hb hk, Res.ok_bind, ensure_true hlen.symm, Res.ok_bind, sizeValid_pow hb,
    Res.ok_bind, ensure_true rfl, Res.ok_bind, rowCount_pow hf]
  have : StoreOps.last fs s = .ok r := by
    unfold StoreOps.last
    rw [hlen, subP_ok hp, Res.ok_bind]
    exact hlast
  rw [this]; rfl

end

theorem fromSubTrees_uniform {S E : Type} [Element E] [StoreOps S E] {A : Alg E} {b sub top : Nat}
    {fs : FS} (hb : Arity b) {cs : List (Tree1 S E)}
    {t : Node (Tree1 S E) E} {lss : List (List E)} (ht : fromSubTrees A top cs = .ok t)
    (hcs : List.Forall₂ (Tree1.IsCompound A b sub fs) cs lss) :
    ∃ n, t.Uniform Tree1.leafs top n := by
  classical
  obtain ⟨c0, h0, h1, h2, h3, hte⟩ := Node.assemble_ok_iff.1 ht
  have hc0 : c0 ∈ cs := List.mem_of_mem_head? (by rw [h0]; rfl)
  obtain ⟨ls, _, hc⟩ := Forall₂.exists_right hcs hc0
  obtain ⟨k, hk, hs, hr, hl, hlf, _⟩ := hc.child hb
  refine ⟨sub * b ^ k, .of_assemble ht (fun c hc => ?_)⟩
  obtain ⟨ls, _, hc'⟩ := Forall₂.exists_right hcs hc
  obtain ⟨k', hk', _, hr', _, hlf', hch⟩ := hc'.child hb
  have e := h2 _ hc
  have : k' = k := by
    rw [hr', hr] at e; omega
  rw [hlf', this]

namespace Node
variable {C C' E : Type}

theorem genCachedLayerProof_eq {leafsOf : C → Nat} {rootOf : C → E} {gen : C → Nat → M (Proof E)}
    {b pTop pSub : Nat} {t : Node C E} {arity n i : Nat} (h : t.Uniform leafsOf arity n)
    (hi : i < arity * n) (hp : ¬ (pTop = 0 ∧ pSub = 0)) {sp : Proof E} {fs : FS}
    (hg : gen (t.children[i / n]'(h.index hi)) (i % n) fs = (.ok sp, fs)) :
    t.genCachedLayerProof leafsOf rootOf gen b pTop pSub arity i fs
      = (.ok (.nested sp pTop pSub ((t.children.map rootOf).eraseIdx (i / n) ++ [t.root]) [i / n]), fs) := by
  have ha : arity ≠ 0 := by
    rintro rfl
    simp at hi
  unfold genCachedLayerProof
  rw [M.bind_ok (mEnsure_true ha _ _), M.bind_ok (mEnsure_true (by rw [h.leafs]; exact hi) _ _),
    M.bind_ok (a := _) (fs' := fs) (by rw [M.ofRes_run, h.locate hi])]
  dsimp only
  have := layerLemma_erase (rootOf := rootOf) (h.index hi)
  rw [h.count] at this
  rw [M.bind_ok hg, M.bind_ok (a := _) (fs' := fs) (by rw [M.ofRes_run, this]), M.ofRes_run,
    new_layer hp]

/-- A layer over trees with the same cached proofs as the trees of another layer. -/
theorem cached_layer_agrees {leafsOf : C → Nat} {rootOf : C → E} {gen : C → Nat → Res (Proof E)}
    {leafsOf' : C' → Nat} {rootOf' : C' → E} {gen' : C' → Nat → M (Proof E)}
    {b pTop pSub : Nat} {t : Node C E} {t' : Node C' E} {arity n i : Nat}
    (h : t.Uniform leafsOf arity n) (hroot : t'.root = t.root) (hleafs : t'.leafs = t.leafs)
    (hi : i < arity * n) (hp : ¬ (pTop = 0 ∧ pSub = 0)) {fs : FS}
    (hg : List.Forall₂ (fun c c' => leafsOf' c' = leafsOf c ∧ rootOf' c' = rootOf c ∧
      ∀ j, j < leafsOf c → ∃ p, gen c j = .ok p ∧ gen' c' j fs = (.ok p, fs)) t.children t'.children) :
    ∃ p, t.genSubTreeProof leafsOf rootOf gen b pTop pSub arity i = .ok p ∧
      t'.genCachedLayerProof leafsOf' rootOf' gen' b pTop pSub arity i fs = (.ok p, fs) := by
  have hlen := hg.length_eq
  have h' : t'.Uniform leafsOf' arity n := by
    refine ⟨by rw [← hlen, h.count], ?_, by rw [hleafs, h.leafs]⟩
    intro c hc
    obtain ⟨j, hj, rfl⟩ := List.getElem_of_mem hc
    have := (List.forall₂_iff_get.1 hg).2 j (by omega) hj
    simp only [List.get_eq_getElem] at this
    rw [this.1]
    exact h.each _ (List.getElem_mem _)
  have hroots : t'.children.map rootOf' = t.children.map rootOf := by
    apply List.ext_getElem (by simp [hlen])
    intro j h1 h2
    have := (List.forall₂_iff_get.1 hg).2 j (by simpa using h2) (by simpa using h1)
    simp only [List.get_eq_getElem] at this
    simp [this.2.1]
  have hn : 0 < n := by
    rcases Nat.eq_zero_or_pos n with h | h
    · simp [h] at hi
    · exact h
  have hx := h.index hi
  have := (List.forall₂_iff_get.1 hg).2 (i / n) hx (by omega)
  simp only [List.get_eq_getElem] at this
  obtain ⟨-, -, hgen⟩ := this
  obtain ⟨p, e1, e2⟩ := hgen (i % n) (by rw [h.each _ (List.getElem_mem _)]; exact Nat.mod_lt _ hn)
  exact ⟨_, genSubTreeProof_eq h hi hp e1, by rw [genCachedLayerProof_eq h' hi hp e2, hroots, hroot]⟩

end Node
end Verif
