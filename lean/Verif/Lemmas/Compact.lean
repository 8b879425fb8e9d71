import Verif.Spec.Compaction
import Verif.Lemmas.ProofGen
/-! Compaction of `DiskStore`. -/
set_option linter.unusedSectionVars false
namespace Verif
open Spec StoreOps

section
variable {E : Type} [Element E] [LawfulElement E]

theorem encodeAll_take (ns : List E) (n : Nat) :
    encodeAll (ns.take n) = (encodeAll ns).take (n * Element.byteLen E) := by
  induction ns generalizing n with
  | nil => simp [encodeAll]
  | cons e es ih =>
    cases n with
    | zero => simp [encodeAll]
    | succ n =>
      rw [List.take_succ_cons, encodeAll_cons, encodeAll_cons, ih, Nat.succ_mul,
        List.take_append, LawfulElement.length_toBytes,
        List.take_of_length_le (l := Element.toBytes e) (by rw [LawfulElement.length_toBytes]; omega),
        Nat.add_sub_cancel]

theorem encodeAll_drop (ns : List E) (n : Nat) :
    encodeAll (ns.drop n) = (encodeAll ns).drop (n * Element.byteLen E) := by
  have h := encodeAll_append (ns.take n) (ns.drop n)
  rw [List.take_append_drop, encodeAll_take] at h
  have h2 := List.take_append_drop (n * Element.byteLen E) (encodeAll ns)
  exact (List.append_cancel_left (h2.trans h)).symm

omit [Element E] [LawfulElement E] in
theorem allNodes_length (b k : Nat) (f : Nat → E) : (allNodes b k f).length = nodes b k := by
  simp [allNodes]

omit [Element E] [LawfulElement E] in
theorem cachedRows_length (b k d : Nat) (f : Nat → E) :
    (cachedRows b k d f).length = nodes b (k - 1 - d) := by
  simp [cachedRows]

omit [Element E] [LawfulElement E] in
theorem allNodes_take {A : Alg E} {b k : Nat} {leaves : List E} {f : Nat → E}
    (h : IsLayout A.nodeHash b k leaves f) : (allNodes b k f).take (b ^ k) = leaves := by
  apply List.ext_getElem
  · rw [List.length_take, allNodes_length, h.count]
    have := pow_le_nodes b k
    omega
  · intro i h1 h2
    rw [List.getElem_take]
    simp only [allNodes, List.getElem_map, List.getElem_range]
    exact h.leaf i h2

omit [Element E] [LawfulElement E] in
theorem allNodes_drop {b k d : Nat} (f : Nat → E) (hd : d < k) :
    (allNodes b k f).drop (rowStart b k (d + 1)) = cachedRows b k d f := by
  have := rowStart_le_nodes b k (d + 1) hd
  rw [show k - (d + 1) = k - 1 - d by omega] at this
  apply List.ext_getElem
  · rw [List.length_drop, allNodes_length, cachedRows_length]
    omega
  · intro i h1 h2
    simp [allNodes, cachedRows]

theorem copyWithin_ok {fs : FS} {f : FileId} {bs : Bytes} {m st : Nat} (h : fs.file f = some bs)
    (hm : m ≤ bs.length) (hst : st ≤ m) :
    ∃ fs1, DiskStore.copyWithin f m st fs = (.ok (bs.length - m), fs1) ∧
      SameOutside (fun g => g = f) fs fs1 ∧ fs1.file f = some (patch bs st (bs.drop m)) ∧
      ∃ fs2, FS.setLen f (st + (bs.length - m)) fs1 = (.ok (), fs2) ∧
        fs2.file f = some (bs.take st ++ bs.drop m) ∧ SameOutside (fun g => g = f) fs1 fs2 := by
  obtain ⟨fs1, w1, w2, w3⟩ := writeAllAt_ok (data := bs.drop m) (off := st) h (by simp; omega)
  refine ⟨fs1, ?_, w3, w2, ?_⟩
  · unfold DiskStore.copyWithin
    rw [M.bind_ok (a := bs) (fs' := fs) (by rw [M.get_run, FS.contents_ok h])]
    rw [if_neg (by omega), M.bind_ok w1]
    simp
  · refine ⟨_, by unfold FS.setLen; rw [FS.contents_ok w2], ?_, set_sameOutside _ _ _⟩
    rw [FS.set_self, patch_length (by simp; omega), patch_eq (by omega)]
    congr 1
    rw [show st + (bs.length - m) - bs.length = 0 by omega]
    simp only [List.replicate_zero, List.append_nil]
    rw [List.take_append_of_le_length (by simp; omega), List.take_of_length_le (by simp)]

end

section
variable {E : Type} [Element E] [LawfulElement E] [FloatRows]

theorem DiskStore.compactPlan_ok {b k : Nat} (hb : Arity b) (hk : 1 ≤ k) (hf : FloatRows.ExactAt b k)
    {c : StoreConfig} (hd : c.rowsToDiscard < k) {s : DiskStore E} (hl : s.len = nodes b k)
    (hs : s.storeSize = nodes b k * Element.byteLen E) :
    compactPlan s b c = .ok (b ^ k * Element.byteLen E,
      nodes b (k - 1 - c.rowsToDiscard) * Element.byteLen E,
      rowStart b k (c.rowsToDiscard + 1) * Element.byteLen E) := by
  have hp := LawfulElement.byteLen_pos (E := E)
  have hc := LevelCacheStore.rowStart_cache (b := b) hd
  have h0 := nodes_pos b (k - 1 - c.rowsToDiscard)
  have h1 : 0 < rowStart b k (c.rowsToDiscard + 1) := by
    rw [rowStart]
    have : 0 < b ^ (k - c.rowsToDiscard) := Nat.pow_pos (by have := hb.two_le; omega)
    omega
  unfold compactPlan
  rw [hl, (merkleTreeLeafs_ok_iff hb _ _).2 ⟨k, rfl, Or.inl rfl⟩, Res.ok_bind]
  dsimp only
  rw [merkleTreeCacheSize_pow hb hk hf hd, Res.ok_bind]
  rw [ensure_true ⟨Nat.mul_lt_mul_of_pos_right (by omega) hp, by
    have := Nat.mul_pos h0 hp; omega⟩, Res.ok_bind, hs, ← hc, Nat.add_mul, subP_ok (by omega),
    Res.ok_bind, Nat.add_sub_cancel]

theorem DiskStore.compactPlan_err {b k : Nat} (hb : Arity b) (hk : 1 ≤ k)
    (hf : FloatRows.ExactAt b k) {c : StoreConfig} (hd : k ≤ c.rowsToDiscard) {s : DiskStore E}
    (hl : s.len = nodes b k) : Res.IsErr (compactPlan s b c) := by
  obtain ⟨m, hm⟩ := merkleTreeCacheSize_err hb hk hf hd
  refine ⟨m, ?_⟩
  unfold compactPlan
  rw [hl, (merkleTreeLeafs_ok_iff hb _ _).2 ⟨k, rfl, Or.inl rfl⟩, Res.ok_bind]
  dsimp only
  rw [hm]; rfl

/-- The run of `compact` on a full tree. -/
theorem DiskStore.compact_ok {A : Alg E} {b k : Nat} (hb : Arity b) (hk : 1 ≤ k)
    (hf : FloatRows.ExactAt b k) {c : StoreConfig} (hd : c.rowsToDiscard < k) {s : DiskStore E}
    (hl : s.len = nodes b k) (hs : s.storeSize = nodes b k * Element.byteLen E)
    {leaves : List E} {f : Nat → E} (hy : IsLayout A.nodeHash b k leaves f) {fs : FS}
    (hfile : fs.file c.file = some (encodeAll (allNodes b k f))) (version : Nat) :
    ∃ fs', compact s b c version fs = (.ok true,
        ⟨compactedLen version b k c.rowsToDiscard, c.file, s.loadedFromDisk, s.storeSize⟩, fs') ∧
      fs'.file c.file = some (compacted version b k c.rowsToDiscard leaves f) ∧
      SameOutside (fun g => g = c.file) fs fs' := by
  have hp := LawfulElement.byteLen_pos (E := E)
  have hc := LevelCacheStore.rowStart_cache (b := b) hd
  have hlen : (encodeAll (allNodes b k f)).length = nodes b k * Element.byteLen E := by
    rw [length_encodeAll, allNodes_length]
  have hle : rowStart b k (c.rowsToDiscard + 1) * Element.byteLen E ≤
      (encodeAll (allNodes b k f)).length := by
    rw [hlen]; exact Nat.mul_le_mul_right _ (by omega)
  have hrow : b ^ k ≤ rowStart b k (c.rowsToDiscard + 1) := by
    have : ∀ l, b ^ k ≤ rowStart b k (l + 1) := by
      intro l
      induction l with
      | zero => simp [rowStart]
      | succ l ih => rw [rowStart]; omega
    exact this _
  have hst : (if version = 1 then b ^ k * Element.byteLen E else 0) ≤
      rowStart b k (c.rowsToDiscard + 1) * Element.byteLen E := by
    split
    · exact Nat.mul_le_mul_right _ hrow
    · omega
  have hw : (encodeAll (allNodes b k f)).length - rowStart b k (c.rowsToDiscard + 1) * Element.byteLen E
      = nodes b (k - 1 - c.rowsToDiscard) * Element.byteLen E := by
    rw [hlen, ← Nat.sub_mul]; congr 1; omega
  obtain ⟨fs1, c1, c2, c3, fs2, c4, c5, c6⟩ := copyWithin_ok hfile hle hst
  have hnew : fs2.file c.file = some (compacted version b k c.rowsToDiscard leaves f) := by
    rw [c5, ← encodeAll_drop, allNodes_drop f hd, compacted]
    split
    · rw [← encodeAll_take, allNodes_take hy, ← encodeAll_append]
    · simp
  have hcl : (compacted version b k c.rowsToDiscard leaves f).length =
      compactedLen version b k c.rowsToDiscard * Element.byteLen E := by
    unfold compacted compactedLen
    split
    · rw [length_encodeAll, List.length_append, hy.count, cachedRows_length]
    · rw [length_encodeAll, cachedRows_length]
  have hsz : (if version = 1 then b ^ k * Element.byteLen E + nodes b (k - 1 - c.rowsToDiscard) * Element.byteLen E
      else nodes b (k - 1 - c.rowsToDiscard) * Element.byteLen E)
      = compactedLen version b k c.rowsToDiscard * Element.byteLen E := by
    unfold compactedLen
    split
    · rw [Nat.add_mul]
    · rfl
  refine ⟨fs2, ?_, hnew, c2.trans c6⟩
  unfold compact
  rw [compactPlan_ok hb hk hf hd hl hs]
  dsimp only
  rw [hfile]
  dsimp only
  have hcf : compactFile E c.file (version == 1) (b ^ k * Element.byteLen E)
      (nodes b (k - 1 - c.rowsToDiscard) * Element.byteLen E)
      (rowStart b k (c.rowsToDiscard + 1) * Element.byteLen E) fs
      = (.ok (compactedLen version b k c.rowsToDiscard), fs2) := by
    unfold compactFile
    rw [M.bind_ok (a := ()) (fs' := fs) (by
      unfold FS.openFile; rw [M.get_run, FS.contents_ok hfile]; rfl)]
    simp only [beq_iff_eq]
    rw [M.bind_ok c1, M.bind_ok (mEnsure_true hw _ _)]
    rw [hsz, M.bind_ok (a := ()) (fs' := fs2) (by
      rw [← c4]
      congr 1
      rw [hw, ← hsz]
      split <;> omega)]
    rw [Nat.mul_div_cancel _ hp]
    rfl
  rw [hcf]
  dsimp only
  unfold FS.fileLen
  rw [FS.contents_ok hnew, Res.ok_bind]
  dsimp only
  rw [if_pos hcl.symm]

theorem BaseTree.compact_of_store {t : BaseTree (DiskStore E) E} {b version : Nat} {c : StoreConfig}
    {fs fs' : FS} {r : Res Bool} {s : DiskStore E}
    (h : DiskStore.compact t.store b c version fs = (r, s, fs')) :
    t.compact b c version fs = (r, ⟨s, t.leafs, t.len, t.rowCount, t.root⟩, fs') := by
  have h : Store.compact t.store b c version fs = (r, s, fs') := h
  unfold BaseTree.compact
  rw [h]

/-- A built tree is a file tree. -/
theorem BaseTree.IsMerkle.isFileTree {A : Alg E} {b k : Nat} {leaves : List E} {d : E} {c : StoreConfig}
    {fs fs' : FS} {t : BaseTree (DiskStore E) E}
    (h : t.IsMerkle A b k (fun i => leaves.getD i d) fs') (hn : leaves.length = b ^ k)
    (hf : Fresh (LawfulWrite.owns t.store) (NewFiles (some c) fs fs') fs fs') :
    t.IsFileTree A b k leaves (flat A.nodeHash b k fun i => leaves.getD i d) c fs' := by
  have hfile : t.store.file = c.file := hf.own t.store.file rfl
  obtain ⟨bs, h1, h2, h3⟩ := h.filled.inv
  refine ⟨h.leafs, h.filled.len_eq, h.rows, flat_isLayout _ _ _ hn, by rw [flat_root, h.root], hfile,
    h3, ?_⟩
  rw [← hfile, h1]
  congr 1
  apply bytes_of_slots _ _ _ (by rw [h2, h3])
  intro i hi
  obtain ⟨bs', g1, g2, g3⟩ := h.filled.vals i hi
  rw [h1] at g1
  cases g1
  exact g3

theorem BaseTree.IsFileTree.isTreeOf {A : Alg E} {b k : Nat} {leaves : List E} {f : Nat → E}
    {c : StoreConfig} {fs : FS} {t : BaseTree (DiskStore E) E}
    (h : t.IsFileTree A b k leaves f c fs) : t.IsTreeOf A b k leaves fs where
  leafs := h.leafs
  len := h.len
  rows := h.rows
  nodes := ⟨f, h.layout, fun i hi => by
    refine DiskStore.readAt_eq (by have : t.store.len = _ := h.len; omega) ⟨_, h.handle ▸ h.file, ?_, ?_⟩
    · rw [length_encodeAll, allNodes_length]; exact Nat.mul_le_mul_right _ hi
    · rw [region_encodeAll _ _ (by rw [allNodes_length]; exact hi)]
      simp [allNodes], h.root⟩

end
end Verif
