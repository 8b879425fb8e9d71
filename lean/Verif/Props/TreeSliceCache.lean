import Verif.Lemmas.TreeSlice
import Verif.Lemmas.LevelView
import Verif.Spec.Toy
import Verif.Spec.Ideal
/-! Property C40 on `LevelCacheStore`. -/
set_option linter.unusedSectionVars false
namespace Verif
open Spec StoreOps
section
variable {E : Type} [Element E] [LawfulElement E] [FloatRows]

omit [FloatRows] in
theorem patch_replicate_all {bs : Bytes} {n : Nat} (h : bs.length = n) :
    patch (List.replicate n 0) 0 bs = bs := by
  unfold patch
  simp [h]

/-- **C40 fails on `LevelCacheStore` with a configuration.**  `from_tree_slice_with_config` succeeds on
the nodes of any tree, but the root of the tree it returns is the node at index
`b^k + (number of cached nodes) - 1`: the last node when no row is discarded, and another node, not the
root, when some are. -/
theorem C40_level_cache_with_config_refuted {b k : Nat} (hb : Arity b) (hk : 1 ≤ k)
    (hf : FloatRows.ExactAt b k) {ns : List E} (hn : ns.length = nodes b k) {c : StoreConfig}
    (hd : c.rowsToDiscard < k) {fs : FS} (hc : fs.file c.file = none) :
    ∃ (t : BaseTree (LevelCacheStore E) E) (fs' : FS),
      BaseTree.fromTreeSliceWithConfig b 0 0 (encodeAll ns) (b ^ k) c fs = (.ok t, fs') ∧
      ns[b ^ k + nodes b (k - 1 - c.rowsToDiscard) - 1]? = some t.root ∧
      (1 ≤ c.rowsToDiscard → b ^ k + nodes b (k - 1 - c.rowsToDiscard) < nodes b k) := by
  have hp := nodes_pos b k
  have hp2 := nodes_pos b (k - 1 - c.rowsToDiscard)
  have he := LawfulElement.byteLen_pos (E := E)
  have hrs := LevelCacheStore.rowStart_cache (b := b) hd
  have hpr := pow_le_rowStart b k c.rowsToDiscard
  have h0 : BaseTree.treeSliceLen E b 0 0 (encodeAll ns) (b ^ k) = .ok (nodes b k) :=
    (treeSliceLen_ok_iff (by have := hb.two_le; omega)).2
      ⟨hb, rfl, rfl, k, hk, rfl, rfl, by rw [div_encodeAll, hn]⟩
  obtain ⟨fs1, h1, h2, _⟩ := LevelCacheStore.newWithConfig_run (E := E) hb hk hf hd hc
  have hlen : (encodeAll ns).length = Element.byteLen E * nodes b k := by
    rw [length_encodeAll, hn, Nat.mul_comm]
  obtain ⟨fs2, g1, g2, _⟩ := writeAllAt_ok (data := encodeAll ns) (off := 0) h2 (by
    rw [List.length_replicate, hlen]; omega)
  rw [patch_replicate_all hlen] at g2
  have hnew : LevelCacheStore.newFromSliceWithConfig (E := E) (nodes b k) b (encodeAll ns) c fs
      = (.ok (LevelCacheStore.built E b k c (nodes b k)), fs2) := by
    unfold LevelCacheStore.newFromSliceWithConfig
    rw [M.bind_ok (a := 0) (fs' := fs) (by
        rw [M.ofRes_run, modP_ok he, hlen, Nat.mul_mod_right]),
      M.bind_ok (mEnsure_true (by rfl) _ _), M.bind_ok h1]
    show (LevelCacheStore.storeCopyFromSlice (LevelCacheStore.built E b k c 0) 0 (encodeAll ns) >>=
      fun _ => pure { LevelCacheStore.built E b k c 0 with
        len := (encodeAll ns).length / Element.byteLen E }) fs1 = _
    rw [M.bind_ok (a := ()) (fs' := fs2) (by
      unfold LevelCacheStore.storeCopyFromSlice
      rw [M.bind_ok (mEnsure_true (by
        rw [hlen, Nat.zero_add]; exact Nat.le_refl _) _ _)]
      exact g1), div_encodeAll, hn]
    rfl
  have hv : LevelCacheStore.View b k c.rowsToDiscard (LevelCacheStore.built E b k c (nodes b k)) :=
    ⟨rfl, rfl, rfl⟩
  have hj : b ^ k + nodes b (k - 1 - c.rowsToDiscard) - 1 < ns.length := by omega
  have hlast : StoreOps.last fs2 (LevelCacheStore.built E b k c (nodes b k))
      = .ok ns[b ^ k + nodes b (k - 1 - c.rowsToDiscard) - 1] := by
    unfold StoreOps.last
    show (subP (nodes b k) 1 >>= fun i => LevelCacheStore.readAt fs2 _ i) = _
    rw [subP_ok (by omega), Res.ok_bind]
    have hin := hv.inBounds_cached (i := nodes b k - 1) (by omega)
    refine LevelCacheStore.readAt_run (by show _ < nodes b k; omega) hin fs2
      (bs := Element.toBytes ns[b ^ k + nodes b (k - 1 - c.rowsToDiscard) - 1]) ?_ rfl
    rw [LevelCacheStore.storeReadRange_none rfl hin]
    have ha : (LevelCacheStore.built E b k c (nodes b k)).adjustedStart
        ((nodes b k - 1) * Element.byteLen E)
        = (b ^ k + nodes b (k - 1 - c.rowsToDiscard) - 1) * Element.byteLen E := by
      unfold LevelCacheStore.adjustedStart
      rw [hv.start, hv.width, if_pos (by
        rw [ge_iff_le]; exact Nat.mul_le_mul_right _ (by omega))]
      show (nodes b k - 1) * Element.byteLen E - rowStart b k (c.rowsToDiscard + 1) * Element.byteLen E
        + b ^ k * Element.byteLen E = _
      rw [← Nat.sub_mul, ← Nat.add_mul]
      congr 1
      omega
    rw [ha]
    exact readExactAt_element g2 hj
  refine ⟨⟨LevelCacheStore.built E b k c (nodes b k), b ^ k, nodes b k, merkleTreeRowCount (b ^ k) b,
    ns[b ^ k + nodes b (k - 1 - c.rowsToDiscard) - 1]⟩, fs2, ?_, List.getElem?_eq_getElem hj,
    fun h1 => ?_⟩
  · unfold BaseTree.fromTreeSliceWithConfig
    rw [M.bind_ok (a := nodes b k) (fs' := fs) (by rw [M.ofRes_run, h0]),
      M.bind_ok (a := _) (fs' := fs2) (by exact hnew),
      M.bind_ok (a := _) (fs' := fs2) (by rw [M.get_run, hlast])]
    rfl
  · have h3 := pow_le_rowStart b k (c.rowsToDiscard - 1)
    rw [show c.rowsToDiscard - 1 + 1 = c.rowsToDiscard by omega] at h3
    have : 0 < b ^ (k - c.rowsToDiscard) := Nat.pow_pos (by have := hb.two_le; omega)
    have h4 : rowStart b k (c.rowsToDiscard + 1)
      = rowStart b k c.rowsToDiscard + b ^ (k - c.rowsToDiscard) := rfl
    omega

/-- **C40 fails on `LevelCacheStore` without a configuration**: `from_tree_slice` returns `Err` on the
nodes of every tree, because the store it creates looks for the root behind the end of its file. -/
theorem C40_level_cache_refuted {b k : Nat} (hb : Arity b) (hk : 1 ≤ k) {ns : List E}
    (hn : ns.length = nodes b k) (fs : FS) :
    ∃ (m : String) (fs' : FS), BaseTree.fromTreeSlice (S := LevelCacheStore E) b 0 0 (encodeAll ns)
      (b ^ k) fs = (.error (.err m), fs') := by
  have hp := nodes_pos b k
  have he := LawfulElement.byteLen_pos (E := E)
  have h0 : BaseTree.treeSliceLen E b 0 0 (encodeAll ns) (b ^ k) = .ok (nodes b k) :=
    (treeSliceLen_ok_iff (by have := hb.two_le; omega)).2
      ⟨hb, rfl, rfl, k, hk, rfl, rfl, by rw [div_encodeAll, hn]⟩
  have hlen : (encodeAll ns).length = Element.byteLen E * nodes b k := by
    rw [length_encodeAll, hn, Nat.mul_comm]
  obtain ⟨fs1, h1, h2, _⟩ := createTemp_run fs
  obtain ⟨fs2, g1, g2, _⟩ := setLen_empty fs1 (Element.byteLen E * nodes b k) h2
  obtain ⟨fs3, w1, w2, _⟩ := writeAllAt_ok (data := encodeAll ns) (off := 0) g2 (by
    rw [List.length_replicate, hlen]; omega)
  rw [patch_replicate_all hlen] at w2
  have hnew : LevelCacheStore.newFromSlice (E := E) (nodes b k) (encodeAll ns) fs
      = (.ok ⟨nodes b k, .temp fs.nextTemp, nodes b k, 0, false, Element.byteLen E * nodes b k, none⟩,
        fs3) := by
    unfold LevelCacheStore.newFromSlice
    rw [M.bind_ok (a := 0) (fs' := fs) (by
        rw [M.ofRes_run, modP_ok he, hlen, Nat.mul_mod_right]),
      M.bind_ok (mEnsure_true (by rfl) _ _),
      M.bind_ok (a := ⟨0, .temp fs.nextTemp, nodes b k, 0, false, Element.byteLen E * nodes b k, none⟩)
        (fs' := fs2) (by unfold LevelCacheStore.new; rw [M.bind_ok h1, M.bind_ok g1]; rfl),
      M.bind_ok (a := ()) (fs' := fs3) (by
        unfold LevelCacheStore.storeCopyFromSlice
        rw [M.bind_ok (mEnsure_true (by
          rw [hlen, Nat.zero_add]) _ _)]
        exact w1), div_encodeAll, hn]
    rfl
  obtain ⟨m, hm⟩ : Res.IsErr (StoreOps.last fs3 (⟨nodes b k, .temp fs.nextTemp, nodes b k, 0, false,
      Element.byteLen E * nodes b k, none⟩ : LevelCacheStore E)) := by
    unfold StoreOps.last
    show Res.IsErr (subP (nodes b k) 1 >>= fun i => LevelCacheStore.readAt fs3 _ i)
    rw [subP_ok (by omega), Res.ok_bind]
    refine LevelCacheStore.readAt_run_err fs3 ?_
    have hin : (⟨nodes b k, .temp fs.nextTemp, nodes b k, 0, false, Element.byteLen E * nodes b k,
      none⟩ : LevelCacheStore E).InBounds ((nodes b k - 1) * Element.byteLen E) := .inr (Nat.zero_le _)
    rw [LevelCacheStore.storeReadRange_none rfl hin]
    refine readExactAt_past w2 he ?_
    rw [hlen]
    show _ < (if (nodes b k - 1) * Element.byteLen E ≥ 0 then _ else _) + _
    rw [if_pos (Nat.zero_le _)]
    show _ < (nodes b k - 1) * Element.byteLen E - 0 + nodes b k * Element.byteLen E + Element.byteLen E
    rw [Nat.mul_comm (Element.byteLen E)]
    omega
  refine ⟨m, fs3, ?_⟩
  unfold BaseTree.fromTreeSlice
  rw [M.bind_ok (a := nodes b k) (fs' := fs) (by rw [M.ofRes_run, h0]),
    M.bind_ok (a := _) (fs' := fs3) (by exact hnew)]
  apply M.bind_error
  rw [M.get_run, hm]

end

/-! The nodes of a tree of four leaves: discarding one row, the tree read back has the root 91, the
node at index 4, instead of 250. -/
section
attribute [local instance] idealRows

/-- The root `from_tree_slice_with_config` finds, if it succeeds. -/
def cacheSliceRoot (d : Nat) : Option UInt8 :=
  match (BaseTree.fromTreeSliceWithConfig (S := LevelCacheStore UInt8) 2 0 0
      [72, 73, 74, 75, 91, 155, 250] 4 (StoreConfig.new "d" "t" d) FS.empty).1 with
  | .ok t => some t.root
  | .error _ => none

example : cacheSliceRoot 0 = some 250 ∧ cacheSliceRoot 1 = some 91 := by decide +kernel
example : Arity 2 ∧ (1:Nat) ≤ 2 ∧ [72, 73, 74, 75, 91, 155, 250].length = nodes 2 2 ∧
    (StoreConfig.new "d" "t" 1).rowsToDiscard < 2 :=
  ⟨⟨1, by decide, by decide⟩, by decide, by decide, by decide⟩

end
end Verif
