import Verif.Props.FromBytes
import Verif.Lemmas.LevelCacheTree
import Verif.Lemmas.LevelWrites
/-!
C68 for `LevelCacheStore::new_from_slice_with_config` (src/store/level_cache.rs:219-243).
-/
namespace Verif
open Spec StoreOps
section
variable {E : Type} [Element E] [LawfulElement E] [FloatRows]

/-- C68, `LevelCacheStore::new_from_slice_with_config` when the configuration's file does not exist.  The
store is sized for a tree of `k` rows over its leaves.  Up to a row of leaves is read back (up to the
whole tree when no row is discarded), and only the configuration's file changes. -/
theorem C68_level_cache_with_config_partial {b k : Nat} (hb : Arity b) (hk : 1 ≤ k)
    (hf : FloatRows.ExactAt b k) {c : StoreConfig} (hd : c.rowsToDiscard < k) {fs : FS}
    (hc : fs.file c.file = none) {es : List E}
    (he : es.length ≤ b ^ k ∨ c.rowsToDiscard = 0 ∧ es.length ≤ nodes b k) :
    ∃ (s : LevelCacheStore E) (fs' : FS),
      Store.newFromSliceWithConfig (nodes b k) b (encodeAll es) c fs = (.ok s, fs') ∧
      len (E := E) s = es.length ∧
      (∀ (i : Nat) (hi : i < es.length), readAt fs' s i = .ok es[i]) ∧
      (∀ f, f ≠ c.file → fs'.file f = fs.file f) := by
  have hn : es.length ≤ nodes b k := by
    have := pow_le_nodes b k
    omega
  obtain ⟨fs1, h1, h2, h3⟩ := LevelCacheStore.newWithConfig_run (E := E) hb hk hf hd hc
  have hl : (encodeAll es).length ≤ Element.byteLen E * nodes b k := by
    rw [length_encodeAll, Nat.mul_comm]
    exact Nat.mul_le_mul_left _ hn
  obtain ⟨fs2, w1, w2, w3⟩ := LevelCacheStore.storeCopy_ok (E := E) (data := encodeAll es) (off := 0)
    (s := LevelCacheStore.built E b k c 0)
    h2 (by rw [List.length_replicate]; rfl) (by rw [Nat.zero_add]; exact hl)
  have hp : (LevelCacheStore.built E b k c es.length : LevelCacheStore E).Plain := by
    refine ⟨rfl, Nat.mul_le_mul_right _ (pow_le_rowStart b k _), ?_⟩
    rcases he with he | he
    · exact .inl he
    · right
      show rowStart b k (c.rowsToDiscard + 1) * _ = b ^ k * _
      rw [he.1]
      simp [rowStart]
  refine ⟨LevelCacheStore.built E b k c es.length, fs2, ?_, rfl, fun i hi => ?_,
    fun f hf' => (w3.1 f hf').trans (h3.1 f hf')⟩
  · show LevelCacheStore.newFromSliceWithConfig _ _ _ _ _ = _
    unfold LevelCacheStore.newFromSliceWithConfig
    rw [M.bind_ok (a := 0) (fs' := fs) (by rw [M.ofRes_run, multiple_encodeAll]),
      M.bind_ok (mEnsure_true rfl _ _), M.bind_ok h1]
    rw [if_neg (by simp [LevelCacheStore.built]), M.bind_ok w1, div_encodeAll]
    rfl
  · show LevelCacheStore.readAt _ _ _ = _
    rw [hp.readAt]
    refine DiskStore.readAt_eq hi ?_
    have := FileHolds.patch_in (start := 0) (es := es) (fs' := fs2) (f := c.file)
      (bs := List.replicate (Element.byteLen E * nodes b k) 0)
      (by rw [List.length_replicate]; omega) (by rw [Nat.zero_mul]; exact w2) i hi
    rw [Nat.zero_add] at this
    exact this

/-- C68: more elements than the tree has are refused, but the file has been created and stays. -/
theorem C68_level_cache_too_long_refuted {b k : Nat} (hb : Arity b) (hk : 1 ≤ k)
    (hf : FloatRows.ExactAt b k) {c : StoreConfig} (hd : c.rowsToDiscard < k) {fs : FS}
    (hc : fs.file c.file = none) {es : List E} (he : nodes b k < es.length) :
    ∃ (m : String) (fs' : FS),
      Store.newFromSliceWithConfig (S := LevelCacheStore E) (nodes b k) b (encodeAll es) c fs
        = (.error (.err m), fs') ∧
      fs'.file c.file = some (List.replicate (Element.byteLen E * nodes b k) 0) ∧
      (∀ f, f ≠ c.file → fs'.file f = fs.file f) := by
  obtain ⟨fs1, h1, h2, h3⟩ := LevelCacheStore.newWithConfig_run (E := E) hb hk hf hd hc
  have hl : ¬ 0 + (encodeAll es).length ≤ Element.byteLen E * nodes b k := by
    have hp := LawfulElement.byteLen_pos (E := E)
    rw [Nat.zero_add, length_encodeAll, Nat.mul_comm (Element.byteLen E)]
    exact Nat.not_le.2 (Nat.mul_lt_mul_of_pos_right he hp)
  refine ⟨"Requested slice too large", fs1, ?_, h2, h3.1⟩
  show LevelCacheStore.newFromSliceWithConfig _ _ _ _ _ = _
  unfold LevelCacheStore.newFromSliceWithConfig
  rw [M.bind_ok (a := 0) (fs' := fs) (by rw [M.ofRes_run, multiple_encodeAll]),
    M.bind_ok (mEnsure_true rfl _ _), M.bind_ok h1]
  rw [if_neg (by simp [LevelCacheStore.built])]
  exact M.bind_error (M.bind_error (mEnsure_false hl _ _))

omit [LawfulElement E] in
/-- C68 fails when the configuration's file exists: the bytes given are ignored, and the result is that
of `new_from_disk` on the file. -/
theorem C68_level_cache_existing_refuted {size b : Nat} {data : Bytes} {c : StoreConfig} {fs : FS}
    {bs : Bytes} (hc : fs.file c.file = some bs) (hw : 0 < Element.byteLen E)
    (hd : data.length % Element.byteLen E = 0) :
    Store.newFromSliceWithConfig (S := LevelCacheStore E) size b data c fs
      = LevelCacheStore.newFromDisk size b c fs := by
  show LevelCacheStore.newFromSliceWithConfig _ _ _ _ _ = _
  unfold LevelCacheStore.newFromSliceWithConfig
  have e1 : modP data.length (Element.byteLen E) = .ok 0 := by
    unfold modP
    rw [if_neg (by omega), hd]
  rw [M.bind_ok (a := 0) (fs' := fs) (by rw [M.ofRes_run, e1]), M.bind_ok (mEnsure_true rfl _ _)]
  have e2 : LevelCacheStore.newWithConfig (E := E) size b c fs
      = LevelCacheStore.newFromDisk size b c fs := by
    unfold LevelCacheStore.newWithConfig
    rw [M.bind_ok (pathExists_run _ _), hc]
    rfl
  have e3 : ∀ s fs', LevelCacheStore.newFromDisk (E := E) size b c fs = (.ok s, fs') →
      s.loadedFromDisk = true := by
    intro s fs' h
    unfold LevelCacheStore.newFromDisk at h
    rw [M.bind_ok (pathExists_run _ _), hc, M.bind_ok (mEnsure_true (by rfl) _ _)] at h
    rw [M.bind_ok (a := bs.length) (fs' := fs) (by
      rw [M.get_run, FS.fileLen, FS.contents_ok hc]; rfl)] at h
    cases hp : LevelCacheStore.plan E size b c with
    | error e =>
      rw [M.bind_error (e := e) (fs' := fs) (by rw [M.ofRes_run, hp])] at h
      cases h
    | ok v =>
      rw [M.bind_ok (a := v) (fs' := fs) (by rw [M.ofRes_run, hp])] at h
      cases h
      rfl
  rcases h : LevelCacheStore.newFromDisk (E := E) size b c fs with ⟨r | s, fs'⟩
  · rw [M.bind_error (e2.trans h)]
  · rw [M.bind_ok (e2.trans h), if_pos (e3 _ _ h)]
    rfl

end

section Examples
attribute [local instance] idealRows
/-- The report of a run: length, reads, what the file holds afterwards. -/
private def sliceReport (d : Nat) (data : Bytes) (fs : FS) : Option (Nat × List (Option UInt8)) :=
  match Store.newFromSliceWithConfig (S := LevelCacheStore UInt8) (E := UInt8) 7 2 data
      ⟨"d", "a", none, d⟩ fs with
  | (.ok s, fs') => some (len (E := UInt8) s,
      (List.range 8).map fun i => (readAt fs' s i : Res UInt8).toOption)
  | _ => none

-- a row of four leaves, one row discarded
example : sliceReport 1 [1, 2, 3, 4] FS.empty
    = some (4, [some 1, some 2, some 3, some 4, none, none, none, none]) := by decide +kernel
-- the whole tree, no row discarded
example : sliceReport 0 [1, 2, 3, 4, 5, 6, 7] FS.empty
    = some (7, [some 1, some 2, some 3, some 4, some 5, some 6, some 7, none]) := by decide +kernel
-- too much
example : sliceReport 1 [1, 2, 3, 4, 5, 6, 7, 8] FS.empty = none := by decide +kernel
-- an existing file: the bytes given are ignored
example : sliceReport 1 [1, 2, 3, 4]
    (FS.empty.set (StoreConfig.file ⟨"d", "a", none, 1⟩) (some [9, 8, 7, 6, 5]))
    = some (7, [some 9, some 8, some 7, some 6, some 5, none, some 5, none]) := by decide +kernel
end Examples

end Verif
