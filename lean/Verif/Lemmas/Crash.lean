import Verif.Spec.Crash
import Verif.Lemmas.Compact
import Verif.Lemmas.LevelView
/-! Crash states of `compact`. -/
set_option linter.unusedSectionVars false
namespace Verif
open Spec StoreOps

theorem patch_patch_append {bs : Bytes} {off : Nat} {x y : Bytes}
    (h : off + x.length + y.length ≤ bs.length) :
    patch (patch bs off x) (off + x.length) y = patch bs off (x ++ y) := by
  apply List.ext_getElem?
  intro i
  rw [patch_getElem? (by rw [patch_length (by omega)]; omega), patch_getElem? (by omega),
    patch_getElem? (by rw [List.length_append]; omega)]
  simp only [List.length_append]
  by_cases h1 : i < off
  · rw [if_neg (by omega), if_neg (by omega), if_neg (by omega)]
  · by_cases h2 : i < off + x.length
    · rw [if_neg (by omega), if_pos (by omega), if_pos (by omega),
        List.getElem?_append_left (by omega)]
    · by_cases h3 : i < off + x.length + y.length
      · rw [if_pos (by omega), if_pos (by omega), List.getElem?_append_right (by omega)]
        congr 1; omega
      · rw [if_neg (by omega), if_neg (by omega), if_neg (by omega)]

/-- Whatever the block sizes, copying forwards to a lower position copies the original bytes. -/
theorem CopyState.eq {bs : Bytes} {src dst p : Nat} {cur : Bytes} (hds : dst ≤ src)
    (hs : src ≤ bs.length) (h : CopyState bs src dst p cur) :
    src + p ≤ bs.length ∧ cur = patch bs dst (region bs src p) := by
  induction h with
  | start =>
    refine ⟨by omega, ?_⟩
    rw [patch_eq (by omega)]
    simp [region]
  | @block p cur n h hn ih =>
    obtain ⟨h1, h2⟩ := ih
    have hr : (region bs src p).length = p := by rw [region_length]; omega
    have hlen : cur.length = bs.length := by rw [h2, patch_length (by omega)]
    rw [hlen] at hn
    refine ⟨by omega, ?_⟩
    have hsame : region cur (src + p) n = region bs (src + p) n := by
      rw [h2]
      exact region_patch_disjoint (by omega) (.inr (by omega))
    rw [hsame, h2]
    have := patch_patch_append (bs := bs) (off := dst) (x := region bs src p)
      (y := region bs (src + p) n) (by rw [hr, region_length]; omega)
    rw [hr] at this
    rw [this, ← region_add]

theorem CopyState.length {bs : Bytes} {src dst p : Nat} {cur : Bytes} (hds : dst ≤ src)
    (hs : src ≤ bs.length) (h : CopyState bs src dst p cur) : cur.length = bs.length := by
  obtain ⟨h1, h2⟩ := h.eq hds hs
  rw [h2, patch_length (by rw [region_length]; omega)]

section
variable {E : Type} [Element E] [LawfulElement E] [FloatRows]

/-- Opening with a reader a file of another length than that of the cached rows. -/
theorem LevelCacheStore.newFromDiskWithReader_wrong {b k : Nat} {c : StoreConfig} {fs : FS}
    (hb : Arity b) (hk : 1 ≤ k) (hf : FloatRows.ExactAt b k) {bs : Bytes}
    (hfile : fs.file c.file = some bs)
    (hl : c.rowsToDiscard < k → bs.length ≠ nodes b (k - 1 - c.rowsToDiscard) * Element.byteLen E)
    (r : ExternalReader) :
    ∃ m, newFromDiskWithReader (E := E) (nodes b k) b c r fs = (.error (.err m), fs) := by
  unfold newFromDiskWithReader
  rw [M.bind_ok (pathExists_run _ _), hfile, M.bind_ok (mEnsure_true (by rfl) _ _),
    M.bind_ok (a := bs.length) (fs' := fs) (by
      rw [M.get_run, FS.fileLen, FS.contents_ok hfile]; rfl)]
  by_cases hd : c.rowsToDiscard < k
  · rw [M.bind_ok (a := _) (fs' := fs) (by rw [M.ofRes_run, plan_ok hb hk hf hd])]
    dsimp only
    exact ⟨_, M.bind_error (mEnsure_false (hl hd) _ _)⟩
  · obtain ⟨m, hm⟩ := plan_err (E := E) hb (c := c) (.inl ⟨k, hk, rfl, hf, by omega⟩)
    exact ⟨m, M.bind_error (by rw [M.ofRes_run, hm])⟩

end
end Verif

namespace Verif
open Spec StoreOps
section
variable {E : Type} [Element E] [LawfulElement E] [FloatRows] {A : Alg E}

/-- The bytes after the copy and `set_len`. -/
theorem compacted_bytes {b k d : Nat} {leaves : List E} {f : Nat → E}
    (hy : IsLayout A.nodeHash b k leaves f) (hd : d < k) (version : Nat) :
    (patch (encodeAll (allNodes b k f)) (if version = 1 then b ^ k * Element.byteLen E else 0)
      (region (encodeAll (allNodes b k f)) (rowStart b k (d + 1) * Element.byteLen E)
        (nodes b (k - 1 - d) * Element.byteLen E))).take
      (if version = 1 then b ^ k * Element.byteLen E + nodes b (k - 1 - d) * Element.byteLen E
        else nodes b (k - 1 - d) * Element.byteLen E)
    = compacted version b k d leaves f := by
  have hlen : (encodeAll (allNodes b k f)).length = nodes b k * Element.byteLen E := by
    rw [length_encodeAll, allNodes_length]
  have hst : (if version = 1 then b ^ k * Element.byteLen E else 0) ≤
      (encodeAll (allNodes b k f)).length := by
    rw [hlen]
    split
    · exact Nat.mul_le_mul_right _ (pow_le_nodes b k)
    · omega
  have hr : region (encodeAll (allNodes b k f)) (rowStart b k (d + 1) * Element.byteLen E)
      (nodes b (k - 1 - d) * Element.byteLen E) = encodeAll (cachedRows b k d f) := by
    unfold region
    rw [← encodeAll_drop, allNodes_drop f hd, List.take_of_length_le]
    rw [length_encodeAll, cachedRows_length]
  have hcl : (encodeAll (cachedRows b k d f)).length = nodes b (k - 1 - d) * Element.byteLen E := by
    rw [length_encodeAll, cachedRows_length]
  rw [hr, patch_eq hst]
  unfold compacted
  split
  · rw [if_pos (by assumption)] at hst
    rw [encodeAll_append, List.take_append_of_le_length (by
      rw [List.length_append, List.length_take, hcl]; omega)]
    rw [List.take_of_length_le (by rw [List.length_append, List.length_take, hcl]; omega),
      ← encodeAll_take, allNodes_take hy]
  · simp only [List.take_zero, List.nil_append]
    rw [List.take_append_of_le_length (by omega), List.take_of_length_le (by omega)]

/-- The crash states of `compact` on a full tree. -/
theorem DiskStore.CompactCrash.cases {b k : Nat} (hb : Arity b) (hk : 1 ≤ k) (hf : FloatRows.ExactAt b k)
    {leaves : List E} {f : Nat → E} {c : StoreConfig} {fs fs' : FS} {t : BaseTree (DiskStore E) E}
    (ht : t.IsFileTree A b k leaves f c fs) {version : Nat}
    (h : t.store.CompactCrash b c version fs fs') :
    (∃ bs, fs'.file c.file = some bs ∧ bs.length = nodes b k * Element.byteLen E) ∨
    (c.rowsToDiscard < k ∧ fs'.file c.file = some (compacted version b k c.rowsToDiscard leaves f)) := by
  have hlen : (encodeAll (allNodes b k f)).length = nodes b k * Element.byteLen E := by
    rw [length_encodeAll, allNodes_length]
  have hplan : ∀ {x}, t.store.compactPlan b c = .ok x → c.rowsToDiscard < k := by
    intro x hx
    by_contra hd
    obtain ⟨m, hm⟩ := DiskStore.compactPlan_err hb hk hf (c := c) (by omega) (s := t.store) ht.len
    rw [hm] at hx; cases hx
  have hst : ∀ hd : c.rowsToDiscard < k, (if version = 1 then b ^ k * Element.byteLen E else 0) ≤
      rowStart b k (c.rowsToDiscard + 1) * Element.byteLen E := by
    intro hd
    split
    · exact Nat.mul_le_mul_right _ (pow_le_rowStart b k _)
    · omega
  have hle : ∀ hd : c.rowsToDiscard < k, rowStart b k (c.rowsToDiscard + 1) * Element.byteLen E ≤
      (encodeAll (allNodes b k f)).length := by
    intro hd
    have hc := LevelCacheStore.rowStart_cache (b := b) hd
    rw [hlen]; exact Nat.mul_le_mul_right _ (by omega)
  cases h with
  | untouched => exact .inl ⟨_, ht.file, hlen⟩
  | @copying dw cs st p bs cur hp hfile hcopy =>
    have hd := hplan hp
    rw [DiskStore.compactPlan_ok hb hk hf hd ht.len ht.size] at hp
    cases hp
    rw [ht.file] at hfile
    cases hfile
    refine .inl ⟨cur, FS.set_self _ _ _, ?_⟩
    rw [hcopy.length (hst hd) (hle hd), hlen]
  | @truncated dw cs st bs cur hp hfile hall hcopy =>
    have hd := hplan hp
    rw [DiskStore.compactPlan_ok hb hk hf hd ht.len ht.size] at hp
    cases hp
    rw [ht.file] at hfile
    cases hfile
    refine .inr ⟨hd, ?_⟩
    rw [FS.set_self]
    obtain ⟨h1, h2⟩ := hcopy.eq (hst hd) (hle hd)
    rw [h2, compacted_bytes ht.layout hd version]

end
end Verif
