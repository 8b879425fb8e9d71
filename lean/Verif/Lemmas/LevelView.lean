import Verif.Lemmas.Compacted
/-! Reading a compacted tree through `LevelCacheStore`. -/
set_option linter.unusedSectionVars false
namespace Verif
open Spec StoreOps

section
variable {E : Type} [Element E] [LawfulElement E]

theorem pow_le_rowStart (b k l : Nat) : b ^ k ≤ rowStart b k (l + 1) := by
  have := rowStart_mono (b := b) (k := k) (show 1 ≤ l + 1 by omega)
  simpa [rowStart] using this

omit [LawfulElement E] in
theorem getElem_cachedRows {b k d i : Nat} {f : Nat → E} (h : i < (cachedRows b k d f).length) :
    (cachedRows b k d f)[i] = f (rowStart b k (d + 1) + i) := by
  simp [cachedRows]

/-- Reading element `j` of a file of elements. -/
theorem readExactAt_element {fs : FS} {f : FileId} {es : List E} (h : fs.file f = some (encodeAll es))
    {j : Nat} (hj : j < es.length) :
    fs.readExactAt f (j * Element.byteLen E) (Element.byteLen E) = .ok (Element.toBytes es[j]) := by
  have hp := LawfulElement.byteLen_pos (E := E)
  unfold FS.readExactAt
  rw [FS.contents_ok h, Res.ok_bind, if_neg (by omega), if_pos (by
    rw [length_encodeAll, ← Nat.succ_mul]; exact Nat.mul_le_mul_right _ hj), region_encodeAll _ _ hj]

theorem readExactAt_past {fs : FS} {f : FileId} {bs : Bytes} (h : fs.file f = some bs) {off n : Nat}
    (hn : 0 < n) (ho : bs.length < off + n) : Res.IsErr (fs.readExactAt f off n) := by
  unfold FS.readExactAt
  rw [FS.contents_ok h, Res.ok_bind, if_neg (by omega), if_neg (by omega)]
  exact ⟨_, rfl⟩

namespace LevelCacheStore

/-- A view of a tree of height `k` with `d` discarded rows. -/
structure View (b k d : Nat) (s : LevelCacheStore E) : Prop where
  len : s.len = nodes b k
  width : s.dataWidth = b ^ k
  start : s.cacheIndexStart = rowStart b k (d + 1) * Element.byteLen E

theorem checkRange_err_len {s : LevelCacheStore E} {i : Nat} (h : s.len ≤ i) :
    Res.IsErr (checkRange s (i * Element.byteLen E) (i * Element.byteLen E + Element.byteLen E)) := by
  have := Nat.mul_le_mul_right (Element.byteLen E) h
  unfold checkRange
  dsimp only
  rw [ensure_false (show ¬ i * Element.byteLen E < s.len * Element.byteLen E by omega)]
  exact ⟨_, rfl⟩

theorem readAt_err_len {s : LevelCacheStore E} {i : Nat} (h : s.len ≤ i) (fs : FS) :
    Res.IsErr (readAt fs s i) := by
  obtain ⟨m, hm⟩ := checkRange_err_len (s := s) h
  refine ⟨m, ?_⟩
  unfold readAt
  dsimp only
  rw [hm]; rfl

theorem readAt_run {s : LevelCacheStore E} {i : Nat} (hi : i < s.len)
    (hb : s.InBounds (i * Element.byteLen E)) (fs : FS) {bs : Bytes} {e : E}
    (h : storeReadRange fs s (i * Element.byteLen E) (i * Element.byteLen E + Element.byteLen E)
      = .ok bs) (he : bs = Element.toBytes e) : readAt fs s i = .ok e := by
  unfold readAt
  dsimp only
  rw [checkRange_ok (by exact Nat.mul_lt_mul_of_pos_right hi LawfulElement.byteLen_pos) (by
    rw [← Nat.succ_mul]; exact Nat.mul_le_mul_right _ hi) hb, Res.ok_bind, h, Res.ok_bind, he]
  exact fromSlice_toBytes e

theorem readAt_run_err {s : LevelCacheStore E} {i : Nat} (fs : FS)
    (h : Res.IsErr (storeReadRange fs s (i * Element.byteLen E)
      (i * Element.byteLen E + Element.byteLen E))) : Res.IsErr (readAt fs s i) := by
  obtain ⟨m, hm⟩ := h
  unfold readAt checkRange
  dsimp only
  by_cases h1 : i * Element.byteLen E < s.len * Element.byteLen E
  · rw [ensure_true h1, Res.ok_bind]
    by_cases h2 : i * Element.byteLen E + Element.byteLen E ≤ s.len * Element.byteLen E
    · rw [ensure_true h2, Res.ok_bind]
      by_cases h3 : s.InBounds (i * Element.byteLen E)
      · rw [ensure_true h3, Res.ok_bind, hm]; exact ⟨_, rfl⟩
      · rw [ensure_false h3]; exact ⟨_, rfl⟩
    · rw [ensure_false h2]; exact ⟨_, rfl⟩
  · rw [ensure_false h1]; exact ⟨_, rfl⟩

theorem mul_byteLen_le {a c : Nat} : a * Element.byteLen E ≤ c * Element.byteLen E ↔ a ≤ c :=
  Nat.mul_le_mul_right_iff LawfulElement.byteLen_pos

theorem mul_byteLen_lt {a c : Nat} : a * Element.byteLen E < c * Element.byteLen E ↔ a < c :=
  Nat.mul_lt_mul_right LawfulElement.byteLen_pos

variable {b k d : Nat} {s : LevelCacheStore E}

/-- A discarded index is out of bounds, except the very first. -/
theorem View.discarded_err (h : s.View b k d) {i : Nat} (h1 : b ^ k < i)
    (h2 : i < rowStart b k (d + 1)) (fs : FS) : Res.IsErr (readAt fs s i) := by
  have hb : ¬ s.InBounds (i * Element.byteLen E) := by
    unfold InBounds
    rw [h.width, h.start, mul_byteLen_le, ge_iff_le, mul_byteLen_le]
    omega
  refine readAt_run_err fs ?_
  unfold storeReadRange
  rw [subP_ok (by omega), Res.ok_bind, ensure_false hb]
  exact ⟨_, rfl⟩

theorem View.inBounds_base (h : s.View b k d) {i : Nat} (hi : i ≤ b ^ k) :
    s.InBounds (i * Element.byteLen E) := by
  unfold InBounds
  rw [h.width, mul_byteLen_le]; exact .inl hi

theorem View.inBounds_cached (h : s.View b k d) {i : Nat} (hi : rowStart b k (d + 1) ≤ i) :
    s.InBounds (i * Element.byteLen E) := by
  unfold InBounds
  rw [h.start]; exact .inr (mul_byteLen_le.2 hi)

/-- Storage without reader: everything comes from the file. -/
theorem storeReadRange_none {s : LevelCacheStore E} (hr : s.reader = none) {start n : Nat}
    (hb : s.InBounds start) (fs : FS) : storeReadRange fs s start (start + n)
      = fs.readExactAt s.file (s.adjustedStart start) n := by
  unfold storeReadRange
  rw [subP_ok (by omega), Res.ok_bind, ensure_true hb, Res.ok_bind, hr, Nat.add_sub_cancel_left]

theorem storeReadRange_some {s : LevelCacheStore E} {r : ExternalReader} (hr : s.reader = some r)
    {start n : Nat} (hb : s.InBounds start) (fs : FS) : storeReadRange fs s start (start + n)
      = if start < s.dataWidth * Element.byteLen E then r.read fs start (start + n) (List.replicate n 0)
        else fs.readExactAt s.file (s.adjustedStart start) n := by
  unfold storeReadRange
  rw [subP_ok (by omega), Res.ok_bind, ensure_true hb, Res.ok_bind, hr, Nat.add_sub_cancel_left]

/-! #### Version 1: no reader, leaves at the front of the file -/

variable {leaves : List E} {f : Nat → E} {fs : FS}

theorem View.readAt_base_v1 (h : s.View b k d) (hr : s.reader = none)
    (hn : leaves.length = b ^ k)
    (hf : fs.file s.file = some (encodeAll (leaves ++ cachedRows b k d f))) {i : Nat}
    (hi : i < leaves.length) : readAt fs s i = .ok leaves[i] := by
  have hik : i < b ^ k := by omega
  have hlt : i < nodes b k := lt_of_lt_of_le hik (pow_le_nodes b k)
  have hb := h.inBounds_base (i := i) (by omega)
  refine readAt_run (by rw [h.len]; exact hlt) hb fs (bs := Element.toBytes leaves[i]) ?_ rfl
  rw [storeReadRange_none hr hb]
  have ha : s.adjustedStart (i * Element.byteLen E) = i * Element.byteLen E := by
    unfold adjustedStart
    rw [h.start, if_neg (by
      rw [ge_iff_le, mul_byteLen_le]; have := pow_le_rowStart b k d; omega)]
  rw [ha, readExactAt_element hf (by rw [List.length_append]; omega), List.getElem_append_left hi]

/-- The first discarded index passes the bounds check and yields the first cached element. -/
theorem View.readAt_boundary_v1 (h : s.View b k d) (hd : d < k) (hd1 : 1 ≤ d) (hr : s.reader = none)
    (hn : leaves.length = b ^ k) (hb2 : 2 ≤ b)
    (hf : fs.file s.file = some (encodeAll (leaves ++ cachedRows b k d f))) :
    readAt fs s (b ^ k) = .ok (f (rowStart b k (d + 1))) := by
  have hb := h.inBounds_base (i := b ^ k) (Nat.le_refl _)
  have hlt : b ^ k < rowStart b k (d + 1) := by
    have h1 := pow_le_rowStart b k (d - 1)
    rw [show d - 1 + 1 = d by omega] at h1
    have : 0 < b ^ (k - d) := Nat.pow_pos (by omega)
    rw [rowStart]; omega
  have hle := rowStart_le_nodes b k (d + 1) hd
  refine readAt_run (by rw [h.len]; omega) hb fs (bs := Element.toBytes (f (rowStart b k (d + 1)))) ?_ rfl
  rw [storeReadRange_none hr hb]
  have ha : s.adjustedStart (b ^ k * Element.byteLen E) = b ^ k * Element.byteLen E := by
    unfold adjustedStart
    rw [h.start, if_neg (by rw [ge_iff_le, mul_byteLen_le]; omega)]
  have h0 := nodes_pos b (k - 1 - d)
  rw [ha, readExactAt_element hf (by rw [List.length_append, cachedRows_length]; omega),
    List.getElem_append_right (by omega), getElem_cachedRows]
  congr 3
  omega

theorem View.readAt_cached_v1 (h : s.View b k d) (hd : d < k) (hr : s.reader = none)
    (hn : leaves.length = b ^ k)
    (hf : fs.file s.file = some (encodeAll (leaves ++ cachedRows b k d f))) {i : Nat}
    (h1 : rowStart b k (d + 1) ≤ i) (h2 : i < nodes b k) : readAt fs s i = .ok (f i) := by
  have hb := h.inBounds_cached h1
  have hle := rowStart_le_nodes b k (d + 1) hd
  rw [show k - (d + 1) = k - 1 - d by omega] at hle
  refine readAt_run (by rw [h.len]; exact h2) hb fs (bs := Element.toBytes (f i)) ?_ rfl
  rw [storeReadRange_none hr hb]
  have ha : s.adjustedStart (i * Element.byteLen E)
      = (b ^ k + (i - rowStart b k (d + 1))) * Element.byteLen E := by
    unfold adjustedStart
    rw [h.start, h.width, if_pos (by rw [ge_iff_le, mul_byteLen_le]; omega), hr]
    simp only [Option.isNone_none, ↓reduceIte]
    rw [← Nat.sub_mul, ← Nat.add_mul, Nat.add_comm]
  rw [ha, readExactAt_element hf (by rw [List.length_append, cachedRows_length]; omega),
    List.getElem_append_right (by omega), getElem_cachedRows]
  congr 3
  omega

/-! #### Version 2: leaves from the reader, cached rows in the file -/

theorem View.readAt_base_v2 (h : s.View b k d) {r : ExternalReader} (hr : s.reader = some r)
    (hn : leaves.length = b ^ k) (hs : r.Serves fs leaves) {i : Nat}
    (hi : i < leaves.length) : readAt fs s i = .ok leaves[i] := by
  have hik : i < b ^ k := by omega
  have hlt : i < nodes b k := lt_of_lt_of_le hik (pow_le_nodes b k)
  have hb := h.inBounds_base (i := i) (by omega)
  refine readAt_run (by rw [h.len]; exact hlt) hb fs (bs := Element.toBytes leaves[i]) ?_ rfl
  rw [storeReadRange_some hr hb, h.width, if_pos (mul_byteLen_lt.2 hik)]
  have := hs i 1 (by omega) (List.replicate (Element.byteLen E) 0) (by simp)
  rw [Nat.add_mul, Nat.one_mul] at this
  rw [this, List.drop_eq_getElem_cons hi, List.take_succ_cons, List.take_zero]
  simp only [encodeAll, List.flatMap_cons, List.flatMap_nil, List.append_nil]

theorem View.readAt_boundary_v2 (h : s.View b k d) (hb2 : 2 ≤ b) (hd : d < k) (hd1 : 1 ≤ d)
    {r : ExternalReader} (hr : s.reader = some r)
    (hf : fs.file s.file = some (encodeAll (cachedRows b k d f))) :
    Res.IsErr (readAt fs s (b ^ k)) := by
  have hb := h.inBounds_base (i := b ^ k) (Nat.le_refl _)
  refine readAt_run_err fs ?_
  have hlt : b ^ k < rowStart b k (d + 1) := by
    have h1 := pow_le_rowStart b k (d - 1)
    rw [show d - 1 + 1 = d by omega] at h1
    have : 0 < b ^ (k - d) := Nat.pow_pos (by omega)
    rw [rowStart]; omega
  rw [storeReadRange_some hr hb, h.width, if_neg (by omega)]
  have ha : s.adjustedStart (b ^ k * Element.byteLen E) = b ^ k * Element.byteLen E := by
    unfold adjustedStart
    rw [h.start, if_neg (by rw [ge_iff_le, mul_byteLen_le]; omega)]
  have hp := LawfulElement.byteLen_pos (E := E)
  rw [ha]
  refine readExactAt_past hf hp ?_
  rw [length_encodeAll, cachedRows_length]
  have h1 := nodes_mono b (show k - 1 - d ≤ k - 1 by omega)
  have h2 := nodes_lt_pow hb2 (k - 1)
  rw [show k - 1 + 1 = k by omega] at h2
  have := Nat.mul_le_mul_right (Element.byteLen E) (show nodes b (k - 1 - d) ≤ b ^ k by omega)
  omega

theorem View.readAt_cached_v2 (h : s.View b k d) (hd : d < k) {r : ExternalReader}
    (hr : s.reader = some r)
    (hf : fs.file s.file = some (encodeAll (cachedRows b k d f))) {i : Nat}
    (h1 : rowStart b k (d + 1) ≤ i) (h2 : i < nodes b k) : readAt fs s i = .ok (f i) := by
  have hb := h.inBounds_cached h1
  have hle := rowStart_le_nodes b k (d + 1) hd
  rw [show k - (d + 1) = k - 1 - d by omega] at hle
  have hge := pow_le_rowStart b k d
  refine readAt_run (by rw [h.len]; exact h2) hb fs (bs := Element.toBytes (f i)) ?_ rfl
  rw [storeReadRange_some hr hb, h.width, if_neg (by rw [mul_byteLen_lt]; omega)]
  have ha : s.adjustedStart (i * Element.byteLen E)
      = (i - rowStart b k (d + 1)) * Element.byteLen E := by
    unfold adjustedStart
    rw [h.start, if_pos (by rw [ge_iff_le, mul_byteLen_le]; omega), hr]
    simp only [Option.isNone_some, Bool.false_eq_true, ↓reduceIte]
    rw [← Nat.sub_mul]
  rw [ha, readExactAt_element hf (by rw [cachedRows_length]; omega), getElem_cachedRows]
  congr 3
  omega

/-! #### Opening -/
variable [FloatRows] {c : StoreConfig}

theorem newFromDisk_run (hb : Arity b) (hk : 1 ≤ k) (hf : FloatRows.ExactAt b k)
    (hd : c.rowsToDiscard < k) {bs : Bytes} (hfile : fs.file c.file = some bs) :
    newFromDisk (E := E) (nodes b k) b c fs
      = (.ok ⟨nodes b k, c.file, b ^ k, rowStart b k (c.rowsToDiscard + 1) * Element.byteLen E, true,
        bs.length, none⟩, fs) := by
  unfold newFromDisk
  rw [M.bind_ok (pathExists_run _ _), hfile, M.bind_ok (mEnsure_true (by rfl) _ _),
    M.bind_ok (a := bs.length) (fs' := fs) (by
      rw [M.get_run, FS.fileLen, FS.contents_ok hfile]; rfl),
    M.bind_ok (a := _) (fs' := fs) (by rw [M.ofRes_run, plan_ok hb hk hf hd])]
  dsimp only
  rw [Nat.mul_div_cancel _ LawfulElement.byteLen_pos]
  rfl

theorem newFromDiskWithReader_run (hb : Arity b) (hk : 1 ≤ k) (hf : FloatRows.ExactAt b k)
    (hd : c.rowsToDiscard < k) {bs : Bytes} (hfile : fs.file c.file = some bs)
    (hl : bs.length = nodes b (k - 1 - c.rowsToDiscard) * Element.byteLen E) (r : ExternalReader) :
    newFromDiskWithReader (E := E) (nodes b k) b c r fs
      = (.ok ⟨nodes b k, c.file, b ^ k, rowStart b k (c.rowsToDiscard + 1) * Element.byteLen E, false,
        bs.length, some r⟩, fs) := by
  unfold newFromDiskWithReader
  rw [M.bind_ok (pathExists_run _ _), hfile, M.bind_ok (mEnsure_true (by rfl) _ _),
    M.bind_ok (a := bs.length) (fs' := fs) (by
      rw [M.get_run, FS.fileLen, FS.contents_ok hfile]; rfl),
    M.bind_ok (a := _) (fs' := fs) (by rw [M.ofRes_run, plan_ok hb hk hf hd])]
  dsimp only
  rw [M.bind_ok (mEnsure_true hl _ _), Nat.mul_div_cancel _ LawfulElement.byteLen_pos]
  rfl

end LevelCacheStore
end
end Verif
