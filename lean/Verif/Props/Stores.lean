import Verif.Lemmas.RangeReads
import Verif.Spec.Toy
import Verif.Spec.Ideal
/-
C24, C25, C50: the stores as arrays (src/store/vec.rs, disk.rs, mmap.rs).  The level-cache store is
in Verif/Props/LevelCache.lean.
-/
namespace Verif
open Spec StoreOps

set_option linter.unusedSectionVars false

section
variable {E : Type} [Element E] [LawfulElement E] [FloatRows]

/-! ### C24 -/

/-- C24 for `VecStore`: whatever a sequence of operations on a new array returns, the same sequence
on a new store returns. -/
theorem C24_vec {cap : Nat} {ops : List (StoreOp E)} {os : List (StoreObs E)} {a : Arr E}
    (h : Arr.empty.run cap ops = some (os, a)) (fs : FS) :
    ∃ s fs' s' fs'', Store.new (S := VecStore E) cap fs = (.ok s, fs') ∧
      StoreOp.runAll s ops fs' = (.ok (os, s'), fs'') ∧ len (E := E) s' = a.len := by
  obtain ⟨s, fs', h1, h2⟩ := Agrees.new (S := VecStore E) (cap := cap) fs
  obtain ⟨s', fs'', h3, h4⟩ := h2.runAll VecStore.pushLaw ops h
  exact ⟨s, fs', s', fs'', h1, h3, h4.len_eq⟩

/-- C24 for `DiskStore`. -/
theorem C24_disk {cap : Nat} {ops : List (StoreOp E)} {os : List (StoreObs E)} {a : Arr E}
    (h : Arr.empty.run cap ops = some (os, a)) (fs : FS) :
    ∃ s fs' s' fs'', Store.new (S := DiskStore E) cap fs = (.ok s, fs') ∧
      StoreOp.runAll s ops fs' = (.ok (os, s'), fs'') ∧ len (E := E) s' = a.len := by
  obtain ⟨s, fs', h1, h2⟩ := Agrees.new (S := DiskStore E) (cap := cap) fs
  obtain ⟨s', fs'', h3, h4⟩ := h2.runAll DiskStore.pushLaw ops h
  exact ⟨s, fs', s', fs'', h1, h3, h4.len_eq⟩

/-- C24 for `MmapStore`. -/
theorem C24_mmap {cap : Nat} {ops : List (StoreOp E)} {os : List (StoreObs E)} {a : Arr E}
    (h : Arr.empty.run cap ops = some (os, a)) (fs : FS) :
    ∃ s fs' s' fs'', Store.new (S := MmapStore E) cap fs = (.ok s, fs') ∧
      StoreOp.runAll s ops fs' = (.ok (os, s'), fs'') ∧ len (E := E) s' = a.len := by
  obtain ⟨s, fs', h1, h2⟩ := Agrees.new (S := MmapStore E) (cap := cap) fs
  obtain ⟨s', fs'', h3, h4⟩ := h2.runAll MmapStore.pushLaw ops h
  exact ⟨s, fs', s', fs'', h1, h3, h4.len_eq⟩

/-- The same for a store opened with a configuration whose file does not exist yet. -/
theorem C24_disk_with_config {cap b : Nat} {c : StoreConfig} {ops : List (StoreOp E)}
    {os : List (StoreObs E)} {a : Arr E} (h : Arr.empty.run cap ops = some (os, a)) {fs : FS}
    (hc : fs.file c.file = none) :
    ∃ s fs' s' fs'', Store.newWithConfig (S := DiskStore E) cap b c fs = (.ok s, fs') ∧
      StoreOp.runAll s ops fs' = (.ok (os, s'), fs'') ∧ len (E := E) s' = a.len := by
  obtain ⟨s, fs', h1, h2, h3, _⟩ := LawfulStore.newWithConfig_ok (S := DiskStore E) fs cap b c hc
  have h0 : Agrees fs' s cap (Arr.empty : Arr E) := ⟨h2, h3, fun i e h => by cases h⟩
  obtain ⟨s', fs'', h4, h5⟩ := h0.runAll DiskStore.pushLaw ops h
  exact ⟨s, fs', s', fs'', h1, h4, h5.len_eq⟩

/-- The same for `MmapStore`. -/
theorem C24_mmap_with_config {cap b : Nat} {c : StoreConfig} {ops : List (StoreOp E)}
    {os : List (StoreObs E)} {a : Arr E} (h : Arr.empty.run cap ops = some (os, a)) {fs : FS}
    (hc : fs.file c.file = none) :
    ∃ s fs' s' fs'', Store.newWithConfig (S := MmapStore E) cap b c fs = (.ok s, fs') ∧
      StoreOp.runAll s ops fs' = (.ok (os, s'), fs'') ∧ len (E := E) s' = a.len := by
  obtain ⟨s, fs', h1, h2, h3, _⟩ := LawfulStore.newWithConfig_ok (S := MmapStore E) fs cap b c hc
  have h0 : Agrees fs' s cap (Arr.empty : Arr E) := ⟨h2, h3, fun i e h => by cases h⟩
  obtain ⟨s', fs'', h4, h5⟩ := h0.runAll MmapStore.pushLaw ops h
  exact ⟨s, fs', s', fs'', h1, h4, h5.len_eq⟩

end

/-- A sequence with a gap, an overwriting copy and reads; the array's answers. -/
example : ((Arr.empty : Arr UInt8).run 8
    [.push 5, .write 9 3, .copy [1, 2] 1, .read 3, .range 0 4, .copy [7] 2, .range 1 3, .len]).map
      Prod.fst
    = some [.done, .done, .done, .elem 9, .elems [5, 1, 2, 9], .done, .elems [1, 7], .count 4] := by
  rfl

/-- Reading a gap or past the end, and writing past the capacity, are outside the statement. -/
example : (Arr.empty : Arr UInt8).run 8 [.write 9 3, .read 1] = none ∧
    (Arr.empty : Arr UInt8).run 8 [.read 0] = none ∧
    (Arr.empty : Arr UInt8).run 2 [.write 9 2] = none := ⟨rfl, rfl, rfl⟩

section
variable {E : Type} [Element E] [LawfulElement E]

/-! ### C25 -/

/-- C25: a write that does not fit is refused and changes no file. -/
theorem C25_disk_write {s : DiskStore E} {e : E} {i : Nat}
    (h : s.storeSize < (i + 1) * Element.byteLen E) (fs : FS) :
    ∃ m, writeAt s e i fs = (.error (.err m), fs) := by
  refine ⟨"Requested slice too large", ?_⟩
  have : (i + 1) * Element.byteLen E = i * Element.byteLen E + Element.byteLen E := by ring
  have hl := LawfulElement.length_toBytes e
  show DiskStore.writeAt s e i fs = _
  unfold DiskStore.writeAt DiskStore.storeCopyFromSlice
  exact M.bind_error (M.bind_error (mEnsure_false (by omega) _ _))

/-- C25: a bulk write that does not fit, or is not a whole number of elements, is refused and
changes no file. -/
theorem C25_disk_copy {s : DiskStore E} {buf : Bytes} {start : Nat}
    (h : s.storeSize < start * Element.byteLen E + buf.length ∨
      buf.length % Element.byteLen E ≠ 0) (fs : FS) :
    ∃ m, copyFromSlice s buf start fs = (.error (.err m), fs) := by
  show ∃ m, DiskStore.copyFromSlice s buf start fs = _
  unfold DiskStore.copyFromSlice DiskStore.storeCopyFromSlice
  rw [M.bind_ok (a := buf.length % Element.byteLen E) (fs' := fs)
    (by rw [M.ofRes_run, modP_ok LawfulElement.byteLen_pos])]
  by_cases hr : buf.length % Element.byteLen E = 0
  · rw [M.bind_ok (mEnsure_true hr _ _)]
    exact ⟨_, M.bind_error (M.bind_error (mEnsure_false (by omega) _ _))⟩
  · exact ⟨_, M.bind_error (mEnsure_false hr _ _)⟩

/-- C25: a push into a full store is refused and changes no file. -/
theorem C25_disk_push {s : DiskStore E} {e : E}
    (h : s.storeSize < (s.len + 1) * Element.byteLen E) (fs : FS) :
    ∃ m, push s e fs = (.error (.err m), fs) := by
  refine ⟨"not enough space", ?_⟩
  show DiskStore.push s e fs = _
  unfold DiskStore.push
  exact M.bind_error (mEnsure_false (by omega) _ _)

theorem DiskStore.checkRange_err {s : DiskStore E} {a c : Nat}
    (h : s.len * Element.byteLen E ≤ a ∨ s.len * Element.byteLen E < c) :
    ∃ m, DiskStore.checkRange s a c = .error (.err m) := by
  unfold DiskStore.checkRange
  dsimp only
  by_cases h1 : a < s.len * Element.byteLen E
  · rw [ensure_true h1, Res.ok_bind, ensure_false (by omega)]; exact ⟨_, rfl⟩
  · rw [ensure_false h1]; exact ⟨_, rfl⟩

theorem MmapStore.checkRange_err {s : MmapStore E} {a c : Nat}
    (h : s.len * Element.byteLen E ≤ a ∨ s.len * Element.byteLen E < c) :
    ∃ m, MmapStore.checkRange s a c = .error (.err m) := by
  unfold MmapStore.checkRange
  dsimp only
  by_cases h1 : a < s.len * Element.byteLen E
  · rw [ensure_true h1, Res.ok_bind, ensure_false (by omega)]; exact ⟨_, rfl⟩
  · rw [ensure_false h1]; exact ⟨_, rfl⟩

/-- C25: reading at or beyond the length is refused, whatever the file holds. -/
theorem C25_disk_read {s : DiskStore E} {i : Nat} (h : s.len ≤ i) (fs : FS) (buf : Bytes) :
    (readAt fs s i).IsErr ∧ (readInto (E := E) fs s i buf).IsErr := by
  have h1 : s.len * Element.byteLen E ≤ i * Element.byteLen E := Nat.mul_le_mul_right _ h
  obtain ⟨m, hm⟩ := DiskStore.checkRange_err (s := s)
    (c := i * Element.byteLen E + Element.byteLen E) (.inl h1)
  refine ⟨⟨m, ?_⟩, ⟨m, ?_⟩⟩
  · show DiskStore.readAt fs s i = _
    unfold DiskStore.readAt
    dsimp only
    rw [hm]; rfl
  · show DiskStore.readInto fs s i buf = _
    unfold DiskStore.readInto
    dsimp only
    rw [hm]; rfl

/-- C25: a range that reaches past the length is refused. -/
theorem C25_disk_read_range {s : DiskStore E} {a c : Nat} (h : s.len ≤ a ∨ s.len < c) (fs : FS)
    (buf : Bytes) :
    (readRange fs s a c).IsErr ∧ (readRangeInto (E := E) fs s a c buf).IsErr := by
  have hp := LawfulElement.byteLen_pos (E := E)
  obtain ⟨m, hm⟩ := DiskStore.checkRange_err (s := s) (a := a * Element.byteLen E)
    (c := c * Element.byteLen E)
    (h.imp (Nat.mul_le_mul_right _) (fun h => Nat.mul_lt_mul_of_pos_right h hp))
  refine ⟨⟨m, ?_⟩, ⟨m, ?_⟩⟩
  · show DiskStore.readRange fs s a c = _
    unfold DiskStore.readRange
    dsimp only
    rw [hm]; rfl
  · show DiskStore.readRangeInto fs s a c buf = _
    unfold DiskStore.readRangeInto
    dsimp only
    rw [hm]; rfl

/-- C25: what a successful single read returns comes from the bytes of that element, below `len`. -/
theorem C25_disk_read_at_inside {s : DiskStore E} {fs : FS} {i : Nat} {e : E}
    (h : readAt fs s i = .ok e) : i < s.len ∧ ∃ bs, fs.file s.file = some bs ∧
      e = Element.decode (region bs (i * Element.byteLen E) (Element.byteLen E)) := by
  obtain ⟨h1, bs, h2, _, h3⟩ := DiskStore.readAt_ok_iff.1 h
  exact ⟨h1, bs, h2, h3⟩

/-- C25 for `read_range`: what a successful read returns comes from the bytes of these elements, all
below `len`. -/
theorem C25_disk_read_range_inside {s : DiskStore E} {fs : FS} {a c : Nat} {es : List E}
    (h : readRange fs s a c = .ok es) : a ≤ c ∧ c ≤ s.len ∧ es.length = c - a ∧
      ∃ bs, fs.file s.file = some bs ∧ ∀ j (hj : j < es.length), es[j]
        = Element.decode (region bs ((a + j) * Element.byteLen E) (Element.byteLen E)) := by
  have hp := LawfulElement.byteLen_pos (E := E)
  have h' : DiskStore.readRange fs s a c = .ok es := h
  unfold DiskStore.readRange DiskStore.checkRange DiskStore.storeReadRange at h'
  simp only [bind_ok_iff, ensure_ok_iff, exists_const] at h'
  obtain ⟨⟨h1, h2⟩, r, ⟨n, hn, h3⟩, h4⟩ := h'
  have h1 := Nat.lt_of_mul_lt_mul_right h1
  have h2 := Nat.le_of_mul_le_mul_right h2 hp
  by_cases hac : a ≤ c
  · obtain ⟨bs, hb⟩ : ∃ bs, fs.file s.file = some bs := by
      unfold FS.readExactAt at h3
      simp only [bind_ok_iff, FS.contents_ok_iff] at h3
      obtain ⟨bs, hb, _⟩ := h3
      exact ⟨bs, hb⟩
    rcases Nat.eq_or_lt_of_le hac with rfl | hac
    · have : n = 0 := by rw [subP_ok (Nat.le_refl _)] at hn; cases hn; omega
      subst this
      unfold FS.readExactAt at h3
      rw [FS.contents_ok hb] at h3
      cases h3
      cases h4
      exact ⟨Nat.le_refl _, h2, by simp, bs, hb, fun j hj => by simp at hj⟩
    · have hmul : a * Element.byteLen E < c * Element.byteLen E := Nat.mul_lt_mul_of_pos_right hac hp
      rw [subP_ok (by omega)] at hn
      cases hn
      obtain ⟨bs', h5, h6, rfl⟩ := (readExactAt_ok_iff (by omega)).1 h3
      rw [hb] at h5; cases h5
      have h := (DiskStore.readRange_file hac h2 hb (by omega)).symm.trans h
      rw [decodeAll_region hac (by omega) (fun i _ _ => rfl)] at h
      cases h
      exact ⟨hac.le, h2, by simp, bs, hb, fun j hj => by simp⟩
  · have hmul : c * Element.byteLen E < a * Element.byteLen E :=
      Nat.mul_lt_mul_of_pos_right (by omega) hp
    rw [subP, if_neg (by omega)] at hn
    cases hn

end

/-- C25 fails for `read_into`: with a longer buffer it returns bytes beyond `len`.  Here the store
has room for two elements and holds one, and reading element 0 into a buffer of two bytes fills both
of them. -/
theorem C25_disk_read_into_refuted : ∃ (fs : FS) (s : DiskStore UInt8) (buf r : Bytes),
    len (E := UInt8) s = 1 ∧ readInto (E := UInt8) fs s 0 buf = .ok r ∧
      r.length = 2 ∧ r[1]? = some 7 ∧ buf[1]? = some 0 :=
  ⟨FS.empty.set (.temp 0) (some [5, 7]), ⟨1, .temp 0, false, 2⟩, [0, 0], [5, 7], rfl, rfl, rfl, rfl,
    rfl⟩

/-- The same for every store: once the element lies below `len`, `read_into` returns as many bytes of the
file as the buffer holds, so a buffer longer than the elements up to `len` gets what lies beyond. -/
theorem C25_disk_read_into_exact_refuted {E : Type} [Element E] [LawfulElement E] {fs : FS}
    {s : DiskStore E} {i : Nat} (hi : i < s.len) {bs : Bytes} (hf : fs.file s.file = some bs)
    {buf : Bytes} (hb : i * Element.byteLen E + buf.length ≤ bs.length) :
    ∃ r, readInto (E := E) fs s i buf = .ok r ∧ r.length = buf.length ∧
      ∀ j, j < buf.length → r[j]? = bs[i * Element.byteLen E + j]? := by
  have hp := LawfulElement.byteLen_pos (E := E)
  refine ⟨region bs (i * Element.byteLen E) buf.length, ?_, ?_, fun j hj => ?_⟩
  · show DiskStore.readInto fs s i buf = _
    unfold DiskStore.readInto DiskStore.checkRange DiskStore.storeReadInto
    dsimp only
    rw [ensure_true (Nat.mul_lt_mul_of_pos_right hi hp), Res.ok_bind, ensure_true (by
      rw [← Nat.succ_mul]; exact Nat.mul_le_mul_right _ hi), Res.ok_bind, readExactAt_ok hf hb]
    rfl
  · simp only [region, List.length_take, List.length_drop]; omega
  · simp only [region]
    rw [List.getElem?_take_of_lt hj, List.getElem?_drop]

/-- The same with a store made by `new` and one `push`: the byte beyond is the file's zero filling. -/
example : ∃ s fs, (do
    let s : DiskStore UInt8 ← DiskStore.new 2
    push s (5 : UInt8)) FS.empty = (.ok s, fs) ∧ len (E := UInt8) s = 1 ∧
      readInto (E := UInt8) fs s 0 [9, 9] = .ok [5, 0] := ⟨_, _, rfl, rfl, rfl⟩

section
variable {E : Type} [Element E] [LawfulElement E]

/-- C25 for `MmapStore`: reading at or beyond the length is refused. -/
theorem C25_mmap_read {s : MmapStore E} {i : Nat} (h : s.len ≤ i) (fs : FS) (buf : Bytes) :
    (readAt fs s i).IsErr ∧ (readInto (E := E) fs s i buf).IsErr := by
  have h1 : s.len * Element.byteLen E ≤ i * Element.byteLen E := Nat.mul_le_mul_right _ h
  obtain ⟨m, hm⟩ := MmapStore.checkRange_err (s := s)
    (c := i * Element.byteLen E + Element.byteLen E) (.inl h1)
  refine ⟨⟨m, ?_⟩, ⟨m, ?_⟩⟩
  · show MmapStore.readAt fs s i = _
    unfold MmapStore.readAt
    dsimp only
    rw [hm]; rfl
  · show MmapStore.readInto fs s i buf = _
    unfold MmapStore.readInto
    dsimp only
    rw [hm]; rfl

/-- C25 for `MmapStore::read_range`. -/
theorem C25_mmap_read_range {s : MmapStore E} {a c : Nat} (h : s.len ≤ a ∨ s.len < c) (fs : FS) :
    (readRange fs s a c).IsErr := by
  have hp := LawfulElement.byteLen_pos (E := E)
  obtain ⟨m, hm⟩ := MmapStore.checkRange_err (s := s) (a := a * Element.byteLen E)
    (c := c * Element.byteLen E)
    (h.imp (Nat.mul_le_mul_right _) (fun h => Nat.mul_lt_mul_of_pos_right h hp))
  refine ⟨m, ?_⟩
  show MmapStore.readRange fs s a c = _
  unfold MmapStore.readRange
  dsimp only
  rw [hm]; rfl

/-- C25 for `MmapStore::push`. -/
theorem C25_mmap_push {s : MmapStore E} {e : E} {n : Nat} (hn : s.map = some n)
    (h : n < (s.len + 1) * Element.byteLen E) (fs : FS) :
    ∃ m, push s e fs = (.error (.err m), fs) := by
  refine ⟨"not enough space", ?_⟩
  show MmapStore.push s e fs = _
  unfold MmapStore.push
  rw [M.bind_ok (a := s) (fs' := fs) (by unfold MmapStore.ensureMap; rw [hn]; rfl)]
  exact M.bind_error (mEnsure_false (by rw [hn]; show ¬ _ ≤ n; omega) _ _)

/-- `MmapStore::write_at` and `copy_from_slice` past the end of the map panic instead of returning an
error (the property only promises an error for `DiskStore`); no file changes. -/
theorem C25_mmap_write_panics {s : MmapStore E} {e : E} {i n : Nat} (hn : s.map = some n)
    (h : n < (i + 1) * Element.byteLen E) (fs : FS) :
    ∃ m, writeAt s e i fs = (.error (.panic m), fs) := by
  have : (i + 1) * Element.byteLen E = i * Element.byteLen E + Element.byteLen E := by ring
  have hl := LawfulElement.length_toBytes e
  refine ⟨"range end index out of range for slice", ?_⟩
  show MmapStore.writeAt s e i fs = _
  unfold MmapStore.writeAt
  rw [M.bind_ok (a := s) (fs' := fs) (by unfold MmapStore.ensureMap; rw [hn]; rfl), if_pos hl]
  apply M.bind_error
  unfold MmapStore.mapWrite
  rw [hn]
  dsimp only
  rw [if_neg (by omega)]
  rfl

/-! ### C50 -/

/-- C50 for `VecStore`: a range read returns the elements single reads return, in order. -/
theorem C50_vec_read_range {fs : FS} {t : BaseTree (VecStore E) E} {a c : Nat} (hac : a < c)
    {f : Nat → E} (h : ∀ i, a ≤ i → i < c → t.readAt fs i = .ok (f i)) :
    t.readRange fs a c = .ok ((List.range (c - a)).map fun j => f (a + j)) := by
  unfold BaseTree.readRange
  rw [ensure_true hac, Res.ok_bind]
  have key : ∀ i, a ≤ i → i < c → t.store.els[i]? = some (f i) := by
    intro i h1 h2
    have h3 : idxP t.store.els i = .ok (f i) := h i h1 h2
    unfold idxP at h3
    split at h3
    · rename_i e he; cases h3; exact he
    · cases h3
  have hc : c ≤ t.store.els.length := by
    have := (List.getElem?_eq_some_iff.1 (key (c - 1) (by omega) (by omega))).1
    omega
  show VecStore.readRange t.store a c = _
  unfold VecStore.readRange
  rw [if_pos ⟨hac.le, hc⟩]
  congr 1
  apply List.ext_getElem?
  intro j
  simp only [List.getElem?_take, List.getElem?_drop, List.getElem?_map]
  split
  · rename_i hj
    rw [key (a + j) (by omega) (by omega)]; simp [hj]
  · rename_i hj; simp [hj]

/-- C50 for `DiskStore`. -/
theorem C50_disk_read_range {fs : FS} {t : BaseTree (DiskStore E) E} {a c : Nat} (hac : a < c)
    {f : Nat → E} (h : ∀ i, a ≤ i → i < c → t.readAt fs i = .ok (f i)) :
    t.readRange fs a c = .ok ((List.range (c - a)).map fun j => f (a + j)) := by
  unfold BaseTree.readRange
  rw [ensure_true hac, Res.ok_bind]
  obtain ⟨h1, bs, h2, h3, _⟩ := DiskStore.readAt_ok_iff.1 (h (c - 1) (by omega) (by omega))
  rw [show c - 1 + 1 = c by omega] at h3
  refine (DiskStore.readRange_file hac (by omega) h2 h3).trans (decodeAll_region hac h3 ?_)
  intro i h4 h5
  obtain ⟨_, bs', g2, _, g3⟩ := DiskStore.readAt_ok_iff.1 (h i h4 h5)
  rw [h2] at g2; cases g2
  exact g3

/-- C50 for `MmapStore`. -/
theorem C50_mmap_read_range {fs : FS} {t : BaseTree (MmapStore E) E} {a c : Nat} (hac : a < c)
    {f : Nat → E} (h : ∀ i, a ≤ i → i < c → t.readAt fs i = .ok (f i)) :
    t.readRange fs a c = .ok ((List.range (c - a)).map fun j => f (a + j)) := by
  unfold BaseTree.readRange
  rw [ensure_true hac, Res.ok_bind]
  obtain ⟨h1, n, hn, hn2, bs, h2, h3, _⟩ :=
    MmapStore.readAt_ok_iff.1 (h (c - 1) (by omega) (by omega))
  rw [show c - 1 + 1 = c by omega] at h3 hn2
  refine (MmapStore.readRange_file hac (by omega) hn hn2 h2 h3).trans (decodeAll_region hac h3 ?_)
  intro i h4 h5
  obtain ⟨_, _, _, _, bs', g2, _, g3⟩ := MmapStore.readAt_ok_iff.1 (h i h4 h5)
  rw [h2] at g2; cases g2
  exact g3

/-- C50 for `read_range_into` on a `DiskStore`: a buffer of exactly the range's length is filled with
bytes that decode to these elements; if distinct byte strings decode to distinct elements they are
the elements' bytes. -/
theorem C50_disk_read_range_into {fs : FS} {t : BaseTree (DiskStore E) E} {a c : Nat} (hac : a < c)
    {f : Nat → E} (h : ∀ i, a ≤ i → i < c → t.readAt fs i = .ok (f i)) {buf : Bytes}
    (hb : buf.length = (c - a) * Element.byteLen E) :
    ∃ r, t.readRangeInto fs a c buf = .ok r ∧ r.length = buf.length ∧
      decodeAll r = .ok ((List.range (c - a)).map fun j => f (a + j)) ∧
      ((∀ bs : Bytes, bs.length = Element.byteLen E → Element.toBytes (Element.decode bs : E) = bs) →
        r = encodeAll ((List.range (c - a)).map fun j => f (a + j))) := by
  obtain ⟨h1, bs, h2, h3, _⟩ := DiskStore.readAt_ok_iff.1 (h (c - 1) (by omega) (by omega))
  rw [show c - 1 + 1 = c by omega] at h3
  have e2 : a * Element.byteLen E + (c - a) * Element.byteLen E = c * Element.byteLen E := by
    rw [← Nat.add_mul]; congr 1; omega
  have key : ∀ i, a ≤ i → i < c →
      f i = Element.decode (region bs (i * Element.byteLen E) (Element.byteLen E)) := by
    intro i h4 h5
    obtain ⟨_, bs', g2, _, g3⟩ := DiskStore.readAt_ok_iff.1 (h i h4 h5)
    rw [h2] at g2; cases g2
    exact g3
  refine ⟨region bs (a * Element.byteLen E) ((c - a) * Element.byteLen E), ?_, ?_,
    decodeAll_region hac h3 key, ?_⟩
  · unfold BaseTree.readRangeInto
    rw [ensure_true hac, Res.ok_bind]
    exact DiskStore.readRangeInto_eq hac (by omega) h2 h3 hb
  · rw [region_len (by omega), hb]
  · intro hcanon
    have : ∀ m, m ≤ c - a → region bs (a * Element.byteLen E) (m * Element.byteLen E)
        = encodeAll ((List.range m).map fun j => f (a + j)) := by
      intro m
      induction m with
      | zero => intro _; simp [region, encodeAll]
      | succ m ih =>
        intro hm
        have e3 : (a + m + 1) * Element.byteLen E ≤ c * Element.byteLen E :=
          Nat.mul_le_mul_right _ (by omega)
        have e4 : (a + m + 1) * Element.byteLen E
          = (a + m) * Element.byteLen E + Element.byteLen E := by ring
        rw [Nat.add_mul, Nat.one_mul, region_add, ih (by omega), List.range_succ, List.map_append,
          encodeAll_append]
        congr 1
        rw [List.map_singleton, encodeAll_single, key (a + m) (by omega) (by omega), hcanon]
        · rw [Nat.add_mul]
        · exact region_len (by omega)
    exact this _ (Nat.le_refl _)

/-- C50 for `read_into` on a `DiskStore`. -/
theorem C50_disk_read_into {fs : FS} {t : BaseTree (DiskStore E) E} {i : Nat} {e : E}
    (h : t.readAt fs i = .ok e) {buf : Bytes} (hb : buf.length = Element.byteLen E) :
    ∃ r, t.readInto fs i buf = .ok r ∧ r.length = buf.length ∧ Element.fromSlice r = .ok e := by
  have hp := LawfulElement.byteLen_pos (E := E)
  obtain ⟨h1, bs, h2, h3, h4⟩ := DiskStore.readAt_ok_iff.1 h
  have e1 : (i + 1) * Element.byteLen E = i * Element.byteLen E + Element.byteLen E := by ring
  have e2 : (i + 1) * Element.byteLen E ≤ t.store.len * Element.byteLen E :=
    Nat.mul_le_mul_right _ h1
  refine ⟨region bs (i * Element.byteLen E) (Element.byteLen E), ?_, ?_, ?_⟩
  · show DiskStore.readInto fs t.store i buf = _
    unfold DiskStore.readInto DiskStore.storeReadInto
    dsimp only
    rw [DiskStore.checkRange_ok (by omega) (by omega), Res.ok_bind, hb,
      readExactAt_ok h2 (by omega), readContext_ok]
  · rw [region_len (by omega), hb]
  · rw [fromSlice_decode (region_len (by omega)), h4]

/-- C50 for `read_into` on a `VecStore`. -/
theorem C50_vec_read_into {fs : FS} {t : BaseTree (VecStore E) E} {i : Nat} {e : E}
    (h : t.readAt fs i = .ok e) {buf : Bytes} (hb : buf.length = Element.byteLen E) :
    t.readInto fs i buf = .ok (Element.toBytes e) := by
  have h' : idxP t.store.els i = .ok e := h
  show VecStore.readInto t.store i buf = _
  unfold VecStore.readInto
  rw [h', Res.ok_bind, Element.copyToSlice, if_pos hb]

/-- C50 for `read_into` on an `MmapStore`. -/
theorem C50_mmap_read_into {fs : FS} {t : BaseTree (MmapStore E) E} {i : Nat} {e : E}
    (h : t.readAt fs i = .ok e) {buf : Bytes} (hb : buf.length = Element.byteLen E) :
    ∃ r, t.readInto fs i buf = .ok r ∧ r.length = buf.length ∧ Element.fromSlice r = .ok e := by
  have hp := LawfulElement.byteLen_pos (E := E)
  obtain ⟨h1, n, hn, hn2, bs, h2, h3, h4⟩ := MmapStore.readAt_ok_iff.1 h
  have e1 : (i + 1) * Element.byteLen E = i * Element.byteLen E + Element.byteLen E := by ring
  have e2 : (i + 1) * Element.byteLen E ≤ t.store.len * Element.byteLen E :=
    Nat.mul_le_mul_right _ h1
  have hr : (region bs (i * Element.byteLen E) (Element.byteLen E)).length = Element.byteLen E :=
    region_len (by omega)
  refine ⟨region bs (i * Element.byteLen E) (Element.byteLen E), ?_, by rw [hr, hb], ?_⟩
  · show MmapStore.readInto fs t.store i buf = _
    unfold MmapStore.readInto MmapStore.mapRead
    dsimp only
    rw [MmapStore.checkRange_ok (by omega) (by omega), Res.ok_bind, hn]
    dsimp only
    rw [if_pos ⟨by omega, by omega⟩, FS.contents_ok h2, Res.ok_bind, if_pos (by omega),
      Nat.add_sub_cancel_left, Res.ok_bind, if_pos (by rw [hr, hb])]
  · rw [fromSlice_decode hr, h4]

/-- C50: `read_into` of an element that can be read, into a buffer of another length, panics on a
`VecStore`. -/
theorem C50_vec_read_into_length {fs : FS} {t : BaseTree (VecStore E) E} {i : Nat} {e : E}
    (h : t.readAt fs i = .ok e) {buf : Bytes} (hb : buf.length ≠ Element.byteLen E) :
    ∃ m, t.readInto fs i buf = .error (.panic m) := by
  have h' : idxP t.store.els i = .ok e := h
  refine ⟨"source slice length does not match destination slice length", ?_⟩
  · show VecStore.readInto t.store i buf = _
    unfold VecStore.readInto
    rw [h', Res.ok_bind, Element.copyToSlice, if_neg hb]

/-- C50: and on an `MmapStore`. -/
theorem C50_mmap_read_into_length {fs : FS} {t : BaseTree (MmapStore E) E} {i : Nat} {e : E}
    (h : t.readAt fs i = .ok e) {buf : Bytes} (hb : buf.length ≠ Element.byteLen E) :
    ∃ m, t.readInto fs i buf = .error (.panic m) := by
  have hp := LawfulElement.byteLen_pos (E := E)
  obtain ⟨h1, n, hn, hn2, bs, h2, h3, h4⟩ := MmapStore.readAt_ok_iff.1 h
  have e1 : (i + 1) * Element.byteLen E = i * Element.byteLen E + Element.byteLen E := by ring
  have e2 : (i + 1) * Element.byteLen E ≤ t.store.len * Element.byteLen E :=
    Nat.mul_le_mul_right _ h1
  have hr : (region bs (i * Element.byteLen E) (Element.byteLen E)).length = Element.byteLen E :=
    region_len (by omega)
  refine ⟨"source slice length does not match destination slice length", ?_⟩
  · show MmapStore.readInto fs t.store i buf = _
    unfold MmapStore.readInto MmapStore.mapRead
    dsimp only
    rw [MmapStore.checkRange_ok (by omega) (by omega), Res.ok_bind, hn]
    dsimp only
    rw [if_pos ⟨by omega, by omega⟩, FS.contents_ok h2, Res.ok_bind, if_pos (by omega),
      Nat.add_sub_cancel_left, Res.ok_bind, if_neg (by rw [hr]; exact Ne.symm hb)]

/-- C50: requests out of range are refused by `DiskStore` trees. -/
theorem C50_disk_out_of_range {fs : FS} {t : BaseTree (DiskStore E) E} {a c : Nat}
    (h : c ≤ a ∨ t.length < c) (buf : Bytes) :
    (t.readRange fs a c).IsErr ∧ (t.readRangeInto fs a c buf).IsErr := by
  unfold BaseTree.readRange BaseTree.readRangeInto
  by_cases hac : a < c
  · have hl : t.store.len < c := by
      rcases h with h | h
      · omega
      · exact h
    obtain ⟨h1, h2⟩ := C25_disk_read_range (s := t.store) (a := a) (c := c) (.inr hl) fs buf
    rw [ensure_true hac]
    exact ⟨h1, h2⟩
  · rw [ensure_false hac]
    exact ⟨⟨_, rfl⟩, ⟨_, rfl⟩⟩

/-- C50: requests out of range are refused by `MmapStore` trees. -/
theorem C50_mmap_out_of_range {fs : FS} {t : BaseTree (MmapStore E) E} {a c : Nat}
    (h : c ≤ a ∨ t.length < c) : (t.readRange fs a c).IsErr := by
  unfold BaseTree.readRange
  by_cases hac : a < c
  · have hl : t.store.len < c := by
      rcases h with h | h
      · omega
      · exact h
    rw [ensure_true hac]
    exact C25_mmap_read_range (s := t.store) (a := a) (c := c) (.inr hl) fs
  · rw [ensure_false hac]
    exact ⟨_, rfl⟩

/-- C50: a compound tree refuses every range read. -/
theorem C50_compound {S : Type} [StoreOps S E] {fs : FS} {n : Node (BaseTree S E) E} (a c : Nat) :
    ((Tree1.sub n).readRange fs a c).IsErr := by
  unfold Tree1.readRange
  by_cases hac : a < c
  · rw [ensure_true hac]; exact ⟨_, rfl⟩
  · rw [ensure_false hac]; exact ⟨_, rfl⟩

/-- C50 fails for `VecStore` out of range: the call panics. -/
theorem C50_vec_out_of_range_refuted {fs : FS} {t : BaseTree (VecStore E) E} {a c : Nat}
    (hac : a < c) (h : t.length < c) : ∃ m, t.readRange fs a c = .error (.panic m) := by
  have h : t.store.els.length < c := h
  refine ⟨"range out of bounds", ?_⟩
  unfold BaseTree.readRange
  rw [ensure_true hac, Res.ok_bind]
  show VecStore.readRange t.store a c = _
  unfold VecStore.readRange
  rw [if_neg (by omega)]

/-- C50 fails for `read_range_into` on `VecStore` and `MmapStore` trees: it is not implemented and
panics for every non-empty range. -/
theorem C50_read_range_into_refuted {fs : FS} (t : BaseTree (VecStore E) E)
    (t' : BaseTree (MmapStore E) E) {a c : Nat} (hac : a < c) (buf : Bytes) :
    (∃ m, t.readRangeInto fs a c buf = .error (.panic m)) ∧
    (∃ m, t'.readRangeInto fs a c buf = .error (.panic m)) := by
  unfold BaseTree.readRangeInto
  rw [ensure_true hac]
  exact ⟨⟨_, rfl⟩, ⟨_, rfl⟩⟩

end

/-- A disk tree whose reads succeed, and the corresponding range read. -/
example : ∃ (fs : FS) (t : BaseTree (DiskStore UInt8) UInt8),
    t.readAt fs 0 = .ok 5 ∧ t.readAt fs 1 = .ok 6 ∧ t.readAt fs 2 = .ok 7 ∧
      t.readRange fs 1 3 = .ok [6, 7] ∧ t.readRangeInto fs 1 3 [0, 0] = .ok [6, 7] :=
  ⟨FS.empty.set (.temp 0) (some [5, 6, 7]), ⟨⟨3, .temp 0, false, 3⟩, 2, 3, 2, 7⟩, rfl, rfl, rfl,
    rfl, rfl⟩

/-- A mapped tree: a buffer of the right length is filled, a longer one panics. -/
example : ∃ (fs : FS) (t : BaseTree (MmapStore UInt8) UInt8),
    t.readAt fs 1 = .ok 6 ∧ t.readInto fs 1 [0] = .ok [6] ∧
      ∃ m, t.readInto fs 1 [0, 0] = .error (.panic m) := by
  exact ⟨FS.empty.set (.temp 0) (some [5, 6, 7]), ⟨⟨some 3, .temp 0, 3⟩, 2, 3, 2, 7⟩, rfl, rfl,
    C50_mmap_read_into_length (e := 6) rfl (by decide)⟩

end Verif
