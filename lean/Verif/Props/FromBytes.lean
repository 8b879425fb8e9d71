import Verif.Props.LevelWrites
import Verif.Lemmas.Reopen
import Verif.Props.TreeSlice
/-
C68: stores made from bytes (`new_from_slice`, `new_from_slice_with_config`) and trees made from bytes
that are not a whole number of elements.
-/
set_option linter.unusedSectionVars false
namespace Verif
open Spec StoreOps LawfulWrite LawfulRead

section
variable {E : Type} [Element E] [LawfulElement E] [FloatRows]

/-- C68, for `VecStore`, `DiskStore` and `MmapStore`: `new_from_slice` with the bytes of at most `size`
elements makes a store of exactly these elements.  Apart from temporary files created in the call no file
changes. -/
theorem C68_new_ok {S : Type} [Store S E] [LawfulStore S E] (fs : FS) {size : Nat} {es : List E}
    (h : es.length ≤ size) :
    ∃ s fs', Store.newFromSlice (S := S) size (encodeAll es) fs = (.ok s, fs') ∧
      len (E := E) s = es.length ∧ (∀ i (hi : i < es.length), readAt fs' s i = .ok es[i]) ∧
      ∀ f, ¬ NewTemp fs fs' f → fs'.file f = fs.file f := by
  obtain ⟨s, fs', h1, h2, h3⟩ := LawfulStore.newFromSlice_ok (S := S) fs size es Element.default h
  refine ⟨s, fs', h1, h2.len_eq, fun i hi => ?_, fun f hf => h3.same f fun ho => hf (h3.own f ho)⟩
  rw [readAt_ok h2.inv (by rw [h2.len_eq]; exact hi) (h2.vals i hi), getD_of_lt hi]

/-- C68, `new_from_slice_with_config`, when the configuration's file does not exist: the same, and only
that file changes. -/
theorem C68_with_config_ok {S : Type} [Store S E] [LawfulStore S E] (fs : FS) {size b : Nat}
    {es : List E} {c : StoreConfig} (hc : fs.file c.file = none) (h : es.length ≤ size) :
    ∃ s fs', Store.newFromSliceWithConfig (S := S) size b (encodeAll es) c fs = (.ok s, fs') ∧
      len (E := E) s = es.length ∧ (∀ i (hi : i < es.length), readAt fs' s i = .ok es[i]) ∧
      ∀ f, f ≠ c.file → fs'.file f = fs.file f := by
  obtain ⟨s, fs', h1, h2, h3⟩ := LawfulStore.newFromSliceWithConfig_ok (S := S) fs size b es
    Element.default c hc h
  refine ⟨s, fs', h1, h2.len_eq, fun i hi => ?_, fun f hf => h3.same f fun ho => hf (h3.own f ho)⟩
  rw [readAt_ok h2.inv (by rw [h2.len_eq]; exact hi) (h2.vals i hi), getD_of_lt hi]

/-! ### Bytes that are not whole elements -/

/-- C68: bytes that are not a whole number of elements are refused by the stores with files, and no file
is created or changed. -/
theorem C68_partial_element (fs : FS) (size b : Nat) {data : Bytes} (c : StoreConfig)
    (h : data.length % Element.byteLen E ≠ 0) :
    (∃ m, Store.newFromSlice (S := DiskStore E) size data fs = (.error (.err m), fs)) ∧
    (∃ m, Store.newFromSlice (S := MmapStore E) size data fs = (.error (.err m), fs)) ∧
    (∃ m, Store.newFromSlice (S := LevelCacheStore E) size data fs = (.error (.err m), fs)) ∧
    (∃ m, Store.newFromSliceWithConfig (S := DiskStore E) size b data c fs = (.error (.err m), fs)) ∧
    (∃ m, Store.newFromSliceWithConfig (S := MmapStore E) size b data c fs = (.error (.err m), fs)) ∧
    ∃ m, Store.newFromSliceWithConfig (S := LevelCacheStore E) size b data c fs
      = (.error (.err m), fs) := by
  have hm : (M.ofRes (modP data.length (Element.byteLen E)) : M Nat) fs
      = (.ok (data.length % Element.byteLen E), fs) := by
    rw [M.ofRes_run, modP_ok LawfulElement.byteLen_pos]
  refine ⟨⟨"data size must be a multiple of byte_len", ?_⟩,
    ⟨"data size must be a multiple of byte_len", ?_⟩, ⟨"data size must be a multiple of byte_len", ?_⟩,
    ⟨"data size must be a multiple of byte_len", ?_⟩, ⟨"data size must be a multiple of byte_len", ?_⟩,
    ⟨"data size must be a multiple of byte_len", ?_⟩⟩
  all_goals
    refine (M.bind_ok hm).trans ?_
    exact M.bind_error (mEnsure_false h _ _)

/-- C68 fails for `VecStore`: the bytes after the last whole element are dropped without notice. -/
theorem C68_vec_partial_refuted (fs : FS) {size : Nat} {es : List E} {rest : Bytes}
    (hr : rest.length < Element.byteLen E) (h : es.length ≤ size) :
    Store.newFromSlice (S := VecStore E) size (encodeAll es ++ rest) fs = (.ok ⟨es⟩, fs) := by
  have hp := LawfulElement.byteLen_pos (E := E)
  show VecStore.newFromSlice size (encodeAll es ++ rest) fs = _
  have e : chunksExact (Element.byteLen E) (encodeAll es ++ rest)
      = chunksExact (Element.byteLen E) (encodeAll es) := by
    unfold chunksExact
    have : (encodeAll es ++ rest).length / Element.byteLen E = es.length := by
      rw [List.length_append, length_encodeAll, Nat.add_comm, Nat.add_mul_div_right _ _ hp,
        Nat.div_eq_of_lt hr, Nat.zero_add]
    rw [this, div_encodeAll, ← length_encodeAll, List.take_left', List.take_length]
    rfl
  unfold VecStore.newFromSlice
  rw [if_neg LawfulElement.byteLen_pos.ne', Res.ok_bind]
  rw [e, M.ofRes_run, chunksExact_encodeAll, Res.ok_bind, subP_ok h]
  rfl

/-- C68: `copy_from_slice` of bytes that are not a whole number of elements is refused by every store,
which stays as it is. -/
theorem C68_copy_partial_element (fs : FS) {data : Bytes} (start : Nat)
    (h : data.length % Element.byteLen E ≠ 0) :
    (∀ s : VecStore E, ∃ m, copyFromSlice (E := E) s data start fs = (.error (.err m), fs)) ∧
    (∀ s : DiskStore E, ∃ m, copyFromSlice (E := E) s data start fs = (.error (.err m), fs)) ∧
    (∀ s : MmapStore E, ∃ m, copyFromSlice (E := E) s data start fs = (.error (.err m), fs)) ∧
    ∀ s : LevelCacheStore E, ∃ m, copyFromSlice (E := E) s data start fs = (.error (.err m), fs) := by
  have hm : (M.ofRes (modP data.length (Element.byteLen E)) : M Nat) fs
      = (.ok (data.length % Element.byteLen E), fs) := by
    rw [M.ofRes_run, modP_ok LawfulElement.byteLen_pos]
  refine ⟨fun s => ⟨"buf size must be a multiple of byte_len", ?_⟩,
    fun s => ⟨"buf size must be a multiple of elem_len", ?_⟩,
    fun s => ⟨"buf size must be a multiple of byte_len", ?_⟩,
    fun s => ⟨"buf size must be a multiple of elem_len", ?_⟩⟩
  all_goals
    refine (M.bind_ok hm).trans ?_
    exact M.bind_error (mEnsure_false h _ _)

/-- C68, for trees: `from_byte_slice` and `from_byte_slice_with_config` refuse bytes that are not a whole
number of leaves, for every kind of store and every arity, and touch no file. -/
theorem C68_from_byte_slice {S : Type} [Store S E] (A : Alg E) (b : Nat) (σ : Sched) {data : Bytes}
    (fs : FS) (h : data.length % Element.byteLen E ≠ 0) :
    ∃ m, BaseTree.fromByteSlice (S := S) A b σ data fs = (.error (.err m), fs) ∧
      ∀ c, BaseTree.fromByteSliceWithConfig (S := S) A b σ data c fs = (.error (.err m), fs) := by
  have hm : (M.ofRes (BaseTree.sliceLeafs E data) : M Nat) fs
      = (.error (.err "not a multiple of byte_len"), fs) := by
    rw [M.ofRes_run]
    unfold BaseTree.sliceLeafs
    rw [modP_ok LawfulElement.byteLen_pos, Res.ok_bind, ensure_false h]
    rfl
  exact ⟨_, M.bind_error hm, fun c => M.bind_error hm⟩

/-! ### More bytes than there is room for -/

/-- C68: `DiskStore::new_from_slice` and `LevelCacheStore::new_from_slice` refuse more elements than they
have room for; no file but a temporary one is created or changed. -/
theorem C68_too_long (fs : FS) {size : Nat} {es : List E} (h : size < es.length) :
    (∃ m fs', Store.newFromSlice (S := DiskStore E) size (encodeAll es) fs = (.error (.err m), fs') ∧
      ∀ f, ¬ NewTemp fs fs' f → fs'.file f = fs.file f) ∧
    ∃ m fs', Store.newFromSlice (S := LevelCacheStore E) size (encodeAll es) fs
        = (.error (.err m), fs') ∧ ∀ f, ¬ NewTemp fs fs' f → fs'.file f = fs.file f := by
  have hp := LawfulElement.byteLen_pos (E := E)
  have hl : ¬ 0 + (encodeAll es).length ≤ Element.byteLen E * size := by
    rw [Nat.zero_add, length_encodeAll, Nat.mul_comm (Element.byteLen E)]
    exact Nat.not_le.2 (Nat.mul_lt_mul_of_pos_right h hp)
  obtain ⟨fs1, h1, h2, h3, h4⟩ := createTemp_run fs
  obtain ⟨fs2, g1, g2, g3, g4⟩ := setLen_empty fs1 (Element.byteLen E * size) h2
  have hsame : ∀ f, ¬ NewTemp fs fs2 f → fs2.file f = fs.file f := fun f hf => by
    have : f ≠ .temp fs.nextTemp := fun e => hf ⟨_, e, Nat.le_refl _, by omega⟩
    rw [g3 f this, h3 f this]
  refine ⟨⟨"Requested slice too large", fs2, ?_, hsame⟩, ⟨"Requested slice too large", fs2, ?_, hsame⟩⟩
  · show DiskStore.newFromSlice size (encodeAll es) fs = _
    unfold DiskStore.newFromSlice DiskStore.new DiskStore.storeCopyFromSlice
    rw [M.bind_ok (a := 0) (fs' := fs) (by rw [M.ofRes_run, modP_encodeAll]),
      M.bind_ok (mEnsure_true rfl _ _),
      M.bind_ok (a := (⟨0, .temp fs.nextTemp, false, Element.byteLen E * size⟩ : DiskStore E))
        (fs' := fs2) (by rw [M.bind_ok h1, M.bind_ok g1]; rfl)]
    exact M.bind_error (M.bind_error (mEnsure_false hl _ _))
  · show LevelCacheStore.newFromSlice size (encodeAll es) fs = _
    unfold LevelCacheStore.newFromSlice LevelCacheStore.new LevelCacheStore.storeCopyFromSlice
    rw [M.bind_ok (a := 0) (fs' := fs) (by rw [M.ofRes_run, modP_encodeAll]),
      M.bind_ok (mEnsure_true rfl _ _),
      M.bind_ok (a := (⟨0, .temp fs.nextTemp, size, 0, false, Element.byteLen E * size, none⟩ :
        LevelCacheStore E)) (fs' := fs2) (by rw [M.bind_ok h1, M.bind_ok g1]; rfl)]
    exact M.bind_error (M.bind_error (mEnsure_false hl _ _))

/-- C68 fails for `VecStore` and `MmapStore`: they panic. -/
theorem C68_too_long_refuted (fs : FS) {size : Nat} {es : List E} (h : size < es.length) :
    (∃ m, (Store.newFromSlice (S := VecStore E) size (encodeAll es) fs).1 = .error (.panic m)) ∧
    ∃ m, (Store.newFromSlice (S := MmapStore E) size (encodeAll es) fs).1 = .error (.panic m) := by
  have hp := LawfulElement.byteLen_pos (E := E)
  have hl : ¬ 0 + (encodeAll es).length ≤ Element.byteLen E * size := by
    rw [Nat.zero_add, length_encodeAll, Nat.mul_comm (Element.byteLen E)]
    exact Nat.not_le.2 (Nat.mul_lt_mul_of_pos_right h hp)
  constructor
  · show ∃ m, (VecStore.newFromSlice size (encodeAll es) fs).1 = _
    unfold VecStore.newFromSlice
    rw [if_neg LawfulElement.byteLen_pos.ne', Res.ok_bind]
    rw [M.ofRes_run, chunksExact_encodeAll, Res.ok_bind]
    unfold subP
    rw [if_neg (by omega)]
    exact ⟨_, rfl⟩
  · obtain ⟨fs1, h1, h2, h3, h4⟩ := MmapStore.new_run (E := E) fs size
    refine ⟨"range end index out of range for slice", ?_⟩
    show (MmapStore.newFromSlice size (encodeAll es) fs).1 = _
    unfold MmapStore.newFromSlice
    rw [M.bind_ok (a := 0) (fs' := fs) (by rw [M.ofRes_run, modP_encodeAll]),
      M.bind_ok (mEnsure_true rfl _ _), M.bind_ok h1, M.bind_error (e := .panic _) (fs' := fs1) (by
        unfold MmapStore.mapWrite
        dsimp only
        rw [if_neg hl]
        rfl)]

/-- C68 fails for `DiskStore::new_from_slice_with_config`: the refusal comes after the file has been
created.  The same call again is accepted: it opens the file full of zeros and ignores the elements. -/
theorem C68_too_long_with_config_refuted {fs : FS} {size b : Nat} {es : List E} {c : StoreConfig}
    (hc : fs.file c.file = none) (h : size < es.length) :
    ∃ m fs', Store.newFromSliceWithConfig (S := DiskStore E) size b (encodeAll es) c fs
        = (.error (.err m), fs') ∧
      fs'.file c.file = some (List.replicate (Element.byteLen E * size) 0) ∧
      ∃ s, Store.newFromSliceWithConfig (S := DiskStore E) size b (encodeAll es) c fs'
        = (.ok s, fs') ∧ len (E := E) s = size := by
  have hp := LawfulElement.byteLen_pos (E := E)
  have hl : ¬ 0 + (encodeAll es).length ≤ Element.byteLen E * size := by
    rw [Nat.zero_add, length_encodeAll, Nat.mul_comm (Element.byteLen E)]
    exact Nat.not_le.2 (Nat.mul_lt_mul_of_pos_right h hp)
  obtain ⟨fs1, h1, h2, h3, h4⟩ := DiskStore.newWithConfig_run (E := E) fs size b c hc
  refine ⟨"Requested slice too large", fs1, ?_, h2, ⟨size, c.file, true, size * Element.byteLen E⟩,
    ?_, rfl⟩
  · show DiskStore.newFromSliceWithConfig size b (encodeAll es) c fs = _
    unfold DiskStore.newFromSliceWithConfig
    rw [M.bind_ok (a := 0) (fs' := fs) (by rw [M.ofRes_run, modP_encodeAll]),
      M.bind_ok (mEnsure_true rfl _ _), M.bind_ok h1]
    simp only [Bool.false_eq_true, ↓reduceIte]
    exact M.bind_error (M.bind_error (mEnsure_false hl _ _))
  · show DiskStore.newFromSliceWithConfig size b (encodeAll es) c fs1 = _
    unfold DiskStore.newFromSliceWithConfig
    rw [M.bind_ok (a := 0) (fs' := fs1) (by rw [M.ofRes_run, modP_encodeAll]),
      M.bind_ok (mEnsure_true rfl _ _), M.bind_ok ((DiskStore.newWithConfig_existing h2).trans
        (DiskStore.newFromDisk_run h2 (by rw [List.length_replicate, Nat.mul_comm])))]
    rfl

/-! ### Files that exist -/

/-- C68, `DiskStore::new_from_slice_with_config` over an existing file: a file of another length than the
full one is refused; a file of the full length is opened as it is.  Either way the data, as long as it is
a whole number of elements, plays no role, and no file changes. -/
theorem C68_disk_existing {fs : FS} {size b : Nat} {data bs : Bytes} {c : StoreConfig}
    (hc : fs.file c.file = some bs) (hd : data.length % Element.byteLen E = 0) :
    (bs.length = size * Element.byteLen E →
      ∃ s, Store.newFromSliceWithConfig (S := DiskStore E) size b data c fs = (.ok s, fs) ∧
        len (E := E) s = size ∧ s.file = c.file) ∧
    (bs.length ≠ size * Element.byteLen E →
      ∃ m, Store.newFromSliceWithConfig (S := DiskStore E) size b data c fs = (.error (.err m), fs)) := by
  have hm : (M.ofRes (modP data.length (Element.byteLen E)) : M Nat) fs
      = (.ok (data.length % Element.byteLen E), fs) := by
    rw [M.ofRes_run, modP_ok LawfulElement.byteLen_pos]
  constructor
  · intro hl
    refine ⟨⟨size, c.file, true, size * Element.byteLen E⟩, ?_, rfl, rfl⟩
    show DiskStore.newFromSliceWithConfig size b data c fs = _
    unfold DiskStore.newFromSliceWithConfig
    rw [M.bind_ok hm, M.bind_ok (mEnsure_true hd _ _), M.bind_ok
      ((DiskStore.newWithConfig_existing hc).trans (DiskStore.newFromDisk_run hc hl))]
    rfl
  · intro hl
    obtain ⟨m, hw⟩ := DiskStore.newFromDisk_wrong (E := E) (b := b) (n := size) hc hl
    refine ⟨m, ?_⟩
    show DiskStore.newFromSliceWithConfig size b data c fs = _
    unfold DiskStore.newFromSliceWithConfig
    rw [M.bind_ok hm, M.bind_ok (mEnsure_true hd _ _), M.bind_error
      ((DiskStore.newWithConfig_existing hc).trans hw)]

/-- C68, `MmapStore::new_from_slice_with_config` over an existing file of the full length: the elements
replace those at the front of the file, and the store ends with them, however many the file had. -/
theorem C68_mmap_existing {fs : FS} {size b : Nat} {es : List E} {bs : Bytes} {c : StoreConfig}
    (hc : fs.file c.file = some bs) (hl : bs.length = size * Element.byteLen E) (h : es.length ≤ size) :
    ∃ s fs', Store.newFromSliceWithConfig (S := MmapStore E) size b (encodeAll es) c fs = (.ok s, fs') ∧
      len (E := E) s = es.length ∧ (∀ i (hi : i < es.length), readAt fs' s i = .ok es[i]) ∧
      fs'.file c.file = some (encodeAll es ++ bs.drop (es.length * Element.byteLen E)) ∧
      ∀ f, f ≠ c.file → fs'.file f = fs.file f := by
  have hle : 0 + (encodeAll es).length ≤ bs.length := by
    rw [Nat.zero_add, length_encodeAll, hl]; exact Nat.mul_le_mul_right _ h
  obtain ⟨fs1, g1, g2, g3⟩ := MmapStore.mapWrite_ok (E := E) (s := ⟨some bs.length, c.file, size⟩)
    (off := 0) (data := encodeAll es) hc rfl hle
  have hp : (patch bs 0 (encodeAll es)).length = bs.length := patch_length hle
  have hf : Filled fs1 (⟨some bs.length, c.file, es.length⟩ : MmapStore E) size es.length
      (fun i => es.getD i Element.default) :=
    ⟨⟨_, g2, by rw [hp], by rw [hp, hl]⟩, rfl, fill_front Element.default g2 (by simpa using hle)⟩
  refine ⟨⟨some bs.length, c.file, es.length⟩, fs1, ?_, rfl, fun i hi => ?_, ?_, fun f hf => g3.1 f hf⟩
  · show MmapStore.newFromSliceWithConfig size b (encodeAll es) c fs = _
    unfold MmapStore.newFromSliceWithConfig
    rw [M.bind_ok (a := 0) (fs' := fs) (by rw [M.ofRes_run, modP_encodeAll]),
      M.bind_ok (mEnsure_true rfl _ _),
      M.bind_ok ((MmapStore.newWithConfig_existing hc).trans (MmapStore.newFromDisk_run hc hl)),
      M.bind_ok (a := (⟨some bs.length, c.file, size⟩ : MmapStore E)) (fs' := fs) (by rfl),
      M.bind_ok g1, div_encodeAll]
    rfl
  · rw [readAt_ok hf.inv hi (hf.vals i hi), getD_of_lt hi]
  · rw [g2]
    simp [patch, length_encodeAll]

/-- C68: an existing file of another length is refused by `MmapStore` as well, and nothing changes. -/
theorem C68_mmap_other_length {fs : FS} {size b : Nat} {data bs : Bytes} {c : StoreConfig}
    (hc : fs.file c.file = some bs) (hl : bs.length ≠ size * Element.byteLen E) :
    (∃ m, Store.newFromDisk (S := MmapStore E) size b c fs = (.error (.err m), fs)) ∧
    (∃ m, Store.newWithConfig (S := MmapStore E) size b c fs = (.error (.err m), fs)) ∧
    ∃ m, Store.newFromSliceWithConfig (S := MmapStore E) size b data c fs = (.error (.err m), fs) := by
  have hw : MmapStore.newFromDisk (E := E) size b c fs
      = (.error (.err "Invalid formatted file provided"), fs) := by
    unfold MmapStore.newFromDisk
    rw [M.bind_ok (pathExists_run _ _), hc, M.bind_ok (mEnsure_true (by rfl) _ _),
      M.bind_ok (a := bs.length) (fs' := fs) (by
        rw [M.get_run, FS.fileLen, FS.contents_ok hc]; rfl)]
    exact M.bind_error (mEnsure_false hl _ _)
  have hw' := (MmapStore.newWithConfig_existing (E := E) (n := size) (b := b) hc).trans hw
  refine ⟨⟨_, hw⟩, ⟨_, hw'⟩, ?_⟩
  show ∃ m, MmapStore.newFromSliceWithConfig size b data c fs = _
  unfold MmapStore.newFromSliceWithConfig
  rw [M.bind_ok (a := data.length % Element.byteLen E) (fs' := fs) (by
    rw [M.ofRes_run, modP_ok LawfulElement.byteLen_pos])]
  by_cases hd : data.length % Element.byteLen E = 0
  · rw [M.bind_ok (mEnsure_true hd _ _), M.bind_error hw']
    exact ⟨_, rfl⟩
  · exact ⟨_, M.bind_error (mEnsure_false hd _ _)⟩

/-! ### `LevelCacheStore` -/

/-- C68 fails for `LevelCacheStore::new_from_slice`: the store has the right length, but nothing can be
read from it. -/
theorem C68_level_cache_refuted (fs : FS) {size : Nat} {es : List E} (h : es.length ≤ size) :
    ∃ s fs', Store.newFromSlice (S := LevelCacheStore E) size (encodeAll es) fs = (.ok s, fs') ∧
      len (E := E) s = es.length ∧ ∀ i, Res.IsErr (readAt fs' s i : Res E) := by
  obtain ⟨s, fs1, h1, h2⟩ := C66_new_refuted (E := E) size fs
  have h1' : LevelCacheStore.new (E := E) size fs = (.ok s, fs1) := h1
  obtain ⟨fs2, s', g1, g2⟩ : ∃ fs2 s', copyFromSlice s (encodeAll es) 0 fs1 = (.ok s', fs2) ∧
      LevelCacheStore.storeCopyFromSlice s 0 (encodeAll es) fs1 = (.ok (), fs2) ∧
      s' = { s with len := es.length } ∧ s.len = 0 := by
    obtain ⟨fa, a1, a2, a3, a4⟩ := createTemp_run fs
    obtain ⟨fb, b1, b2, b3, b4⟩ := setLen_empty fa (Element.byteLen E * size) a2
    have e : LevelCacheStore.new (E := E) size fs
        = (.ok ⟨0, .temp fs.nextTemp, size, 0, false, Element.byteLen E * size, none⟩, fb) := by
      unfold LevelCacheStore.new
      rw [M.bind_ok a1, M.bind_ok b1]; rfl
    rw [e] at h1'
    cases h1'
    obtain ⟨fs2, g1, _⟩ := LevelCacheStore.storeCopy_ok (E := E)
      (s := ⟨0, .temp fs.nextTemp, size, 0, false, Element.byteLen E * size, none⟩) (off := 0)
      (data := encodeAll es) b2 (by simp) (by
        rw [Nat.zero_add, length_encodeAll, Nat.mul_comm]; exact Nat.mul_le_mul_left _ h)
    refine ⟨fs2, _, ?_, g1, rfl, rfl⟩
    show LevelCacheStore.copyFromSlice _ (encodeAll es) 0 fs1 = _
    unfold LevelCacheStore.copyFromSlice
    rw [M.bind_ok (a := 0) (fs' := fs1) (by rw [M.ofRes_run, modP_encodeAll]),
      M.bind_ok (mEnsure_true rfl _ _), Nat.zero_mul, M.bind_ok g1, div_encodeAll]
    simp
  obtain ⟨g3, rfl, hz⟩ := g2
  refine ⟨{ s with len := es.length }, fs2, ?_, rfl, ?_⟩
  · show LevelCacheStore.newFromSlice size (encodeAll es) fs = _
    unfold LevelCacheStore.newFromSlice
    rw [M.bind_ok (a := 0) (fs' := fs) (by rw [M.ofRes_run, modP_encodeAll]),
      M.bind_ok (mEnsure_true rfl _ _), M.bind_ok (show LevelCacheStore.new (E := E) size fs = _ from h1),
      M.bind_ok g3, div_encodeAll]
    rfl
  · refine h2 [.copy es 0] [.done] _ _ ?_
    unfold StoreOp.runAll
    rw [M.bind_ok (a := (StoreObs.done, { s with len := es.length })) (fs' := fs2) (by
      show (copyFromSlice s (encodeAll es) 0 >>= fun s => pure (StoreObs.done, s) : M _) fs1 = _
      rw [M.bind_ok g1]; rfl)]
    rfl

end

section examples
attribute [local instance] idealRows
attribute [local instance] instTwoBytes

-- two elements of two bytes each
example : (Store.newFromSlice (S := DiskStore (UInt8 × UInt8)) 3 [1, 2, 3, 4] FS.empty).1
    = .ok ⟨2, .temp 0, false, 6⟩ := by rfl
-- three bytes
example : ([1, 2, 3] : Bytes).length % Element.byteLen (UInt8 × UInt8) ≠ 0 := by decide
example : (Store.newFromSlice (S := VecStore (UInt8 × UInt8)) 3 [1, 2, 3] FS.empty).1
    = .ok ⟨[(1, 2)]⟩ := by rfl
-- two elements, room for one
example : (Store.newFromSlice (S := DiskStore UInt8) 1 [1, 2] FS.empty).1.IsErr := ⟨_, rfl⟩
-- the second call with the same arguments
example : ((do
    let _ ← (fun fs => (.ok (), (DiskStore.newFromSliceWithConfig (E := UInt8) 1 2 [1, 2]
      (StoreConfig.new "d" "t" 0) fs).2) : M Unit)
    DiskStore.newFromSliceWithConfig (E := UInt8) 1 2 [1, 2] (StoreConfig.new "d" "t" 0) : M (DiskStore UInt8))
      FS.empty).1 = .ok ⟨1, .named "d/sc-02-data-t.dat", true, 1⟩ := by decide +kernel

end examples
end Verif
