import Verif.Lemmas.StoreLaws
import Verif.Model.MmapStore
import Verif.Model.LevelCache
/-! Elements in files; the stores obey the laws. -/
set_option linter.unusedSectionVars false
namespace Verif
open Spec

section file
variable {E : Type} [Element E]

/-- Slot `i` of the file holds the encoding of `e`. -/
def FileHolds (fs : FS) (f : FileId) (i : Nat) (e : E) : Prop :=
  ∃ bs, fs.file f = some bs ∧ (i + 1) * Element.byteLen E ≤ bs.length ∧
    region bs (i * Element.byteLen E) (Element.byteLen E) = Element.toBytes e

theorem FileHolds.frame {fs fs' : FS} {f : FileId} {i : Nat} {e : E}
    (h : fs'.file f = fs.file f) : FileHolds fs f i e → FileHolds fs' f i e := by
  rintro ⟨bs, h1, h2⟩
  exact ⟨bs, by rw [h, h1], h2⟩

theorem set_sameOutside (fs : FS) (f : FileId) (c : Option Bytes) :
    SameOutside (fun g => g = f) fs (fs.set f c) :=
  ⟨fun _ hg => FS.set_other fs hg c, rfl⟩

theorem patch_nil {bs : Bytes} {off : Nat} (h : off ≤ bs.length) : patch bs off [] = bs := by
  rw [patch_eq h]; simp

theorem writeAllAt_ok {fs : FS} {f : FileId} {bs data : Bytes} {off : Nat}
    (h : fs.file f = some bs) (hl : off + data.length ≤ bs.length) :
    ∃ fs', FS.writeAllAt f off data fs = (.ok (), fs') ∧
      fs'.file f = some (patch bs off data) ∧ SameOutside (fun g => g = f) fs fs' := by
  unfold FS.writeAllAt
  rw [FS.contents_ok h]
  dsimp only
  split
  · rename_i hd
    subst hd
    exact ⟨fs, rfl, by rw [patch_nil (by omega), h], SameOutside.refl _ _⟩
  · exact ⟨_, rfl, FS.set_self _ _ _, set_sameOutside _ _ _⟩

theorem mmapWrite_ok {fs : FS} {f : FileId} {bs data : Bytes} {off : Nat}
    (h : fs.file f = some bs) (hl : off + data.length ≤ bs.length) :
    ∃ fs', FS.mmapWrite f off data fs = (.ok (), fs') ∧
      fs'.file f = some (patch bs off data) ∧ SameOutside (fun g => g = f) fs fs' := by
  unfold FS.mmapWrite
  rw [FS.contents_ok h]
  dsimp only
  rw [if_pos hl]
  exact ⟨_, rfl, FS.set_self _ _ _, set_sameOutside _ _ _⟩

variable [LawfulElement E]

theorem FileHolds.patch_in {fs' : FS} {f : FileId} {bs : Bytes} {es : List E} {start : Nat}
    (hl : start * Element.byteLen E + (encodeAll es).length ≤ bs.length)
    (h : fs'.file f = some (patch bs (start * Element.byteLen E) (encodeAll es)))
    (j : Nat) (hj : j < es.length) : FileHolds fs' f (start + j) es[j] := by
  have hlen := length_encodeAll es
  have hjl : (j + 1) * Element.byteLen E ≤ es.length * Element.byteLen E :=
    Nat.mul_le_mul_right _ hj
  have hjl' : (j + 1) * Element.byteLen E = j * Element.byteLen E + Element.byteLen E := by ring
  refine ⟨_, h, ?_, ?_⟩
  · rw [patch_length hl, show (start + j + 1) * Element.byteLen E
      = start * Element.byteLen E + (j + 1) * Element.byteLen E by ring]
    omega
  · rw [show (start + j) * Element.byteLen E
      = start * Element.byteLen E + j * Element.byteLen E by ring,
      region_patch_inside hl (by omega), region_encodeAll es j hj]

theorem FileHolds.patch_out {fs fs' : FS} {f : FileId} {bs : Bytes} {es : List E} {start : Nat}
    (hbs : fs.file f = some bs)
    (hl : start * Element.byteLen E + (encodeAll es).length ≤ bs.length)
    (h : fs'.file f = some (patch bs (start * Element.byteLen E) (encodeAll es)))
    {i : Nat} {e : E} (hi : i < start ∨ start + es.length ≤ i) (he : FileHolds fs f i e) :
    FileHolds fs' f i e := by
  obtain ⟨bs', h1, h2, h3⟩ := he
  rw [hbs] at h1
  cases h1
  have hlen := length_encodeAll es
  refine ⟨_, h, by rw [patch_length hl]; exact h2, ?_⟩
  rw [region_patch_disjoint hl _, h3]
  rcases hi with hi | hi
  · left
    have : (i + 1) * Element.byteLen E ≤ start * Element.byteLen E := Nat.mul_le_mul_right _ hi
    have : (i + 1) * Element.byteLen E = i * Element.byteLen E + Element.byteLen E := by ring
    omega
  · right
    have : (start + es.length) * Element.byteLen E ≤ i * Element.byteLen E :=
      Nat.mul_le_mul_right _ hi
    have : (start + es.length) * Element.byteLen E
      = start * Element.byteLen E + es.length * Element.byteLen E := by ring
    omega

/-- The bytes of consecutive slots. -/
theorem file_slots {fs : FS} {f : FileId} {a m : Nat} {g : Nat → E} (hm : 0 < m)
    (h : ∀ i, a ≤ i → i < a + m → FileHolds fs f i (g i)) :
    ∃ bs, fs.file f = some bs ∧ (a + m) * Element.byteLen E ≤ bs.length ∧
      decodeAll (region bs (a * Element.byteLen E) (m * Element.byteLen E))
        = .ok ((List.range m).map fun c => g (a + c)) := by
  obtain ⟨bs, h1, h2, _⟩ := h (a + m - 1) (by omega) (by omega)
  rw [show a + m - 1 + 1 = a + m by omega] at h2
  refine ⟨bs, h1, h2, ?_⟩
  have hdist : (a + m) * Element.byteLen E
      = a * Element.byteLen E + m * Element.byteLen E := by ring
  apply decodeAll_eq
  · rw [region_length]; omega
  · intro j hj
    obtain ⟨bs', g1, _, g3⟩ := h (a + j) (by omega) (by omega)
    rw [h1] at g1
    cases g1
    have hj1 : (j + 1) * Element.byteLen E ≤ m * Element.byteLen E := Nat.mul_le_mul_right _ hj
    have hj2 : (j + 1) * Element.byteLen E = j * Element.byteLen E + Element.byteLen E := by ring
    rw [region_region _ _ _ _ _ (by omega), ← g3]
    congr 1; ring

theorem readExactAt_ok {fs : FS} {f : FileId} {bs : Bytes} (h : fs.file f = some bs) {off n : Nat}
    (hl : off + n ≤ bs.length) : fs.readExactAt f off n = .ok (region bs off n) := by
  unfold FS.readExactAt
  rw [FS.contents_ok h, Res.ok_bind]
  split
  · rename_i h0; subst h0; simp [region]
  · simp

theorem encodeAll_single (e : E) : encodeAll [e] = Element.toBytes e := by simp [encodeAll]

end file

/-! ### `VecStore` -/
section vec
variable {E : Type} [Element E] [LawfulElement E]

theorem resize_length {α : Type} (xs : List α) {n : Nat} (d : α) :
    (resize xs n d).length = n := by simp [resize]; omega

theorem resize_getElem? {α : Type} (xs : List α) {n : Nat} (d : α) (h : xs.length ≤ n) {i : Nat}
    {e : α} (hi : xs[i]? = some e) : (resize xs n d)[i]? = some e := by
  have hlt : i < xs.length := (List.getElem?_eq_some_iff.1 hi).1
  rw [resize, List.take_of_length_le h, List.getElem?_append_left hlt, hi]

theorem multiple_encodeAll (es : List E) :
    modP (encodeAll es).length (Element.byteLen E) = .ok 0 := by
  rw [modP_ok (LawfulElement.byteLen_pos), length_encodeAll, Nat.mul_mod_left]

theorem div_encodeAll (es : List E) : (encodeAll es).length / Element.byteLen E = es.length := by
  rw [length_encodeAll, Nat.mul_div_cancel _ (LawfulElement.byteLen_pos)]

theorem splice_spec {α : Type} (xs : List α) (es : List α) {start : Nat}
    (h : start + es.length ≤ xs.length) :
    (xs.take start ++ es ++ xs.drop (start + es.length)).length = xs.length ∧
    (∀ j (hj : j < es.length), (xs.take start ++ es ++ xs.drop (start + es.length))[start + j]?
      = some es[j]) ∧
    (∀ i e, (i < start ∨ start + es.length ≤ i) → xs[i]? = some e →
      (xs.take start ++ es ++ xs.drop (start + es.length))[i]? = some e) := by
  refine ⟨by simp; omega, ?_, ?_⟩
  · intro j hj
    rw [List.getElem?_append_left (by simp; omega), List.getElem?_append_right (by simp)]
    simp only [List.length_take]
    rw [show start + j - min start xs.length = j by omega, List.getElem?_eq_getElem hj]
  · rintro i e (hi | hi) he
    · rw [List.append_assoc, List.getElem?_append_left (by simp; omega)]
      simp [hi, he]
    · rw [List.getElem?_append_right (by simp; omega)]
      simp only [List.length_append, List.length_take, List.getElem?_drop]
      rw [← he]; congr 1; omega

instance VecStore.lawfulWrite : LawfulWrite (VecStore E) E where
  Inv _ _ _ := True
  holds _ s i e := s.els[i]? = some e
  owns _ _ := False
  inv_frame _ h := h
  holds_frame _ h := h
  copy := by
    intro fs s cap es start _ _
    show ∃ s' fs', VecStore.copyFromSlice s (encodeAll es) start fs = _ ∧ _
    unfold VecStore.copyFromSlice
    dsimp only
    rw [M.bind_ok (a := 0) (fs' := fs) (by rw [M.ofRes_run, multiple_encodeAll]),
      M.bind_ok (mEnsure_true rfl _ _),
      M.bind_ok (a := es) (fs' := fs) (by rw [M.ofRes_run, chunksExact_encodeAll]), div_encodeAll]
    refine ⟨_, fs, rfl, trivial, ?_, ?_, ?_, SameOutside.refl _ _, rfl, rfl⟩
    · change List.length _ = _
      split
      · rw [(splice_spec _ _ (by rw [resize_length])).1, resize_length]
        show _ = max s.els.length _
        omega
      · rw [(splice_spec _ _ (by omega)).1]
        show _ = max s.els.length _
        omega
    · dsimp only
      split
      · exact (splice_spec _ _ (by rw [resize_length])).2.1
      · exact (splice_spec _ _ (by omega)).2.1
    · dsimp only
      split
      · intro i e hi he
        exact (splice_spec _ _ (by rw [resize_length])).2.2 i e hi
          (resize_getElem? _ _ (by omega) he)
      · exact (splice_spec _ _ (by omega)).2.2
  write := by
    intro fs s cap e i _ _
    show ∃ s' fs', VecStore.writeAt s e i fs = _ ∧ _
    unfold VecStore.writeAt
    have key : ∀ xs : List E, i < xs.length → (xs.set i e)[i]? = some e ∧
        ∀ j e', j ≠ i → xs[j]? = some e' → (xs.set i e)[j]? = some e' := by
      intro xs hx
      refine ⟨by simp [hx], fun j e' hj h => ?_⟩
      rw [List.getElem?_set_ne (by omega), h]
    refine ⟨_, fs, rfl, trivial, ?_, ?_, ?_, SameOutside.refl _ _, rfl⟩
    · change (List.set _ _ _).length = max s.els.length (i + 1)
      rw [List.length_set]
      split
      · rw [resize_length]; omega
      · omega
    · dsimp only
      split
      · exact (key _ (by rw [resize_length]; omega)).1
      · exact (key _ (by omega)).1
    · dsimp only
      intro j e' hj he
      split
      · exact (key _ (by rw [resize_length]; omega)).2 j e' hj (resize_getElem? _ _ (by omega) he)
      · exact (key _ (by omega)).2 j e' hj he

instance VecStore.lawfulRead : LawfulRead (VecStore E) E where
  readAt_ok := by
    intro fs s cap i e _ _ he
    have he : s.els[i]? = some e := he
    show idxP s.els i = _
    simp [idxP, he]
  readRange_ok := by
    intro fs s cap a m g _ hm hle hh
    have hle : a + m ≤ s.els.length := hle
    show VecStore.readRange s a (a + m) = _
    unfold VecStore.readRange
    rw [if_pos ⟨by omega, hle⟩, Nat.add_sub_cancel_left]
    congr 1
    apply List.ext_getElem?
    intro i
    simp only [List.getElem?_take, List.getElem?_drop, List.getElem?_map]
    split
    · rename_i hi
      have : s.els[a + i]? = some (g (a + i)) := hh (a + i) (by omega) (by omega)
      rw [this]; simp [hi]
    · rename_i hi; simp [hi]

end vec

/-! ### `DiskStore` -/
section disk
variable {E : Type} [Element E] [LawfulElement E]

theorem DiskStore.storeCopy_ok {fs : FS} {s : DiskStore E} {bs data : Bytes} {off : Nat}
    (h : fs.file s.file = some bs) (hsz : bs.length = s.storeSize)
    (hl : off + data.length ≤ s.storeSize) :
    ∃ fs', DiskStore.storeCopyFromSlice s off data fs = (.ok (), fs') ∧
      fs'.file s.file = some (patch bs off data) ∧ SameOutside (fun g => g = s.file) fs fs' := by
  unfold DiskStore.storeCopyFromSlice
  rw [M.bind_ok (mEnsure_true hl _ _)]
  exact writeAllAt_ok h (by omega)

theorem DiskStore.checkRange_ok {s : DiskStore E} {a c : Nat} (h1 : a < s.len * Element.byteLen E)
    (h2 : c ≤ s.len * Element.byteLen E) : DiskStore.checkRange s a c = .ok () := by
  unfold DiskStore.checkRange
  dsimp only
  rw [ensure_true h1, Res.ok_bind, ensure_true h2]

instance DiskStore.lawfulWrite : LawfulWrite (DiskStore E) E where
  Inv fs s cap := ∃ bs, fs.file s.file = some bs ∧ bs.length = s.storeSize ∧
    s.storeSize = cap * Element.byteLen E
  holds fs s i e := FileHolds fs s.file i e
  owns s f := f = s.file
  inv_frame := by
    rintro fs fs' s cap h ⟨bs, h1, h2⟩
    exact ⟨bs, by rw [h _ rfl, h1], h2⟩
  holds_frame := by
    intro fs fs' s i e h he
    exact he.frame (h _ rfl)
  copy := by
    rintro fs s cap es start ⟨bs, h1, h2, h3⟩ hle
    show ∃ s' fs', DiskStore.copyFromSlice s (encodeAll es) start fs = _ ∧ _
    unfold DiskStore.copyFromSlice
    have hl : start * Element.byteLen E + (encodeAll es).length ≤ s.storeSize := by
      rw [length_encodeAll, ← Nat.add_mul]
      exact (Nat.mul_le_mul_right _ hle).trans (by omega)
    obtain ⟨fs', w1, w2, w3⟩ := storeCopy_ok h1 h2 hl
    refine ⟨{ s with len := max s.len (start + es.length) }, fs', ?_, ?_, rfl, ?_, ?_, w3, rfl, rfl⟩
    · rw [M.bind_ok (a := 0) (fs' := fs) (by rw [M.ofRes_run, multiple_encodeAll]),
        M.bind_ok (mEnsure_true rfl _ _), M.bind_ok w1, div_encodeAll]
      rfl
    · exact ⟨_, w2, by rw [patch_length (by omega)]; exact h2, h3⟩
    · intro j hj; exact FileHolds.patch_in (by omega) w2 j hj
    · intro i e hi he; exact FileHolds.patch_out h1 (by omega) w2 hi he
  write := by
    rintro fs s cap e i ⟨bs, h1, h2, h3⟩ hle
    show ∃ s' fs', DiskStore.writeAt s e i fs = _ ∧ _
    unfold DiskStore.writeAt
    have hl : i * Element.byteLen E + (encodeAll [e]).length ≤ s.storeSize := by
      rw [length_encodeAll, ← Nat.add_mul]
      exact (Nat.mul_le_mul_right _ hle).trans (by omega)
    obtain ⟨fs', w1, w2, w3⟩ := storeCopy_ok h1 h2 hl
    refine ⟨{ s with len := max s.len (i + 1) }, fs', ?_, ?_, rfl, ?_, ?_, w3, rfl⟩
    · rw [encodeAll_single] at w1
      rw [M.bind_ok w1]
      rfl
    · exact ⟨_, w2, by rw [patch_length (by omega)]; exact h2, h3⟩
    · exact FileHolds.patch_in (es := [e]) (by omega) w2 0 (by simp)
    · intro j e' hj he; exact FileHolds.patch_out h1 (by omega) w2 (by simp; omega) he

theorem DiskStore.readRange_eq {fs : FS} {s : DiskStore E} {a m : Nat} {g : Nat → E} (hm : 0 < m)
    (hle : a + m ≤ s.len) (hh : ∀ i, a ≤ i → i < a + m → FileHolds fs s.file i (g i)) :
    DiskStore.readRange fs s a (a + m) = .ok ((List.range m).map fun c => g (a + c)) := by
  have hp := LawfulElement.byteLen_pos (E := E)
  obtain ⟨bs, h1, h2, h3⟩ := file_slots hm hh
  unfold DiskStore.readRange
  have e1 : (a + m) * Element.byteLen E
      = a * Element.byteLen E + m * Element.byteLen E := by ring
  have e2 : (a + m) * Element.byteLen E ≤ s.len * Element.byteLen E := Nat.mul_le_mul_right _ hle
  have e3 : 0 < m * Element.byteLen E := Nat.mul_pos hm hp
  dsimp only
  rw [DiskStore.checkRange_ok (by omega) (by omega), Res.ok_bind]
  unfold DiskStore.storeReadRange
  rw [subP_ok (by omega), Res.ok_bind]
  rw [show (a + m) * Element.byteLen E - a * Element.byteLen E = m * Element.byteLen E by omega]
  rw [readExactAt_ok h1 (by omega), Res.ok_bind, h3]

theorem fromSlice_slot {fs : FS} {f : FileId} {i : Nat} {e : E} (h : FileHolds fs f i e) :
    ∃ bs, fs.readExactAt f (i * Element.byteLen E) (Element.byteLen E) = .ok bs ∧
      Element.fromSlice bs = .ok e := by
  obtain ⟨bs, h1, h2, h3⟩ := h
  have : (i + 1) * Element.byteLen E = i * Element.byteLen E + Element.byteLen E := by ring
  exact ⟨_, readExactAt_ok h1 (by omega), by rw [h3, fromSlice_toBytes]⟩

theorem DiskStore.readAt_eq {fs : FS} {s : DiskStore E} {i : Nat} {e : E} (hi : i < s.len)
    (he : FileHolds fs s.file i e) : DiskStore.readAt fs s i = .ok e := by
  have hp := LawfulElement.byteLen_pos (E := E)
  have e1 : (i + 1) * Element.byteLen E = i * Element.byteLen E + Element.byteLen E := by ring
  have e2 : (i + 1) * Element.byteLen E ≤ s.len * Element.byteLen E := Nat.mul_le_mul_right _ hi
  obtain ⟨bs, h1, h2⟩ := fromSlice_slot he
  unfold DiskStore.readAt
  dsimp only
  rw [DiskStore.checkRange_ok (by omega) (by omega), Res.ok_bind]
  unfold DiskStore.storeReadRange
  rw [subP_ok (by omega), Res.ok_bind, Nat.add_sub_cancel_left, h1, Res.ok_bind, h2]

instance DiskStore.lawfulRead : LawfulRead (DiskStore E) E where
  readAt_ok := fun _ hi he => DiskStore.readAt_eq hi he
  readRange_ok := fun _ hm hle hh => DiskStore.readRange_eq hm hle hh

end disk

/-! ### `MmapStore` -/
section mmap
variable {E : Type} [Element E] [LawfulElement E]

theorem MmapStore.mapWrite_ok {fs : FS} {s : MmapStore E} {bs data : Bytes} {off : Nat}
    (h : fs.file s.file = some bs) (hm : s.map = some bs.length)
    (hl : off + data.length ≤ bs.length) :
    ∃ fs', MmapStore.mapWrite s off data fs = (.ok (), fs') ∧
      fs'.file s.file = some (patch bs off data) ∧ SameOutside (fun g => g = s.file) fs fs' := by
  unfold MmapStore.mapWrite
  rw [hm]
  dsimp only
  rw [if_pos hl]
  exact mmapWrite_ok h hl

theorem MmapStore.checkRange_ok {s : MmapStore E} {a c : Nat} (h1 : a < s.len * Element.byteLen E)
    (h2 : c ≤ s.len * Element.byteLen E) : MmapStore.checkRange s a c = .ok () := by
  unfold MmapStore.checkRange
  dsimp only
  rw [ensure_true h1, Res.ok_bind, ensure_true h2]

theorem MmapStore.mapRead_ok {fs : FS} {s : MmapStore E} {bs : Bytes} {a c : Nat}
    (h : fs.file s.file = some bs) (hm : s.map = some bs.length) (hac : a ≤ c)
    (hl : c ≤ bs.length) : MmapStore.mapRead fs s a c = .ok (region bs a (c - a)) := by
  unfold MmapStore.mapRead
  rw [hm]
  dsimp only
  rw [if_pos ⟨hac, hl⟩, FS.contents_ok h, Res.ok_bind, if_pos hl]

instance MmapStore.lawfulWrite : LawfulWrite (MmapStore E) E where
  Inv fs s cap := ∃ bs, fs.file s.file = some bs ∧ s.map = some bs.length ∧
    bs.length = cap * Element.byteLen E
  holds fs s i e := FileHolds fs s.file i e
  owns s f := f = s.file
  inv_frame := by
    rintro fs fs' s cap h ⟨bs, h1, h2⟩
    exact ⟨bs, by rw [h _ rfl, h1], h2⟩
  holds_frame := by
    intro fs fs' s i e h he
    exact he.frame (h _ rfl)
  copy := by
    rintro fs s cap es start ⟨bs, h1, h2, h3⟩ hle
    show ∃ s' fs', MmapStore.copyFromSlice s (encodeAll es) start fs = _ ∧ _
    unfold MmapStore.copyFromSlice
    have hl : start * Element.byteLen E + (encodeAll es).length ≤ bs.length := by
      rw [length_encodeAll, ← Nat.add_mul]
      exact (Nat.mul_le_mul_right _ hle).trans (by omega)
    obtain ⟨fs', w1, w2, w3⟩ := mapWrite_ok h1 h2 hl
    refine ⟨{ s with len := max s.len (start + es.length) }, fs', ?_, ?_, rfl, ?_, ?_, w3, rfl, rfl⟩
    · rw [M.bind_ok (a := 0) (fs' := fs) (by rw [M.ofRes_run, multiple_encodeAll]),
        M.bind_ok (mEnsure_true rfl _ _),
        M.bind_ok (a := s) (fs' := fs) (by unfold MmapStore.ensureMap; rw [h2]; rfl),
        M.bind_ok w1, div_encodeAll]
      rfl
    · exact ⟨_, w2, by rw [patch_length (by omega)]; exact h2, by rw [patch_length (by omega)]; exact h3⟩
    · intro j hj; exact FileHolds.patch_in (by omega) w2 j hj
    · intro i e hi he; exact FileHolds.patch_out h1 (by omega) w2 hi he
  write := by
    rintro fs s cap e i ⟨bs, h1, h2, h3⟩ hle
    show ∃ s' fs', MmapStore.writeAt s e i fs = _ ∧ _
    unfold MmapStore.writeAt
    have hl : i * Element.byteLen E + (encodeAll [e]).length ≤ bs.length := by
      rw [length_encodeAll, ← Nat.add_mul]
      exact (Nat.mul_le_mul_right _ hle).trans (by omega)
    obtain ⟨fs', w1, w2, w3⟩ := mapWrite_ok h1 h2 hl
    refine ⟨{ s with len := max s.len (i + 1) }, fs', ?_, ?_, rfl, ?_, ?_, w3, rfl⟩
    · rw [M.bind_ok (a := s) (fs' := fs) (by unfold MmapStore.ensureMap; rw [h2]; rfl),
        if_pos (LawfulElement.length_toBytes e)]
      rw [encodeAll_single] at w1
      rw [M.bind_ok w1]
      rfl
    · exact ⟨_, w2, by rw [patch_length (by omega)]; exact h2, by rw [patch_length (by omega)]; exact h3⟩
    · exact FileHolds.patch_in (es := [e]) (by omega) w2 0 (by simp)
    · intro j e' hj he; exact FileHolds.patch_out h1 (by omega) w2 (by simp; omega) he

instance MmapStore.lawfulRead : LawfulRead (MmapStore E) E where
  readAt_ok := by
    rintro fs s cap i e ⟨bs, h1, h2, _⟩ hi he
    have hp := LawfulElement.byteLen_pos (E := E)
    have hi : i < s.len := hi
    obtain ⟨bs', g1, g2, g3⟩ := he
    rw [h1] at g1
    cases g1
    have e1 : (i + 1) * Element.byteLen E = i * Element.byteLen E + Element.byteLen E := by ring
    have e2 : (i + 1) * Element.byteLen E ≤ s.len * Element.byteLen E := Nat.mul_le_mul_right _ hi
    show MmapStore.readAt fs s i = _
    unfold MmapStore.readAt
    dsimp only
    rw [MmapStore.checkRange_ok (by omega) (by omega), Res.ok_bind,
      MmapStore.mapRead_ok h1 h2 (by omega) (by omega), Res.ok_bind, Nat.add_sub_cancel_left, g3,
      fromSlice_toBytes]
  readRange_ok := by
    rintro fs s cap a m g ⟨bs, h1, h2, _⟩ hm hle hh
    have hp := LawfulElement.byteLen_pos (E := E)
    have hle : a + m ≤ s.len := hle
    obtain ⟨bs', g1, g2, g3⟩ := file_slots hm hh
    rw [h1] at g1
    cases g1
    have e1 : (a + m) * Element.byteLen E
        = a * Element.byteLen E + m * Element.byteLen E := by ring
    have e2 : (a + m) * Element.byteLen E ≤ s.len * Element.byteLen E := Nat.mul_le_mul_right _ hle
    have e3 : 0 < m * Element.byteLen E := Nat.mul_pos hm hp
    show MmapStore.readRange fs s a (a + m) = _
    unfold MmapStore.readRange
    dsimp only
    rw [MmapStore.checkRange_ok (by omega) (by omega), Res.ok_bind,
      MmapStore.mapRead_ok h1 h2 (by omega) (by omega), Res.ok_bind,
      show (a + m) * Element.byteLen E - a * Element.byteLen E = m * Element.byteLen E by omega, g3]

end mmap

/-! ### `LevelCacheStore` (writing only) -/
section level
variable {E : Type} [Element E] [LawfulElement E]

theorem LevelCacheStore.storeCopy_ok {fs : FS} {s : LevelCacheStore E} {bs data : Bytes} {off : Nat}
    (h : fs.file s.file = some bs) (hsz : bs.length = s.storeSize)
    (hl : off + data.length ≤ s.storeSize) :
    ∃ fs', LevelCacheStore.storeCopyFromSlice s off data fs = (.ok (), fs') ∧
      fs'.file s.file = some (patch bs off data) ∧ SameOutside (fun g => g = s.file) fs fs' := by
  unfold LevelCacheStore.storeCopyFromSlice
  rw [M.bind_ok (mEnsure_true hl _ _)]
  exact writeAllAt_ok h (by omega)

instance LevelCacheStore.lawfulWrite : LawfulWrite (LevelCacheStore E) E where
  Inv fs s cap := ∃ bs, fs.file s.file = some bs ∧ bs.length = s.storeSize ∧
    cap * Element.byteLen E ≤ s.storeSize
  holds fs s i e := FileHolds fs s.file i e
  owns s f := f = s.file
  inv_frame := by
    rintro fs fs' s cap h ⟨bs, h1, h2⟩
    exact ⟨bs, by rw [h _ rfl, h1], h2⟩
  holds_frame := by
    intro fs fs' s i e h he
    exact he.frame (h _ rfl)
  copy := by
    rintro fs s cap es start ⟨bs, h1, h2, h3⟩ hle
    show ∃ s' fs', LevelCacheStore.copyFromSlice s (encodeAll es) start fs = _ ∧ _
    unfold LevelCacheStore.copyFromSlice
    have hl : start * Element.byteLen E + (encodeAll es).length ≤ s.storeSize := by
      rw [length_encodeAll, ← Nat.add_mul]
      exact (Nat.mul_le_mul_right _ hle).trans (by omega)
    obtain ⟨fs', w1, w2, w3⟩ := storeCopy_ok h1 h2 hl
    refine ⟨{ s with len := max s.len (start + es.length) }, fs', ?_, ?_, rfl, ?_, ?_, w3, rfl, rfl⟩
    · rw [M.bind_ok (a := 0) (fs' := fs) (by rw [M.ofRes_run, multiple_encodeAll]),
        M.bind_ok (mEnsure_true rfl _ _), M.bind_ok w1, div_encodeAll]
      rfl
    · exact ⟨_, w2, by rw [patch_length (by omega)]; exact h2, h3⟩
    · intro j hj; exact FileHolds.patch_in (by omega) w2 j hj
    · intro i e hi he; exact FileHolds.patch_out h1 (by omega) w2 hi he
  write := by
    rintro fs s cap e i ⟨bs, h1, h2, h3⟩ hle
    show ∃ s' fs', LevelCacheStore.writeAt s e i fs = _ ∧ _
    unfold LevelCacheStore.writeAt
    have hl : i * Element.byteLen E + (encodeAll [e]).length ≤ s.storeSize := by
      rw [length_encodeAll, ← Nat.add_mul]
      exact (Nat.mul_le_mul_right _ hle).trans (by omega)
    obtain ⟨fs', w1, w2, w3⟩ := storeCopy_ok h1 h2 hl
    refine ⟨{ s with len := max s.len (i + 1) }, fs', ?_, ?_, rfl, ?_, ?_, w3, rfl⟩
    · rw [encodeAll_single] at w1
      rw [M.bind_ok w1]
      rfl
    · exact ⟨_, w2, by rw [patch_length (by omega)]; exact h2, h3⟩
    · exact FileHolds.patch_in (es := [e]) (by omega) w2 0 (by simp)
    · intro j e' hj he; exact FileHolds.patch_out h1 (by omega) w2 (by simp; omega) he

end level
end Verif
