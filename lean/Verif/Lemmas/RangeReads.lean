import Verif.Lemmas.StoreArray
/-! Range reads against single reads; rejected reads and writes. -/
set_option linter.unusedSectionVars false
namespace Verif
open Spec StoreOps

theorem checkRange_aux {L len a c : Nat} {m1 m2 : String} {u : Unit} :
    (do ensure (a < len * L) m1; ensure (c ≤ len * L) m2 : Res Unit) = .ok u ↔
      a < len * L ∧ c ≤ len * L := by
  simp only [bind_ok_iff, ensure_ok_iff, exists_const]

section
variable {E : Type} [Element E] [LawfulElement E]

theorem fromSlice_decode {bs : Bytes} (h : bs.length = Element.byteLen E) :
    (Element.fromSlice bs : Res E) = .ok (Element.decode bs) := by
  simp [Element.fromSlice, h]

/-- Bytes of the right length always decode, piece by piece. -/
theorem decodeAll_decode {bs : Bytes} {m : Nat} (hl : bs.length = m * Element.byteLen E) :
    (decodeAll bs : Res (List E)) = .ok ((List.range m).map fun j =>
      Element.decode (region bs (j * Element.byteLen E) (Element.byteLen E))) := by
  unfold decodeAll
  rw [chunks_eq (LawfulElement.byteLen_pos (E := E)) (m := m) (by rw [hl]; ring)]
  apply mapM_range_ok
  intro k hk
  have e1 : (k + 1) * Element.byteLen E ≤ m * Element.byteLen E := Nat.mul_le_mul_right _ hk
  have e2 : (k + 1) * Element.byteLen E = k * Element.byteLen E + Element.byteLen E := by ring
  rw [fromSlice_decode]
  · rw [region, Nat.mul_comm]
  · rw [Nat.mul_comm]; simp; omega

theorem readExactAt_ok_iff {fs : FS} {f : FileId} {off n : Nat} (hn : 0 < n) {r : Bytes} :
    fs.readExactAt f off n = .ok r ↔
      ∃ bs, fs.file f = some bs ∧ off + n ≤ bs.length ∧ r = region bs off n := by
  unfold FS.readExactAt
  simp only [bind_ok_iff, FS.contents_ok_iff]
  have hn0 : n ≠ 0 := by omega
  simp only [hn0, ↓reduceIte]
  constructor
  · rintro ⟨bs, h1, h2⟩
    split at h2
    · rename_i h; cases h2; exact ⟨bs, h1, h, rfl⟩
    · cases h2
  · rintro ⟨bs, h1, h2, rfl⟩
    exact ⟨bs, h1, by rw [if_pos h2]⟩

theorem region_len {bs : Bytes} {off n : Nat} (h : off + n ≤ bs.length) :
    (region bs off n).length = n := by rw [region_length]; omega

theorem DiskStore.readAt_ok_iff {fs : FS} {s : DiskStore E} {i : Nat} {e : E} :
    DiskStore.readAt fs s i = .ok e ↔ i < s.len ∧ ∃ bs, fs.file s.file = some bs ∧
      (i + 1) * Element.byteLen E ≤ bs.length ∧
      e = Element.decode (region bs (i * Element.byteLen E) (Element.byteLen E)) := by
  have hp := LawfulElement.byteLen_pos (E := E)
  have e1 : (i + 1) * Element.byteLen E = i * Element.byteLen E + Element.byteLen E := by ring
  unfold DiskStore.readAt DiskStore.checkRange DiskStore.storeReadRange
  simp only [bind_ok_iff, ensure_ok_iff, exists_const]
  rw [subP_ok (by omega), Nat.add_sub_cancel_left]
  constructor
  · rintro ⟨⟨h1, h2⟩, r, ⟨n, hn, h3⟩, h4⟩
    cases hn
    obtain ⟨bs, h5, h6, rfl⟩ := (readExactAt_ok_iff hp).1 h3
    rw [fromSlice_decode (region_len h6)] at h4
    cases h4
    exact ⟨Nat.lt_of_mul_lt_mul_right h1, bs, h5, by omega, rfl⟩
  · rintro ⟨hi, bs, h5, h6, rfl⟩
    have e2 : (i + 1) * Element.byteLen E ≤ s.len * Element.byteLen E := Nat.mul_le_mul_right _ hi
    refine ⟨⟨by omega, by omega⟩, _, ⟨_, rfl, (readExactAt_ok_iff hp).2 ⟨bs, h5, by omega, rfl⟩⟩, ?_⟩
    exact fromSlice_decode (region_len (by omega))

theorem DiskStore.readRangeInto_eq {fs : FS} {s : DiskStore E} {a c : Nat} (hac : a < c)
    (hc : c ≤ s.len) {bs : Bytes} (hb : fs.file s.file = some bs)
    (hl : c * Element.byteLen E ≤ bs.length) {buf : Bytes}
    (hbuf : buf.length = (c - a) * Element.byteLen E) :
    DiskStore.readRangeInto fs s a c buf
      = .ok (region bs (a * Element.byteLen E) ((c - a) * Element.byteLen E)) := by
  have hp := LawfulElement.byteLen_pos (E := E)
  have e1 : c * Element.byteLen E ≤ s.len * Element.byteLen E := Nat.mul_le_mul_right _ hc
  have e2 : a * Element.byteLen E + (c - a) * Element.byteLen E = c * Element.byteLen E := by
    rw [← Nat.add_mul]; congr 1; omega
  have e3 : 0 < (c - a) * Element.byteLen E := Nat.mul_pos (by omega) hp
  unfold DiskStore.readRangeInto DiskStore.storeReadInto
  dsimp only
  rw [DiskStore.checkRange_ok (by omega) (by omega), Res.ok_bind, hbuf, readExactAt_ok hb (by omega),
    readContext_ok]

theorem DiskStore.readRange_file {fs : FS} {s : DiskStore E} {a c : Nat} (hac : a < c)
    (hc : c ≤ s.len) {bs : Bytes} (hb : fs.file s.file = some bs)
    (hl : c * Element.byteLen E ≤ bs.length) :
    DiskStore.readRange fs s a c
      = decodeAll (region bs (a * Element.byteLen E) ((c - a) * Element.byteLen E)) := by
  have hp := LawfulElement.byteLen_pos (E := E)
  have e1 : c * Element.byteLen E ≤ s.len * Element.byteLen E := Nat.mul_le_mul_right _ hc
  have e2 : a * Element.byteLen E + (c - a) * Element.byteLen E = c * Element.byteLen E := by
    rw [← Nat.add_mul]; congr 1; omega
  have e3 : 0 < (c - a) * Element.byteLen E := Nat.mul_pos (by omega) hp
  unfold DiskStore.readRange DiskStore.storeReadRange
  dsimp only
  rw [DiskStore.checkRange_ok (by omega) (by omega), Res.ok_bind, subP_ok (by omega), Res.ok_bind,
    show c * Element.byteLen E - a * Element.byteLen E = (c - a) * Element.byteLen E by omega,
    readExactAt_ok hb (by omega), Res.ok_bind]

theorem MmapStore.readAt_ok_iff {fs : FS} {s : MmapStore E} {i : Nat} {e : E} :
    MmapStore.readAt fs s i = .ok e ↔ i < s.len ∧ ∃ n, s.map = some n ∧
      (i + 1) * Element.byteLen E ≤ n ∧ ∃ bs, fs.file s.file = some bs ∧
      (i + 1) * Element.byteLen E ≤ bs.length ∧
      e = Element.decode (region bs (i * Element.byteLen E) (Element.byteLen E)) := by
  have hp := LawfulElement.byteLen_pos (E := E)
  have e1 : (i + 1) * Element.byteLen E = i * Element.byteLen E + Element.byteLen E := by ring
  unfold MmapStore.readAt MmapStore.checkRange MmapStore.mapRead
  simp only [bind_ok_iff, ensure_ok_iff, exists_const]
  constructor
  · rintro ⟨⟨h1, h2⟩, r, h3, h4⟩
    refine ⟨Nat.lt_of_mul_lt_mul_right h1, ?_⟩
    split at h3
    · cases h3
    · rename_i n hn
      split at h3
      · rename_i hle
        simp only [bind_ok_iff, FS.contents_ok_iff] at h3
        obtain ⟨bs, h5, h6⟩ := h3
        split at h6
        · rename_i h7
          cases h6
          rw [Nat.add_sub_cancel_left, fromSlice_decode (region_len (by omega))] at h4
          cases h4
          exact ⟨n, hn, by omega, bs, h5, by omega, rfl⟩
        · cases h6
      · cases h3
  · rintro ⟨hi, n, hn, h1, bs, h2, h3, rfl⟩
    have e2 : (i + 1) * Element.byteLen E ≤ s.len * Element.byteLen E := Nat.mul_le_mul_right _ hi
    refine ⟨⟨by omega, by omega⟩, region bs (i * Element.byteLen E) (Element.byteLen E), ?_,
      fromSlice_decode (region_len (by omega))⟩
    rw [hn]
    dsimp only
    rw [if_pos ⟨by omega, by omega⟩, FS.contents_ok h2, Res.ok_bind, if_pos (by omega),
      Nat.add_sub_cancel_left]

theorem MmapStore.readRange_file {fs : FS} {s : MmapStore E} {a c n : Nat} (hac : a < c)
    (hc : c ≤ s.len) (hn : s.map = some n) (hcn : c * Element.byteLen E ≤ n) {bs : Bytes}
    (hb : fs.file s.file = some bs) (hl : c * Element.byteLen E ≤ bs.length) :
    MmapStore.readRange fs s a c
      = decodeAll (region bs (a * Element.byteLen E) ((c - a) * Element.byteLen E)) := by
  have hp := LawfulElement.byteLen_pos (E := E)
  have e1 : c * Element.byteLen E ≤ s.len * Element.byteLen E := Nat.mul_le_mul_right _ hc
  have e2 : a * Element.byteLen E + (c - a) * Element.byteLen E = c * Element.byteLen E := by
    rw [← Nat.add_mul]; congr 1; omega
  have e3 : 0 < (c - a) * Element.byteLen E := Nat.mul_pos (by omega) hp
  unfold MmapStore.readRange MmapStore.mapRead
  dsimp only
  rw [MmapStore.checkRange_ok (by omega) (by omega), Res.ok_bind, hn]
  dsimp only
  rw [if_pos ⟨by omega, by omega⟩, FS.contents_ok hb, Res.ok_bind, if_pos (by omega),
    Res.ok_bind, show c * Element.byteLen E - a * Element.byteLen E
      = (c - a) * Element.byteLen E by omega]

/-- Decoding a piece of a file whose slots decode to given elements. -/
theorem decodeAll_region {bs : Bytes} {a c : Nat} (hac : a < c)
    (hl : c * Element.byteLen E ≤ bs.length) {f : Nat → E}
    (h : ∀ i, a ≤ i → i < c →
      f i = Element.decode (region bs (i * Element.byteLen E) (Element.byteLen E))) :
    decodeAll (region bs (a * Element.byteLen E) ((c - a) * Element.byteLen E))
      = .ok ((List.range (c - a)).map fun j => f (a + j)) := by
  have e2 : a * Element.byteLen E + (c - a) * Element.byteLen E = c * Element.byteLen E := by
    rw [← Nat.add_mul]; congr 1; omega
  rw [decodeAll_decode (m := c - a) (region_len (by omega))]
  congr 1
  apply List.map_congr_left
  intro j hj
  have hj := List.mem_range.1 hj
  have e3 : (j + 1) * Element.byteLen E ≤ (c - a) * Element.byteLen E := Nat.mul_le_mul_right _ hj
  have e4 : (j + 1) * Element.byteLen E = j * Element.byteLen E + Element.byteLen E := by ring
  rw [h (a + j) (by omega) (by omega), region_region _ _ _ _ _ (by omega), Nat.add_mul]

end
end Verif
