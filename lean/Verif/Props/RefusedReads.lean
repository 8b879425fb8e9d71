import Verif.Props.Stores
import Verif.Lemmas.LevelView
/-
C50 and C25 for the reads of the stores themselves, without the checks of `MerkleTree`: ranges past the
end and ranges whose end lies before their start.
-/
set_option linter.unusedSectionVars false
namespace Verif
open Spec StoreOps
variable {E : Type} [Element E] [LawfulElement E]

/-- C25 for `LevelCacheStore`: every read at or beyond `len` returns `Err`, whatever the reader, and
range reads that end beyond `len` do too. -/
theorem C25_level_cache_read (s : LevelCacheStore E) (fs : FS) (buf : Bytes) :
    (∀ i, s.len ≤ i → (readAt fs s i : Res E).IsErr ∧ (readInto (E := E) fs s i buf).IsErr) ∧
    ∀ a c, s.len ≤ a ∨ s.len < c →
      (readRange fs s a c : Res (List E)).IsErr ∧ (readRangeInto (E := E) fs s a c buf).IsErr := by
  have hp := LawfulElement.byteLen_pos (E := E)
  have key : ∀ a c, s.len * Element.byteLen E ≤ a ∨ s.len * Element.byteLen E < c →
      ∃ m, LevelCacheStore.checkRange s a c = .error (.err m) := by
    intro a c h
    unfold LevelCacheStore.checkRange
    dsimp only
    by_cases h1 : a < s.len * Element.byteLen E
    · rw [ensure_true h1, Res.ok_bind, ensure_false (by omega)]
      exact ⟨_, rfl⟩
    · rw [ensure_false h1]; exact ⟨_, rfl⟩
  constructor
  · intro i hi
    obtain ⟨m, hm⟩ := key (i * Element.byteLen E) (i * Element.byteLen E + Element.byteLen E)
      (.inl (Nat.mul_le_mul_right _ hi))
    refine ⟨⟨m, ?_⟩, ⟨m, ?_⟩⟩
    · show LevelCacheStore.readAt fs s i = _
      unfold LevelCacheStore.readAt
      dsimp only
      rw [hm]; rfl
    · show LevelCacheStore.readInto fs s i buf = _
      unfold LevelCacheStore.readInto
      dsimp only
      rw [hm]; rfl
  · intro a c h
    obtain ⟨m, hm⟩ := key (a * Element.byteLen E) (c * Element.byteLen E)
      (h.imp (Nat.mul_le_mul_right _) (fun h => Nat.mul_lt_mul_of_pos_right h hp))
    refine ⟨⟨m, ?_⟩, ⟨m, ?_⟩⟩
    · show LevelCacheStore.readRange fs s a c = _
      unfold LevelCacheStore.readRange
      dsimp only
      rw [hm]; rfl
    · show LevelCacheStore.readRangeInto fs s a c buf = _
      unfold LevelCacheStore.readRangeInto
      dsimp only
      rw [hm]; rfl

/-- `VecStore::read_at` at or beyond the end panics, and `read_range` returns exactly for the ranges
inside the store, the empty ones included; every other range panics. -/
theorem C50_vec_store_reads (s : VecStore E) (fs : FS) :
    (∀ i, (∃ e, readAt fs s i = .ok e ∧ s.els[i]? = some e) ∨
      s.els.length ≤ i ∧ ∃ m, (readAt fs s i : Res E) = .error (.panic m)) ∧
    ∀ a c, (a ≤ c ∧ c ≤ s.els.length → readRange fs s a c = .ok ((s.els.drop a).take (c - a))) ∧
      (¬ (a ≤ c ∧ c ≤ s.els.length) → ∃ m, (readRange fs s a c : Res (List E)) = .error (.panic m)) := by
  refine ⟨fun i => ?_, fun a c => ⟨fun h => ?_, fun h => ?_⟩⟩
  · show (∃ e, idxP s.els i = .ok e ∧ _) ∨ _ ∧ ∃ m, idxP s.els i = _
    unfold idxP
    cases h : s.els[i]? with
    | some e => exact .inl ⟨e, rfl, rfl⟩
    | none => exact .inr ⟨List.getElem?_eq_none_iff.1 h, _, rfl⟩
  · show VecStore.readRange s a c = _
    unfold VecStore.readRange
    rw [if_pos h]
  · show ∃ m, VecStore.readRange s a c = _
    unfold VecStore.readRange
    rw [if_neg h]
    exact ⟨_, rfl⟩

/-- C50 fails for the range reads of the stores with files: a range that starts inside the store and
ends before its start panics.  (`MerkleTree::read_range` refuses such a range before it reaches the
store, `C50_disk_out_of_range`.) -/
theorem C50_reversed_refuted (fs : FS) {a c : Nat} (hca : c < a) :
    (∀ s : DiskStore E, a < s.len → ∃ m, (readRange fs s a c : Res (List E)) = .error (.panic m)) ∧
    (∀ s : MmapStore E, a < s.len → s.map ≠ none →
      ∃ m, (readRange fs s a c : Res (List E)) = .error (.panic m)) ∧
    ∀ s : LevelCacheStore E, a < s.len → s.InBounds (a * Element.byteLen E) →
      ∃ m, (readRange fs s a c : Res (List E)) = .error (.panic m) := by
  have hp := LawfulElement.byteLen_pos (E := E)
  have hlt := Nat.mul_lt_mul_of_pos_right hca hp
  refine ⟨fun s hs => ?_, fun s hs hm => ?_, fun s hs hb => ?_⟩
  · have h1 := Nat.mul_lt_mul_of_pos_right hs hp
    show ∃ m, DiskStore.readRange fs s a c = _
    unfold DiskStore.readRange DiskStore.checkRange DiskStore.storeReadRange subP
    dsimp only
    rw [ensure_true h1, Res.ok_bind, ensure_true (by omega), Res.ok_bind, if_neg (by omega)]
    exact ⟨_, rfl⟩
  · have h1 := Nat.mul_lt_mul_of_pos_right hs hp
    show ∃ m, MmapStore.readRange fs s a c = _
    unfold MmapStore.readRange MmapStore.checkRange MmapStore.mapRead
    dsimp only
    rw [ensure_true h1, Res.ok_bind, ensure_true (by omega), Res.ok_bind]
    cases hn : s.map with
    | none => exact absurd hn hm
    | some n =>
      dsimp only
      rw [if_neg (by omega)]
      exact ⟨_, rfl⟩
  · have h1 := Nat.mul_lt_mul_of_pos_right hs hp
    show ∃ m, LevelCacheStore.readRange fs s a c = _
    unfold LevelCacheStore.readRange LevelCacheStore.checkRange LevelCacheStore.storeReadRange subP
    dsimp only
    rw [ensure_true h1, Res.ok_bind, ensure_true (by omega), Res.ok_bind, ensure_true hb, Res.ok_bind,
      if_neg (by omega)]
    exact ⟨_, rfl⟩

/-- `DiskStore::read_range_into` and `LevelCacheStore::read_range_into` (without a reader) do not look at
the end of the range, once it is found not to lie beyond the store: the buffer alone determines how much
is read. -/
theorem C50_range_into_ignores_end_refuted (fs : FS) {a c c' : Nat} (buf bs : Bytes) :
    (∀ s : DiskStore E, c ≤ s.len → c' ≤ s.len →
      (readRangeInto (E := E) fs s a c buf = .ok bs ↔ readRangeInto (E := E) fs s a c' buf = .ok bs)) ∧
    ∀ s : LevelCacheStore E, s.reader = none → c ≤ s.len → c' ≤ s.len →
      (readRangeInto (E := E) fs s a c buf = .ok bs ↔ readRangeInto (E := E) fs s a c' buf = .ok bs) := by
  constructor
  · intro s h1 h2
    show DiskStore.readRangeInto fs s a c buf = _ ↔ DiskStore.readRangeInto fs s a c' buf = _
    unfold DiskStore.readRangeInto DiskStore.checkRange DiskStore.storeReadInto
    dsimp only
    rw [ensure_true (c := c * Element.byteLen E ≤ _) (Nat.mul_le_mul_right _ h1),
      ensure_true (c := c' * Element.byteLen E ≤ _) (Nat.mul_le_mul_right _ h2)]
    simp only [bind_ok_iff, readContext_ok_iff]
  · intro s hr h1 h2
    show LevelCacheStore.readRangeInto fs s a c buf = _ ↔ LevelCacheStore.readRangeInto fs s a c' buf = _
    unfold LevelCacheStore.readRangeInto LevelCacheStore.checkRange LevelCacheStore.storeReadInto
    dsimp only
    rw [ensure_true (c := c * Element.byteLen E ≤ _) (Nat.mul_le_mul_right _ h1),
      ensure_true (c := c' * Element.byteLen E ≤ _) (Nat.mul_le_mul_right _ h2), hr]
    simp only [bind_ok_iff, readContext_ok_iff]

/-- C50 fails for `read_range_into` too: on a range that ends before its start, a read that fails
panics while its error message is put together (`end - start`) instead of returning `Err`. -/
theorem C50_range_into_message_refuted {fs : FS} {a c : Nat} (hca : c < a) {buf bs : Bytes} :
    (∀ s : DiskStore E, a < s.len → fs.file s.file = some bs →
      bs.length < a * Element.byteLen E + buf.length → buf ≠ [] →
      ∃ m, readRangeInto (E := E) fs s a c buf = .error (.panic m)) ∧
    ∀ s : LevelCacheStore E, a < s.len → s.InBounds (a * Element.byteLen E) → s.reader = none →
      fs.file s.file = some bs → bs.length < s.adjustedStart (a * Element.byteLen E) + buf.length →
      buf ≠ [] → ∃ m, readRangeInto (E := E) fs s a c buf = .error (.panic m) := by
  have hp := LawfulElement.byteLen_pos (E := E)
  have hlt := Nat.mul_lt_mul_of_pos_right hca hp
  refine ⟨fun s hs hf hl h0 => ?_, fun s hs hb hr hf hl h0 => ?_⟩
  · have h1 := Nat.mul_lt_mul_of_pos_right hs hp
    show ∃ m, DiskStore.readRangeInto fs s a c buf = _
    unfold DiskStore.readRangeInto DiskStore.checkRange DiskStore.storeReadInto
    dsimp only
    obtain ⟨m, hm⟩ := readExactAt_past hf (List.length_pos_iff.2 h0) hl
    rw [ensure_true h1, Res.ok_bind, ensure_true (by omega), Res.ok_bind, hm]
    unfold readContext subP
    rw [if_neg (by omega)]
    exact ⟨_, rfl⟩
  · have h1 := Nat.mul_lt_mul_of_pos_right hs hp
    show ∃ m, LevelCacheStore.readRangeInto fs s a c buf = _
    unfold LevelCacheStore.readRangeInto LevelCacheStore.checkRange LevelCacheStore.storeReadInto
    dsimp only
    obtain ⟨m, hm⟩ := readExactAt_past hf (List.length_pos_iff.2 h0) hl
    rw [ensure_true h1, Res.ok_bind, ensure_true (by omega), Res.ok_bind, ensure_true hb, Res.ok_bind,
      ensure_true hb, Res.ok_bind, hr]
    dsimp only
    rw [hm]
    unfold readContext subP
    rw [if_neg (by omega)]
    exact ⟨_, rfl⟩

section examples

-- a store with two of three bytes in use
example : readRange (S := DiskStore UInt8) (FS.empty.set (.temp 0) (some [5, 7, 9])) ⟨2, .temp 0, false, 3⟩ 0 2
    = .ok [5, 7] := rfl
example : ∃ m, readRange (S := DiskStore UInt8) (FS.empty.set (.temp 0) (some [5, 7, 9]))
    ⟨2, .temp 0, false, 3⟩ 1 0 = .error (.panic m) := (C50_reversed_refuted _ (by decide)).1 _ (by decide)
example : readRangeInto (S := DiskStore UInt8) (E := UInt8) (FS.empty.set (.temp 0) (some [5, 7, 9]))
    ⟨2, .temp 0, false, 3⟩ 1 0 [0, 0] = .ok [7, 9] := rfl
-- a buffer that reaches past the end of the file
example : ∃ m, readRangeInto (S := DiskStore UInt8) (E := UInt8) (FS.empty.set (.temp 0) (some [5, 7, 9]))
    ⟨2, .temp 0, false, 3⟩ 1 0 [0, 0, 0] = .error (.panic m) :=
  (C50_range_into_message_refuted (by decide)).1 _ (by decide) rfl (by decide) (by decide)

end examples
end Verif
