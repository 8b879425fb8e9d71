import Verif.Props.Compact
import Verif.Props.Stores
import Verif.Lemmas.RangeReads
import Verif.Lemmas.Crash
/-! Property C86: writing to a `DiskStore` after it was compacted. -/
namespace Verif
open Spec StoreOps

section
variable {E : Type} [Element E] [LawfulElement E]

/-- What a write that passes the check of `store_size` does, inside the file or beyond its end. -/
theorem DiskStore.writeAt_file {s : DiskStore E} {e : E} {i : Nat} {fs : FS} {bs : Bytes}
    (hf : fs.file s.file = some bs) (hz : (i + 1) * Element.byteLen E ≤ s.storeSize) :
    ∃ fs', DiskStore.writeAt s e i fs = (.ok { s with len := max s.len (i + 1) }, fs') ∧
      fs'.file s.file = some (patch bs (i * Element.byteLen E) (Element.toBytes e)) ∧
      ∀ g, g ≠ s.file → fs'.file g = fs.file g := by
  have hp := LawfulElement.byteLen_pos (E := E)
  have hl := LawfulElement.length_toBytes e
  have e1 : (i + 1) * Element.byteLen E = i * Element.byteLen E + Element.byteLen E := by ring
  refine ⟨fs.set s.file (some (patch bs (i * Element.byteLen E) (Element.toBytes e))), ?_,
    FS.set_self _ _ _, fun g hg => FS.set_other _ hg _⟩
  unfold DiskStore.writeAt
  refine M.bind_ok (a := ()) ?_
  unfold DiskStore.storeCopyFromSlice
  rw [M.bind_ok (mEnsure_true (by omega) _ _)]
  unfold FS.writeAllAt
  rw [FS.contents_ok hf]
  dsimp only
  rw [if_neg]
  intro h0
  rw [h0] at hl
  simp at hl
  omega

/-- Writing at or past the end of a file leaves zeros in between. -/
theorem patch_past {bs data : Bytes} {off : Nat} (h : bs.length ≤ off) :
    patch bs off data = bs ++ List.replicate (off - bs.length) 0 ++ data := by
  unfold patch
  rw [List.take_of_length_le (by simp; omega), List.drop_eq_nil_of_le (by omega), List.append_nil]

/-- A read through a `DiskStore` of an element that is in its file. -/
theorem DiskStore.readAt_file {s : DiskStore E} {i : Nat} {fs : FS} {bs : Bytes}
    (hf : fs.file s.file = some bs) (hi : i < s.len) (hl : (i + 1) * Element.byteLen E ≤ bs.length) :
    DiskStore.readAt fs s i
      = .ok (Element.decode (region bs (i * Element.byteLen E) (Element.byteLen E))) :=
  DiskStore.readAt_ok_iff.2 ⟨hi, bs, hf, hl, rfl⟩

variable [FloatRows] {A : Alg E}

/-- The store after compaction, with its old `store_size`. -/
theorem compact_store {b k : Nat} (hb : Arity b) (hk : 1 ≤ k) (hf : FloatRows.ExactAt b k)
    {leaves : List E} {f : Nat → E} {c : StoreConfig} {fs : FS} {t : BaseTree (DiskStore E) E}
    (ht : t.IsFileTree A b k leaves f c fs) {version : Nat} {t' : BaseTree (DiskStore E) E} {fs' : FS}
    (h : t.compact b c version fs = (.ok true, t', fs')) :
    c.rowsToDiscard < k ∧ t'.store.file = c.file ∧ t'.store.storeSize = t.length * Element.byteLen E ∧
      t'.store.len = compactedLen version b k c.rowsToDiscard ∧
      ∃ bs, fs'.file c.file = some bs ∧ bs.length = t'.store.len * Element.byteLen E := by
  have hd : c.rowsToDiscard < k := by
    by_contra hd
    obtain ⟨m, hm⟩ := C26_refused hb hk hf ht (by omega) version
    rw [hm] at h; simp at h
  obtain ⟨t₁, fs₁, h1, h2, h3, -, -⟩ := C26_compact hb hk hf ht hd version
  obtain ⟨fs₂, g1, g2, g3⟩ := DiskStore.compact_ok hb hk hf hd ht.len ht.size ht.layout ht.file version
  have h0 : t.compact b c version fs = (.ok true,
      { t with store := ⟨compactedLen version b k c.rowsToDiscard, c.file, t.store.loadedFromDisk,
        t.store.storeSize⟩ }, fs₂) := BaseTree.compact_of_store g1
  rw [h1] at h
  cases h
  rw [h1] at h0
  simp only [Prod.mk.injEq, true_and] at h0
  obtain ⟨rfl, rfl⟩ := h0
  exact ⟨hd, rfl, by rw [ht.len]; exact ht.size, rfl, h3⟩

theorem compactedLen_le {version b k d : Nat} (hd : d < k) : compactedLen version b k d ≤ nodes b k := by
  have hk' : nodes b k = nodes b (k - 1) + b ^ k := by
    obtain ⟨n, rfl⟩ : ∃ n, k = n + 1 := ⟨k - 1, by omega⟩
    rfl
  have : nodes b (k - 1 - d) ≤ nodes b (k - 1) := nodes_mono b (by omega)
  unfold compactedLen
  split <;> omega

section
variable {b k : Nat} (hb : Arity b) (hk : 1 ≤ k) (hf : FloatRows.ExactAt b k)
  {leaves : List E} {f : Nat → E} {c : StoreConfig} {fs : FS} {t : BaseTree (DiskStore E) E}
  (ht : t.IsFileTree A b k leaves f c fs) {version : Nat} {t' : BaseTree (DiskStore E) E} {fs' : FS}
  (h : t.compact b c version fs = (.ok true, t', fs'))
include hb hk hf ht h

/-- **C86**, inside the compacted file: `write_at` replaces that element, and no other element and no
other file changes. -/
theorem C86_inside_partial (e : E) {i : Nat} (hi : i < t'.length) :
    ∃ fs₁, writeAt t'.store e i fs' = (.ok t'.store, fs₁) ∧ readAt fs₁ t'.store i = .ok e ∧
      (∀ j, j ≠ i → (readAt fs₁ t'.store j : Res E) = readAt fs' t'.store j) ∧
      ∀ g, g ≠ c.file → fs₁.file g = fs'.file g := by
  obtain ⟨hd, h1, h2, h3, bs, h4, h5⟩ := compact_store hb hk hf ht h
  have hp := LawfulElement.byteLen_pos (E := E)
  have hlb := LawfulElement.length_toBytes e
  replace hi : i < t'.store.len := hi
  have e1 : (i + 1) * Element.byteLen E = i * Element.byteLen E + Element.byteLen E := by ring
  have e2 : (i + 1) * Element.byteLen E ≤ t'.store.len * Element.byteLen E := Nat.mul_le_mul_right _ hi
  have e3 : t'.store.len ≤ t.length := by
    rw [h3, ht.len]; exact compactedLen_le hd
  have e4 : t'.store.len * Element.byteLen E ≤ t.length * Element.byteLen E := Nat.mul_le_mul_right _ e3
  obtain ⟨fs₁, g1, g2, g3⟩ := DiskStore.writeAt_file (s := t'.store) (e := e) (i := i) (by rw [h1]; exact h4)
    (by omega)
  rw [h1] at g2 g3
  have hpl : (patch bs (i * Element.byteLen E) (Element.toBytes e)).length = bs.length :=
    patch_length (by omega)
  refine ⟨fs₁, ?_, ?_, fun j hj => ?_, g3⟩
  · rw [Nat.max_eq_left (by omega)] at g1
    exact g1
  · refine (DiskStore.readAt_file (by rw [h1]; exact g2) hi (by omega)).trans ?_
    have := region_patch_inside (bs := bs) (off := i * Element.byteLen E) (data := Element.toBytes e)
      (by omega) (a := 0) (n := Element.byteLen E) (by omega)
    rw [Nat.add_zero] at this
    rw [this, region, List.drop_zero, List.take_of_length_le (by omega), LawfulElement.decode_toBytes]
  · by_cases hjl : j < t'.store.len
    · have e5 : (j + 1) * Element.byteLen E ≤ t'.store.len * Element.byteLen E := Nat.mul_le_mul_right _ hjl
      have e6 : (j + 1) * Element.byteLen E = j * Element.byteLen E + Element.byteLen E := by ring
      refine (DiskStore.readAt_file (by rw [h1]; exact g2) hjl (by omega)).trans
        (.trans ?_ (DiskStore.readAt_file (by rw [h1]; exact h4) hjl (by omega)).symm)
      rw [region_patch_disjoint (by omega)]
      rcases Nat.lt_or_gt_of_ne hj with hj | hj
      · have := Nat.mul_le_mul_right (Element.byteLen E) (show j + 1 ≤ i from hj)
        exact .inl (by omega)
      · have := Nat.mul_le_mul_right (Element.byteLen E) (show i + 1 ≤ j from hj)
        exact .inr (by omega)
    · have e5 := Nat.mul_le_mul_right (Element.byteLen E) (show t'.store.len ≤ j by omega)
      obtain ⟨m, hm⟩ := DiskStore.checkRange_err (s := t'.store) (a := j * Element.byteLen E)
        (c := j * Element.byteLen E + Element.byteLen E) (.inl e5)
      show DiskStore.readAt _ _ _ = DiskStore.readAt _ _ _
      unfold DiskStore.readAt
      dsimp only
      rw [hm]; rfl

/-- **C86**, beyond the number of elements the store had before the compaction: `Err`, and nothing
changes. -/
theorem C86_past_partial (e : E) {i : Nat} (hi : t.length ≤ i) :
    ∃ m, writeAt t'.store e i fs' = (.error (.err m), fs') := by
  obtain ⟨-, h1, h2, h3, bs, h4, h5⟩ := compact_store hb hk hf ht h
  have hp := LawfulElement.byteLen_pos (E := E)
  refine C25_disk_write ?_ _
  rw [h2]
  exact Nat.mul_lt_mul_of_pos_right (by omega) hp

/-- **C86 fails** between the end of the compacted file and the old end of the store, because `compact`
does not change the recorded size: `write_at` succeeds there.  The file grows up to the element, with zeros
between; the store reports the new length and returns these elements when read. -/
theorem C86_between_refuted (e : E) {i : Nat} (hi : t'.length ≤ i) (hi' : i < t.length) {bs : Bytes}
    (hbs : fs'.file c.file = some bs) :
    ∃ fs₁, writeAt t'.store e i fs' = (.ok { t'.store with len := i + 1 }, fs₁) ∧
      fs₁.file c.file
        = some (bs ++ List.replicate ((i - t'.length) * Element.byteLen E) 0 ++ Element.toBytes e) ∧
      (∀ g, g ≠ c.file → fs₁.file g = fs'.file g) ∧
      readAt fs₁ ({ t'.store with len := i + 1 } : DiskStore E) i = .ok e ∧
      (∀ j, t'.length ≤ j → j < i → readAt fs₁ ({ t'.store with len := i + 1 } : DiskStore E) j
        = .ok (Element.decode (List.replicate (Element.byteLen E) 0) : E)) ∧
      ∀ j, j < t'.length → (readAt fs₁ ({ t'.store with len := i + 1 } : DiskStore E) j : Res E)
        = readAt fs' t'.store j := by
  obtain ⟨-, h1, h2, h3, bs', h4, h5⟩ := compact_store hb hk hf ht h
  rw [hbs] at h4
  cases h4
  have hp := LawfulElement.byteLen_pos (E := E)
  have hlb := LawfulElement.length_toBytes e
  replace hi : t'.store.len ≤ i := hi
  have e1 : (i + 1) * Element.byteLen E = i * Element.byteLen E + Element.byteLen E := by ring
  have e2 : t'.store.len * Element.byteLen E ≤ i * Element.byteLen E := Nat.mul_le_mul_right _ hi
  have e4 : (i + 1) * Element.byteLen E ≤ t.length * Element.byteLen E := Nat.mul_le_mul_right _ hi'
  obtain ⟨fs₁, g1, g2, g3⟩ := DiskStore.writeAt_file (s := t'.store) (e := e) (i := i) (by rw [h1]; exact hbs)
    (by omega)
  rw [h1] at g2 g3
  rw [patch_past (by omega), h5, ← Nat.sub_mul] at g2
  rw [Nat.max_eq_right (by omega)] at g1
  have e7 : (i - t'.store.len) * Element.byteLen E = i * Element.byteLen E - bs.length := by
    rw [Nat.sub_mul, h5]
  have hrd : ∀ j, j < i + 1 → DiskStore.readAt fs₁ ({ t'.store with len := i + 1 } : DiskStore E) j
      = .ok (Element.decode (region (bs ++ List.replicate ((i - t'.store.len) * Element.byteLen E) 0 ++
        Element.toBytes e) (j * Element.byteLen E) (Element.byteLen E))) := by
    intro j hj
    refine DiskStore.readAt_file (by dsimp only; rw [h1]; exact g2) hj ?_
    have := Nat.mul_le_mul_right (Element.byteLen E) (show j + 1 ≤ i + 1 from hj)
    simp only [List.length_append, List.length_replicate, hlb]
    omega
  refine ⟨fs₁, g1, g2, g3, ?_, fun j hj hj' => ?_, fun j hj => ?_⟩
  · refine (hrd i (by omega)).trans ?_
    rw [region, List.drop_left' (by simp; omega), List.take_of_length_le (by omega),
      LawfulElement.decode_toBytes]
  · replace hj : t'.store.len ≤ j := hj
    have f1 := Nat.mul_le_mul_right (Element.byteLen E) (show t'.store.len ≤ j from hj)
    have f2 := Nat.mul_le_mul_right (Element.byteLen E) (show j + 1 ≤ i from hj')
    have f3 : (j + 1) * Element.byteLen E = j * Element.byteLen E + Element.byteLen E := by ring
    refine (hrd j (by omega)).trans ?_
    congr 2
    rw [region, List.append_assoc, List.drop_append, List.drop_eq_nil_of_le (by omega), List.nil_append,
      List.drop_append_of_le_length (by simp; omega), List.take_append_of_le_length (by simp; omega),
      List.drop_replicate, List.take_replicate]
    congr 1
    omega
  · replace hj : j < t'.store.len := hj
    have f2 := Nat.mul_le_mul_right (Element.byteLen E) (show j + 1 ≤ t'.store.len from hj)
    have f3 : (j + 1) * Element.byteLen E = j * Element.byteLen E + Element.byteLen E := by ring
    refine (hrd j (by omega)).trans
      (.trans ?_ (DiskStore.readAt_file (by rw [h1]; exact hbs) hj (by omega)).symm)
    congr 2
    rw [region, region, List.append_assoc, List.drop_append_of_le_length (by omega),
      List.take_append_of_le_length (by simp; omega)]

/-- **C86**: such a write makes a file compacted to version 2 unusable: it can no longer be opened with a
reader. -/
theorem C86_between_unusable_refuted (hv : version ≠ 1) (e : E) {i : Nat} (hi : t'.length ≤ i)
    (hi' : i < t.length) (r : ExternalReader) :
    ∃ s fs₁ m, writeAt t'.store e i fs' = (.ok s, fs₁) ∧
      LevelCacheStore.newFromDiskWithReader (E := E) t.length b c r fs₁ = (.error (.err m), fs₁) := by
  obtain ⟨hd, h1, h2, h3, bs, h4, h5⟩ := compact_store hb hk hf ht h
  obtain ⟨fs₁, g1, g2, -⟩ := C86_between_refuted hb hk hf ht h e hi hi' h4
  have hp := LawfulElement.byteLen_pos (E := E)
  obtain ⟨m, hm⟩ := LevelCacheStore.newFromDiskWithReader_wrong (E := E) hb hk hf g2 (fun _ => by
    rw [h3, compactedLen, if_neg hv] at h5
    simp only [List.length_append, List.length_replicate, LawfulElement.length_toBytes]
    omega) r
  rw [← ht.len] at hm
  exact ⟨_, fs₁, m, g1, hm⟩

/-- **C86 fails** for `push` in the same way, unless nothing was discarded: it appends to the compacted
file. -/
theorem C86_push_refuted (hlt : t'.length < t.length) (e : E) {bs : Bytes}
    (hbs : fs'.file c.file = some bs) :
    ∃ fs₁, push t'.store e fs' = (.ok { t'.store with len := t'.length + 1 }, fs₁) ∧
      fs₁.file c.file = some (bs ++ Element.toBytes e) := by
  obtain ⟨-, h1, h2, h3, -, -, -⟩ := compact_store hb hk hf ht h
  obtain ⟨fs₁, g1, g2, -⟩ := C86_between_refuted hb hk hf ht h e (Nat.le_refl _) hlt hbs
  rw [Nat.sub_self, Nat.zero_mul, List.replicate_zero, List.append_nil] at g2
  refine ⟨fs₁, ?_, g2⟩
  show DiskStore.push t'.store e fs' = _
  unfold DiskStore.push
  rw [M.bind_ok (mEnsure_true (by rw [h2]; exact Nat.mul_le_mul_right _ hlt) _ _)]
  exact g1

end

end

/-! Concrete instances: the toy tree `72, 73, 74, 75 | 91, 155 | 250` compacted to its root, then
written to. -/
section
attribute [local instance] idealRows

/-- Whether the write succeeded, the length of the store, and the file after it. -/
def writeReport (i : Nat) : Bool × Option Bytes :=
  let c := toyCompacted 1 2
  let w := writeAt c.2.1.store (9 : UInt8) i c.2.2
  (w.1.isOk, w.2.file (StoreConfig.new "d" "t" 1).file)

example : writeReport 0 = (true, some [9]) ∧ writeReport 3 = (true, some [250, 0, 0, 9]) ∧
    writeReport 7 = (false, some [250]) := by decide +kernel

end
end Verif
