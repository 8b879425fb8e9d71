import Verif.Spec.Runs
import Verif.Lemmas.Replica
/-! Reading runs of elements through `LevelCacheStore`. -/
set_option linter.unusedSectionVars false
namespace Verif
open Spec StoreOps

section
variable {E : Type} [Element E] [LawfulElement E]

theorem readExactAt_run {fs : FS} {f : FileId} {es : List E} (h : fs.file f = some (encodeAll es))
    {j n : Nat} (hn : 0 < n) (hj : j + n ≤ es.length) :
    fs.readExactAt f (j * Element.byteLen E) (n * Element.byteLen E)
      = .ok (encodeAll ((es.drop j).take n)) := by
  have hp := LawfulElement.byteLen_pos (E := E)
  have h1 := Nat.mul_pos hn hp
  unfold FS.readExactAt
  rw [FS.contents_ok h, Res.ok_bind, if_neg (by omega), if_pos (by
    rw [length_encodeAll, ← Nat.add_mul]; exact Nat.mul_le_mul_right _ hj), encodeAll_run]

theorem readExactAt_run_past {fs : FS} {f : FileId} {es : List E} (h : fs.file f = some (encodeAll es))
    {j n : Nat} (hn : 0 < n) (hj : es.length < j + n) :
    Res.IsErr (fs.readExactAt f (j * Element.byteLen E) (n * Element.byteLen E)) := by
  have hp := LawfulElement.byteLen_pos (E := E)
  refine readExactAt_past h (Nat.mul_pos hn hp) ?_
  rw [length_encodeAll, ← Nat.add_mul]
  exact (Nat.mul_lt_mul_right hp).2 hj

theorem take_drop_getD (es : List E) (a n : Nat) (h : a + n ≤ es.length) (f : Nat → E)
    (hf : ∀ i (hi : i < es.length), a ≤ i → es[i] = f i) :
    (es.drop a).take n = (List.range n).map fun i => f (a + i) := by
  apply List.ext_getElem
  · simp; omega
  · intro i h1 h2
    simp only [List.length_map, List.length_range] at h2
    simp only [List.getElem_take, List.getElem_drop, List.getElem_map, List.getElem_range]
    exact hf _ (by omega) (by omega)

namespace LevelCacheStore
variable {s : LevelCacheStore E} {fs : FS} {a n : Nat}

theorem run_is (hn : 0 < n) (ha : a + n ≤ s.len) (hb : s.InBounds (a * Element.byteLen E)) {es : List E}
    (h : ∀ buf : Bytes, buf.length = n * Element.byteLen E →
      storeReadInto fs s (a * Element.byteLen E) ((a + n) * Element.byteLen E) buf = .ok (encodeAll es)) :
    RunIs fs s a n es := by
  have hp := LawfulElement.byteLen_pos (E := E)
  have h1 : a * Element.byteLen E < s.len * Element.byteLen E := mul_byteLen_lt.2 (by omega)
  have h2 : (a + n) * Element.byteLen E ≤ s.len * Element.byteLen E := mul_byteLen_le.2 ha
  refine ⟨?_, fun buf hbuf => ?_⟩
  · show readRange fs s a (a + n) = _
    unfold readRange
    dsimp only
    rw [checkRange_ok h1 h2 hb, Res.ok_bind]
    have := h (List.replicate (n * Element.byteLen E) 0) (by simp)
    unfold storeReadInto at this
    simp only [readContext_le (mul_byteLen_le.2 (show a ≤ a + n by omega))] at this
    unfold storeReadRange
    rw [ensure_true hb, Res.ok_bind] at this
    rw [subP_ok (mul_byteLen_le.2 (by omega)), Res.ok_bind, ensure_true hb, Res.ok_bind,
      show (a + n) * Element.byteLen E - a * Element.byteLen E = n * Element.byteLen E by
        rw [Nat.add_mul]; omega]
    rw [List.length_replicate] at this
    rw [this, Res.ok_bind, decodeAll_encodeAll]
  · show readRangeInto fs s a (a + n) buf = _
    unfold readRangeInto
    dsimp only
    rw [checkRange_ok h1 h2 hb, Res.ok_bind, h buf hbuf]

theorem run_err (h : ∀ buf : Bytes, buf.length = n * Element.byteLen E →
      Res.IsErr (storeReadInto fs s (a * Element.byteLen E) ((a + n) * Element.byteLen E) buf)) :
    RunErr E fs s a n := by
  have hc : (checkRange s (a * Element.byteLen E) ((a + n) * Element.byteLen E) = .ok () ∧
      s.InBounds (a * Element.byteLen E)) ∨
      Res.IsErr (checkRange s (a * Element.byteLen E) ((a + n) * Element.byteLen E)) := by
    unfold checkRange
    dsimp only
    by_cases h1 : a * Element.byteLen E < s.len * Element.byteLen E
    · rw [ensure_true h1, Res.ok_bind]
      by_cases h2 : (a + n) * Element.byteLen E ≤ s.len * Element.byteLen E
      · rw [ensure_true h2, Res.ok_bind]
        by_cases h3 : s.InBounds (a * Element.byteLen E)
        · rw [ensure_true h3]; exact .inl ⟨rfl, h3⟩
        · rw [ensure_false h3]; exact .inr ⟨_, rfl⟩
      · rw [ensure_false h2]; exact .inr ⟨_, rfl⟩
    · rw [ensure_false h1]; exact .inr ⟨_, rfl⟩
  refine ⟨?_, fun buf hbuf => ?_⟩
  · show Res.IsErr (readRange fs s a (a + n))
    unfold readRange
    dsimp only
    rcases hc with ⟨hc, hb⟩ | ⟨m, hc⟩
    · rw [hc, Res.ok_bind]
      obtain ⟨m, hm⟩ := h (List.replicate (n * Element.byteLen E) 0) (by simp)
      unfold storeReadInto at hm
      simp only [readContext_le (mul_byteLen_le.2 (show a ≤ a + n by omega))] at hm
      rw [ensure_true hb, Res.ok_bind, List.length_replicate] at hm
      unfold storeReadRange
      rw [subP_ok (mul_byteLen_le.2 (by omega)), Res.ok_bind, ensure_true hb, Res.ok_bind,
        show (a + n) * Element.byteLen E - a * Element.byteLen E = n * Element.byteLen E by
          rw [Nat.add_mul]; omega, hm]
      exact ⟨_, rfl⟩
    · rw [hc]; exact ⟨_, rfl⟩
  · show Res.IsErr (readRangeInto fs s a (a + n) buf)
    unfold readRangeInto
    dsimp only
    rcases hc with ⟨hc, hb⟩ | ⟨m, hc⟩
    · rw [hc, Res.ok_bind]; exact h buf hbuf
    · rw [hc]; exact ⟨_, rfl⟩

/-- Past the end. -/
theorem run_err_len (h : s.len < a + n) : RunErr E fs s a n := by
  have hc : Res.IsErr (checkRange s (a * Element.byteLen E) ((a + n) * Element.byteLen E)) := by
    unfold checkRange
    dsimp only
    by_cases h1 : a * Element.byteLen E < s.len * Element.byteLen E
    · rw [ensure_true h1, Res.ok_bind, ensure_false (by rw [mul_byteLen_le]; omega)]; exact ⟨_, rfl⟩
    · rw [ensure_false h1]; exact ⟨_, rfl⟩
  obtain ⟨m, hc⟩ := hc
  refine ⟨?_, fun buf hbuf => ?_⟩
  · show Res.IsErr (readRange fs s a (a + n))
    unfold readRange
    dsimp only
    rw [hc]; exact ⟨_, rfl⟩
  · show Res.IsErr (readRangeInto fs s a (a + n) buf)
    unfold readRangeInto
    dsimp only
    rw [hc]; exact ⟨_, rfl⟩

/-- Reading one element into a buffer is reading a run of length one. -/
theorem readInto_eq (i : Nat) (buf : Bytes) :
    StoreOps.readInto (E := E) fs s i buf = StoreOps.readRangeInto (E := E) fs s i (i + 1) buf := by
  show readInto fs s i buf = readRangeInto fs s i (i + 1) buf
  unfold readInto readRangeInto
  rw [Nat.succ_mul]

variable {b k d : Nat}

theorem View.run_discarded (h : s.View b k d) (h1 : b ^ k < a) (h2 : a < rowStart b k (d + 1)) :
    RunErr E fs s a n := by
  refine run_err fun buf _ => ?_
  unfold storeReadInto
  rw [ensure_false]
  · exact ⟨_, rfl⟩
  · unfold InBounds
    rw [h.width, h.start, mul_byteLen_le, ge_iff_le, mul_byteLen_le]
    omega

theorem View.adjusted_low (h : s.View b k d) (ha : a < rowStart b k (d + 1)) :
    s.adjustedStart (a * Element.byteLen E) = a * Element.byteLen E := by
  unfold adjustedStart
  rw [h.start, if_neg (by rw [ge_iff_le, mul_byteLen_le]; omega)]

/-- Where a cached element is in the file, with and without a reader. -/
theorem View.adjusted_high (h : s.View b k d) (ha : rowStart b k (d + 1) ≤ a) :
    s.adjustedStart (a * Element.byteLen E)
      = ((if s.reader.isNone then b ^ k else 0) + (a - rowStart b k (d + 1))) * Element.byteLen E := by
  unfold adjustedStart
  rw [h.start, h.width, if_pos (by rw [ge_iff_le, mul_byteLen_le]; omega), ← Nat.sub_mul]
  by_cases hr : s.reader.isNone = true
  · simp only [hr, ↓reduceIte]; rw [← Nat.add_mul, Nat.add_comm]
  · rw [if_neg hr, if_neg hr, Nat.zero_add]

/-- Without a reader, runs come from the file. -/
theorem View.run_none (hr : s.reader = none) (hn : 0 < n) (ha : a + n ≤ s.len)
    (hb : s.InBounds (a * Element.byteLen E)) {j : Nat}
    (hj : s.adjustedStart (a * Element.byteLen E) = j * Element.byteLen E) {es : List E}
    (hf : fs.file s.file = some (encodeAll es)) :
    (j + n ≤ es.length → RunIs fs s a n ((es.drop j).take n)) ∧
    (es.length < j + n → RunErr E fs s a n) := by
  constructor
  · intro hjn
    refine run_is hn ha hb fun buf hbuf => ?_
    unfold storeReadInto
    simp only [readContext_le (mul_byteLen_le.2 (show a ≤ a + n by omega))]
    rw [ensure_true hb, Res.ok_bind, hr]
    dsimp only
    rw [hj, hbuf]
    exact readExactAt_run hf hn hjn
  · intro hjn
    refine run_err fun buf hbuf => ?_
    unfold storeReadInto
    simp only [readContext_le (mul_byteLen_le.2 (show a ≤ a + n by omega))]
    rw [ensure_true hb, Res.ok_bind, hr]
    dsimp only
    rw [hj, hbuf]
    exact readExactAt_run_past hf hn hjn

/-- With a reader, runs that start above the leaves come from the file. -/
theorem View.run_some_high (h : s.View b k d) {r : ExternalReader} (hr : s.reader = some r) (hn : 0 < n)
    (ha : a + n ≤ s.len) (hb : s.InBounds (a * Element.byteLen E)) (hw : b ^ k ≤ a) {j : Nat}
    (hj : s.adjustedStart (a * Element.byteLen E) = j * Element.byteLen E) {es : List E}
    (hf : fs.file s.file = some (encodeAll es)) :
    (j + n ≤ es.length → RunIs fs s a n ((es.drop j).take n)) ∧
    (es.length < j + n → RunErr E fs s a n) := by
  have hlt : ¬ a * Element.byteLen E < s.dataWidth * Element.byteLen E := by
    rw [mul_byteLen_lt, h.width]; omega
  constructor
  · intro hjn
    refine run_is hn ha hb fun buf hbuf => ?_
    unfold storeReadInto
    simp only [readContext_le (mul_byteLen_le.2 (show a ≤ a + n by omega))]
    rw [ensure_true hb, Res.ok_bind, hr]
    dsimp only
    rw [if_neg hlt, hj, hbuf]
    exact readExactAt_run hf hn hjn
  · intro hjn
    refine run_err fun buf hbuf => ?_
    unfold storeReadInto
    simp only [readContext_le (mul_byteLen_le.2 (show a ≤ a + n by omega))]
    rw [ensure_true hb, Res.ok_bind, hr]
    dsimp only
    rw [if_neg hlt, hj, hbuf]
    exact readExactAt_run_past hf hn hjn

/-- With a reader, runs that start in the leaves come from the reader, all of them. -/
theorem View.run_some_low (h : s.View b k d) {r : ExternalReader} (hr : s.reader = some r) (hn : 0 < n)
    (ha : a + n ≤ s.len) (hw : a < b ^ k) {es : List E} (hs : r.Serves fs es) (hl : a + n ≤ es.length) :
    RunIs fs s a n ((es.drop a).take n) := by
  have hlt : a * Element.byteLen E < s.dataWidth * Element.byteLen E := by
    rw [mul_byteLen_lt, h.width]; omega
  have hb := h.inBounds_base (i := a) (by omega)
  refine run_is hn ha hb fun buf hbuf => ?_
  unfold storeReadInto
  simp only [readContext_le (mul_byteLen_le.2 (show a ≤ a + n by omega))]
  rw [ensure_true hb, Res.ok_bind, hr]
  dsimp only
  rw [if_pos hlt]
  exact hs a n hl buf hbuf

end LevelCacheStore

/-! #### Opening a compacted tree -/
section
variable [FloatRows] {A : Alg E} {b k : Nat} (hb : Arity b) (hk : 1 ≤ k) (hf : FloatRows.ExactAt b k)
    {leaves : List E} {f : Nat → E} {c : StoreConfig} {fs : FS} {t : BaseTree (DiskStore E) E}
    (ht : t.IsFileTree A b k leaves f c fs) (hd : c.rowsToDiscard < k)
include hb hk hf ht hd

theorem LevelCacheStore.open_v2 {version : Nat} (hv : version ≠ 1) {t' : BaseTree (DiskStore E) E}
    {fs' : FS} (h : t.compact b c version fs = (.ok true, t', fs')) (r : ExternalReader) :
    ∃ s : LevelCacheStore E,
      LevelCacheStore.newFromDiskWithReader t.length b c r fs' = (.ok s, fs') ∧
      s.View b k c.rowsToDiscard ∧ s.reader = some r ∧
      fs'.file s.file = some (encodeAll (cachedRows b k c.rowsToDiscard f)) ∧
      ∀ g, g ≠ c.file → fs'.file g = fs.file g := by
  obtain ⟨fs₁, g1, g2, g3⟩ := DiskStore.compact_ok hb hk hf hd ht.len ht.size ht.layout ht.file version
  have h0 := BaseTree.compact_of_store (t := t) g1
  rw [h] at h0
  simp only [Prod.mk.injEq, true_and] at h0
  obtain ⟨-, rfl⟩ := h0
  unfold compacted at g2
  rw [if_neg hv] at g2
  have hlen : t.length = nodes b k := ht.len
  refine ⟨_, by rw [hlen]; exact LevelCacheStore.newFromDiskWithReader_run hb hk hf hd g2 (by
    rw [length_encodeAll, cachedRows_length]) r, ⟨rfl, rfl, rfl⟩, rfl, g2, g3.1⟩

theorem LevelCacheStore.open_v1 {t' : BaseTree (DiskStore E) E}
    {fs' : FS} (h : t.compact b c 1 fs = (.ok true, t', fs')) :
    ∃ s : LevelCacheStore E,
      LevelCacheStore.newFromDisk t.length b c fs' = (.ok s, fs') ∧
      s.View b k c.rowsToDiscard ∧ s.reader = none ∧
      fs'.file s.file = some (encodeAll (leaves ++ cachedRows b k c.rowsToDiscard f)) := by
  obtain ⟨fs₁, g1, g2, g3⟩ := DiskStore.compact_ok hb hk hf hd ht.len ht.size ht.layout ht.file 1
  have h0 := BaseTree.compact_of_store (t := t) g1
  rw [h] at h0
  simp only [Prod.mk.injEq, true_and] at h0
  obtain ⟨-, rfl⟩ := h0
  unfold compacted at g2
  rw [if_pos rfl] at g2
  have hlen : t.length = nodes b k := ht.len
  refine ⟨_, by rw [hlen]; exact LevelCacheStore.newFromDisk_run hb hk hf hd g2, ⟨rfl, rfl, rfl⟩, rfl, g2⟩

end
end
end Verif
