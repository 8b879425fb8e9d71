import Verif.Lemmas.Offsets64
import Verif.Props.Encoding
import Verif.Spec.Source
import Verif.Spec.Toy
/-
C65: on 64-bit words, the stores compute the byte offsets of their elements exactly, as long as those
offsets are words; past that, a read or write far outside the store reaches another element.
-/
set_option linter.unusedSectionVars false
namespace Verif
open Spec Word

section
variable {E : Type} [Element E] [LawfulElement E] {o : Overflow}

/-- **C65** for `DiskStore`: for a store of less than 2^63 bytes, every request whose last byte offset is
a word (in the store or outside) gives what it gives with unbounded numbers, whatever the overflow
checks. -/
theorem C65_disk {s : DiskStore E} (hs : s.len * Element.byteLen E < 2 ^ 63) (hz : s.storeSize < 2 ^ 63)
    (fs : FS) :
    (StoreOps.len (⟨s⟩ : Disk64 o E) = StoreOps.len s ∧ StoreOps.isEmpty (⟨s⟩ : Disk64 o E) = StoreOps.isEmpty s ∧
      StoreOps.loadedFromDisk (⟨s⟩ : Disk64 o E) = StoreOps.loadedFromDisk s) ∧
    (∀ i, (i + 1) * Element.byteLen E < wordSize →
      Disk64.readAt fs (⟨s⟩ : Disk64 o E) i = s.readAt fs i ∧
      (∀ buf, Disk64.readInto fs (⟨s⟩ : Disk64 o E) i buf = s.readInto fs i buf) ∧
      ∀ el, Disk64.writeAt (⟨s⟩ : Disk64 o E) el i = (do let s' ← s.writeAt el i; pure ⟨s'⟩)) ∧
    (∀ i j, i ≤ j → j * Element.byteLen E < wordSize →
      Disk64.readRange fs (⟨s⟩ : Disk64 o E) i j = s.readRange fs i j ∧
      ∀ buf, Disk64.readRangeInto fs (⟨s⟩ : Disk64 o E) i j buf = s.readRangeInto fs i j buf) ∧
    (∀ buf i, i * Element.byteLen E + buf.length < wordSize →
      Disk64.copyFromSlice (⟨s⟩ : Disk64 o E) buf i = (do let s' ← s.copyFromSlice buf i; pure ⟨s'⟩)) ∧
    ((s.len + 1) * Element.byteLen E < wordSize → ∀ el,
      Disk64.push (⟨s⟩ : Disk64 o E) el = (do let s' ← s.push el; pure ⟨s'⟩)) :=
  ⟨⟨rfl, rfl, rfl⟩,
    fun _ hi => ⟨Disk64.readAt_eq fs hs hi, Disk64.readInto_eq fs hs hi, fun el => Disk64.writeAt_eq hz el hi⟩,
    fun _ _ hij hj => ⟨Disk64.readRange_eq fs hs hij hj, Disk64.readRangeInto_eq fs hs hij hj⟩,
    fun buf _ hi => Disk64.copyFromSlice_eq hz buf hi, fun h el => Disk64.push_eq hz el h⟩

/-- **C65** for `MmapStore` (which has no `read_range_into`). -/
theorem C65_mmap {s : MmapStore E} (hs : s.len * Element.byteLen E < wordSize) (fs : FS) :
    (StoreOps.len (⟨s⟩ : Mmap64 o E) = StoreOps.len s ∧ StoreOps.isEmpty (⟨s⟩ : Mmap64 o E) = StoreOps.isEmpty s ∧
      StoreOps.loadedFromDisk (⟨s⟩ : Mmap64 o E) = StoreOps.loadedFromDisk s) ∧
    (∀ i, (i + 1) * Element.byteLen E < wordSize →
      Mmap64.readAt fs (⟨s⟩ : Mmap64 o E) i = s.readAt fs i ∧
      (∀ buf, Mmap64.readInto fs (⟨s⟩ : Mmap64 o E) i buf = s.readInto fs i buf) ∧
      ∀ el, Mmap64.writeAt (⟨s⟩ : Mmap64 o E) el i = (do let s' ← s.writeAt el i; pure ⟨s'⟩)) ∧
    (∀ i j, i ≤ j → j * Element.byteLen E < wordSize →
      Mmap64.readRange fs (⟨s⟩ : Mmap64 o E) i j = s.readRange fs i j) ∧
    (∀ buf i, i * Element.byteLen E + buf.length < wordSize →
      Mmap64.copyFromSlice (⟨s⟩ : Mmap64 o E) buf i = (do let s' ← s.copyFromSlice buf i; pure ⟨s'⟩)) ∧
    ((s.len + 1) * Element.byteLen E < wordSize → ∀ el,
      Mmap64.push (⟨s⟩ : Mmap64 o E) el = (do let s' ← s.push el; pure ⟨s'⟩)) :=
  ⟨⟨rfl, rfl, rfl⟩,
    fun _ hi => ⟨Mmap64.readAt_eq fs hs hi, Mmap64.readInto_eq fs hs hi, fun el => Mmap64.writeAt_eq el hi⟩,
    fun _ _ hij hj => Mmap64.readRange_eq fs hs hij hj,
    fun buf _ hi => Mmap64.copyFromSlice_eq buf hi, fun h el => Mmap64.push_eq el h⟩

/-- **C65** for `LevelCacheStore`, with or without a reader: the reader's offset must also leave room. -/
theorem C65_level_cache {s : LevelCacheStore E} (hs : LevelCache64.Fits s) (hz : s.storeSize < 2 ^ 63) (fs : FS) :
    (StoreOps.len (⟨s⟩ : LevelCache64 o E) = StoreOps.len s ∧
      StoreOps.isEmpty (⟨s⟩ : LevelCache64 o E) = StoreOps.isEmpty s ∧
      StoreOps.loadedFromDisk (⟨s⟩ : LevelCache64 o E) = StoreOps.loadedFromDisk s) ∧
    (∀ i, (i + 1) * Element.byteLen E < wordSize →
      LevelCache64.readAt fs (⟨s⟩ : LevelCache64 o E) i = s.readAt fs i ∧
      (∀ buf, LevelCache64.readInto fs (⟨s⟩ : LevelCache64 o E) i buf = s.readInto fs i buf) ∧
      ∀ el, LevelCache64.writeAt (⟨s⟩ : LevelCache64 o E) el i = (do let s' ← s.writeAt el i; pure ⟨s'⟩)) ∧
    (∀ i j, i ≤ j → j * Element.byteLen E < wordSize →
      LevelCache64.readRange fs (⟨s⟩ : LevelCache64 o E) i j = s.readRange fs i j ∧
      ∀ buf, LevelCache64.readRangeInto fs (⟨s⟩ : LevelCache64 o E) i j buf = s.readRangeInto fs i j buf) ∧
    (∀ buf i, i * Element.byteLen E + buf.length < wordSize →
      LevelCache64.copyFromSlice (⟨s⟩ : LevelCache64 o E) buf i =
        (do let s' ← s.copyFromSlice buf i; pure ⟨s'⟩)) ∧
    ((s.len + 1) * Element.byteLen E < wordSize → ∀ el,
      LevelCache64.push (⟨s⟩ : LevelCache64 o E) el = (do let s' ← s.push el; pure ⟨s'⟩)) :=
  ⟨⟨rfl, rfl, rfl⟩,
    fun _ hi => ⟨LevelCache64.readAt_eq fs hs hi, LevelCache64.readInto_eq fs hs hi,
      fun el => LevelCache64.writeAt_eq hz el hi⟩,
    fun _ _ hij hj => ⟨LevelCache64.readRange_eq fs hs hij hj, LevelCache64.readRangeInto_eq fs hs hij hj⟩,
    fun buf _ hi => LevelCache64.copyFromSlice_eq hz buf hi, fun h el => LevelCache64.push_eq hz el h⟩

/-! ### `gen_proof` -/

/-- The last byte of a node of a tree that fits is numbered by a word. -/
theorem node_offset_lt {n p w m : Nat} (hp : p < n) (h : n * w < m) : (p + 1) * w < m :=
  Nat.lt_of_le_of_lt (Nat.mul_le_mul_right _ hp) h

/-- **C65** for `gen_proof` over a `DiskStore`: on words it gives the proofs (and errors) it gives with
unbounded numbers. -/
theorem C65_gen_proof_disk {b k : Nat} (hb : Arity b) (hk : 1 ≤ k) {fs : FS} {t : BaseTree (DiskStore E) E}
    (hl : t.leafs = b ^ k) (hrows : t.rowCount = k + 1) (hlen : t.length = nodes b k)
    (hw : nodes b k * Element.byteLen E < 2 ^ 63) (i : Nat) :
    (⟨⟨t.store⟩, t.leafs, t.len, t.rowCount, t.root⟩ : BaseTree (Disk64 o E) E).genProof64 o b 0 0 fs i =
      t.genProof b 0 0 fs i := by
  have h1 := half_lt_word
  have h2 : nodes b k ≤ nodes b k * Element.byteLen E :=
    Nat.le_mul_of_pos_right _ (LawfulElement.byteLen_pos (E := E))
  have hs : t.store.len = nodes b k := hlen
  exact BaseTree.genProof64_eq (t := (⟨⟨t.store⟩, t.leafs, t.len, t.rowCount, t.root⟩ : BaseTree (Disk64 o E) E))
    (t' := t) hb hk hl hrows hlen hl hrows hlen rfl (by omega)
    (fun p hp => Disk64.readAt_eq fs (by rw [hs]; exact hw) (node_offset_lt hp (by omega))) i

/-- **C65** for `gen_proof` over an `MmapStore`. -/
theorem C65_gen_proof_mmap {b k : Nat} (hb : Arity b) (hk : 1 ≤ k) {fs : FS} {t : BaseTree (MmapStore E) E}
    (hl : t.leafs = b ^ k) (hrows : t.rowCount = k + 1) (hlen : t.length = nodes b k)
    (hw : nodes b k * Element.byteLen E < wordSize) (i : Nat) :
    (⟨⟨t.store⟩, t.leafs, t.len, t.rowCount, t.root⟩ : BaseTree (Mmap64 o E) E).genProof64 o b 0 0 fs i =
      t.genProof b 0 0 fs i := by
  have h2 : nodes b k ≤ nodes b k * Element.byteLen E :=
    Nat.le_mul_of_pos_right _ (LawfulElement.byteLen_pos (E := E))
  have hs : t.store.len = nodes b k := hlen
  exact BaseTree.genProof64_eq (t := (⟨⟨t.store⟩, t.leafs, t.len, t.rowCount, t.root⟩ : BaseTree (Mmap64 o E) E))
    (t' := t) hb hk hl hrows hlen hl hrows hlen rfl (by omega)
    (fun p hp => Mmap64.readAt_eq fs (by rw [hs]; exact hw) (node_offset_lt hp hw)) i

/-- **C65** for `gen_proof` over a `LevelCacheStore`. -/
theorem C65_gen_proof_level_cache {b k : Nat} (hb : Arity b) (hk : 1 ≤ k) {fs : FS}
    {t : BaseTree (LevelCacheStore E) E} (hl : t.leafs = b ^ k) (hrows : t.rowCount = k + 1)
    (hlen : t.length = nodes b k) (hs : LevelCache64.Fits t.store) (i : Nat) :
    (⟨⟨t.store⟩, t.leafs, t.len, t.rowCount, t.root⟩ : BaseTree (LevelCache64 o E) E).genProof64 o b 0 0 fs i =
      t.genProof b 0 0 fs i := by
  have h1 := half_lt_word
  have h2 : nodes b k ≤ nodes b k * Element.byteLen E :=
    Nat.le_mul_of_pos_right _ (LawfulElement.byteLen_pos (E := E))
  have h3 : t.store.len = nodes b k := hlen
  have hw := hs.len
  rw [h3] at hw
  exact BaseTree.genProof64_eq (t := (⟨⟨t.store⟩, t.leafs, t.len, t.rowCount, t.root⟩ : BaseTree (LevelCache64 o E) E))
    (t' := t) hb hk hl hrows hlen hl hrows hlen rfl (by omega)
    (fun p hp => LevelCache64.readAt_eq fs hs (node_offset_lt hp (by omega))) i

/-- **C65** for `gen_proof` over a store without byte offsets (`VecStore`). -/
theorem C65_gen_proof {S : Type} [StoreOps S E] {b k : Nat} (hb : Arity b) (hk : 1 ≤ k) {fs : FS}
    {t : BaseTree S E} (hl : t.leafs = b ^ k) (hrows : t.rowCount = k + 1) (hlen : t.length = nodes b k)
    (hw : nodes b k < wordSize) (i : Nat) : t.genProof64 o b 0 0 fs i = t.genProof b 0 0 fs i :=
  BaseTree.genProof64_eq hb hk hl hrows hlen hl hrows hlen rfl hw (fun _ _ => rfl) i

/-! ### Every index -/

/-- **C65** for `DiskStore`, at every index, for element sizes that are powers of two: without overflow
checks the read is the one at the index modulo 2^64 / size, with them it panics as soon as the end of the
element is not a word. -/
theorem C65_disk_every_read {s : DiskStore E} {σ : Nat} (hw : Element.byteLen E = 2 ^ σ) (hσ : σ ≤ 63)
    (hs : s.len * Element.byteLen E < 2 ^ 63) (fs : FS) (i : Nat) :
    (Disk64.readAt fs (⟨s⟩ : Disk64 .wrapping E) i = s.readAt fs (i % 2 ^ (64 - σ)) ∧
      ∀ buf, Disk64.readInto fs (⟨s⟩ : Disk64 .wrapping E) i buf = s.readInto fs (i % 2 ^ (64 - σ)) buf) ∧
    (wordSize ≤ (i + 1) * Element.byteLen E →
      (∃ m, Disk64.readAt fs (⟨s⟩ : Disk64 .checked E) i = .error (.panic m)) ∧
      ∀ buf, ∃ m, Disk64.readInto fs (⟨s⟩ : Disk64 .checked E) i buf = .error (.panic m)) := by
  refine ⟨?_, fun h => ?_⟩
  · rcases elementRange64_wrapping hw hσ i with ⟨h, he⟩ | ⟨h1, h2, he⟩
    · rw [← elementRange64_ok (o := .wrapping) h] at he
      refine ⟨?_, fun buf => ?_⟩
      · rw [← Disk64.readAt_eq (o := .wrapping) fs hs h]
        unfold Disk64.readAt
        rw [he]
      · rw [← Disk64.readInto_eq (o := .wrapping) fs hs h]
        unfold Disk64.readInto
        rw [he]
    · have hn : ¬ i % 2 ^ (64 - σ) * Element.byteLen E < s.len * Element.byteLen E := by omega
      refine ⟨?_, fun buf => ?_⟩
      · unfold Disk64.readAt DiskStore.readAt
        rw [he, Res.ok_bind]
        simp only [Disk64.checkRange_eq hs]
        unfold DiskStore.checkRange
        simp only [ensure_false hn, Res.error_bind]
      · unfold Disk64.readInto DiskStore.readInto
        rw [he, Res.ok_bind]
        simp only [Disk64.checkRange_eq hs]
        unfold DiskStore.checkRange
        simp only [ensure_false hn, Res.error_bind]
  · obtain ⟨m, hm⟩ := elementRange64_panics h
    refine ⟨⟨m, ?_⟩, fun buf => ⟨m, ?_⟩⟩
    · unfold Disk64.readAt; rw [hm, Res.error_bind]
    · unfold Disk64.readInto; rw [hm, Res.error_bind]

/-- **C65** for `MmapStore`, at every index. -/
theorem C65_mmap_every_read {s : MmapStore E} {σ : Nat} (hw : Element.byteLen E = 2 ^ σ) (hσ : σ ≤ 63)
    (hs : s.len * Element.byteLen E < 2 ^ 63) (fs : FS) (i : Nat) :
    (Mmap64.readAt fs (⟨s⟩ : Mmap64 .wrapping E) i = s.readAt fs (i % 2 ^ (64 - σ)) ∧
      ∀ buf, Mmap64.readInto fs (⟨s⟩ : Mmap64 .wrapping E) i buf = s.readInto fs (i % 2 ^ (64 - σ)) buf) ∧
    (wordSize ≤ (i + 1) * Element.byteLen E →
      (∃ m, Mmap64.readAt fs (⟨s⟩ : Mmap64 .checked E) i = .error (.panic m)) ∧
      ∀ buf, ∃ m, Mmap64.readInto fs (⟨s⟩ : Mmap64 .checked E) i buf = .error (.panic m)) := by
  have hs' := Nat.lt_trans hs half_lt_word
  refine ⟨?_, fun h => ?_⟩
  · rcases elementRange64_wrapping hw hσ i with ⟨h, he⟩ | ⟨h1, h2, he⟩
    · rw [← elementRange64_ok (o := .wrapping) h] at he
      refine ⟨?_, fun buf => ?_⟩
      · rw [← Mmap64.readAt_eq (o := .wrapping) fs hs' h]
        unfold Mmap64.readAt
        rw [he]
      · rw [← Mmap64.readInto_eq (o := .wrapping) fs hs' h]
        unfold Mmap64.readInto
        rw [he]
    · have hn : ¬ i % 2 ^ (64 - σ) * Element.byteLen E < s.len * Element.byteLen E := by omega
      refine ⟨?_, fun buf => ?_⟩
      · unfold Mmap64.readAt MmapStore.readAt
        rw [he, Res.ok_bind]
        simp only [Mmap64.checkRange_eq hs']
        unfold MmapStore.checkRange
        simp only [ensure_false hn, Res.error_bind]
      · unfold Mmap64.readInto MmapStore.readInto
        rw [he, Res.ok_bind]
        simp only [Mmap64.checkRange_eq hs']
        unfold MmapStore.checkRange
        simp only [ensure_false hn, Res.error_bind]
  · obtain ⟨m, hm⟩ := elementRange64_panics h
    refine ⟨⟨m, ?_⟩, fun buf => ⟨m, ?_⟩⟩
    · unfold Mmap64.readAt; rw [hm, Res.error_bind]
    · unfold Mmap64.readInto; rw [hm, Res.error_bind]

/-- **C65** for `LevelCacheStore`, at every index. -/
theorem C65_level_cache_every_read {s : LevelCacheStore E} {σ : Nat} (hw : Element.byteLen E = 2 ^ σ)
    (hσ : σ ≤ 63) (hs : LevelCache64.Fits s) (fs : FS) (i : Nat) :
    (LevelCache64.readAt fs (⟨s⟩ : LevelCache64 .wrapping E) i = s.readAt fs (i % 2 ^ (64 - σ)) ∧
      ∀ buf, LevelCache64.readInto fs (⟨s⟩ : LevelCache64 .wrapping E) i buf = s.readInto fs (i % 2 ^ (64 - σ)) buf) ∧
    (wordSize ≤ (i + 1) * Element.byteLen E →
      (∃ m, LevelCache64.readAt fs (⟨s⟩ : LevelCache64 .checked E) i = .error (.panic m)) ∧
      ∀ buf, ∃ m, LevelCache64.readInto fs (⟨s⟩ : LevelCache64 .checked E) i buf = .error (.panic m)) := by
  refine ⟨?_, fun h => ?_⟩
  · rcases elementRange64_wrapping hw hσ i with ⟨h, he⟩ | ⟨h1, h2, he⟩
    · rw [← elementRange64_ok (o := .wrapping) h] at he
      refine ⟨?_, fun buf => ?_⟩
      · rw [← LevelCache64.readAt_eq (o := .wrapping) fs hs h]
        unfold LevelCache64.readAt
        rw [he]
      · rw [← LevelCache64.readInto_eq (o := .wrapping) fs hs h]
        unfold LevelCache64.readInto
        rw [he]
    · have := hs.len
      have hn : ¬ i % 2 ^ (64 - σ) * Element.byteLen E < s.len * Element.byteLen E := by omega
      refine ⟨?_, fun buf => ?_⟩
      · unfold LevelCache64.readAt LevelCacheStore.readAt
        rw [he, Res.ok_bind]
        simp only [LevelCache64.checkRange_eq hs]
        unfold LevelCacheStore.checkRange
        simp only [ensure_false hn, Res.error_bind]
      · unfold LevelCache64.readInto LevelCacheStore.readInto
        rw [he, Res.ok_bind]
        simp only [LevelCache64.checkRange_eq hs]
        unfold LevelCacheStore.checkRange
        simp only [ensure_false hn, Res.error_bind]
  · obtain ⟨m, hm⟩ := elementRange64_panics h
    refine ⟨⟨m, ?_⟩, fun buf => ⟨m, ?_⟩⟩
    · unfold LevelCache64.readAt; rw [hm, Res.error_bind]
    · unfold LevelCache64.readInto; rw [hm, Res.error_bind]

/-- The largest word leaves the largest remainder. -/
theorem pow_sub_one_mod {k n : Nat} (h : k ≤ n) : (2 ^ n - 1) % 2 ^ k = 2 ^ k - 1 := by
  have h1 := Nat.two_pow_pos k
  have h2 : 2 ^ n = 2 ^ (n - k) * 2 ^ k := by rw [← Nat.pow_add, Nat.sub_add_cancel h]
  have h3 := Nat.two_pow_pos (n - k)
  have h4 : 2 ^ n - 1 = (2 ^ (n - k) - 1) * 2 ^ k + (2 ^ k - 1) := by
    have : (2 ^ (n - k) - 1 + 1) * 2 ^ k = 2 ^ n := by rw [Nat.sub_add_cancel h3, h2]
    rw [Nat.add_mul, Nat.one_mul] at this
    omega
  rw [h4, Nat.add_comm, Nat.add_mul_mod_self_right, Nat.mod_eq_of_lt (by omega)]

/-- **C65** for `write_at` of a `DiskStore`, at every index given as a word: without overflow checks it is
the write at the index modulo 2^64 / size, with the length set for the index asked for; at the one
remainder whose end is 2^64 it is `Err`.  With overflow checks it panics. -/
theorem C65_disk_every_write {s : DiskStore E} {σ : Nat} (hw : Element.byteLen E = 2 ^ σ) (hσ : σ ≤ 63)
    (hz : s.storeSize < 2 ^ 63) (el : E) {i : Nat} (hi : i < wordSize) :
    (i % 2 ^ (64 - σ) ≠ 2 ^ (64 - σ) - 1 → Disk64.writeAt (⟨s⟩ : Disk64 .wrapping E) el i =
      (do let _ ← s.writeAt el (i % 2 ^ (64 - σ)); pure ⟨{ s with len := max s.len (i + 1) }⟩)) ∧
    (i % 2 ^ (64 - σ) = 2 ^ (64 - σ) - 1 → ∀ fs, ∃ m,
      Disk64.writeAt (⟨s⟩ : Disk64 .wrapping E) el i fs = (.error (.err m), fs)) ∧
    (wordSize ≤ (i + 1) * Element.byteLen E → ∀ fs, ∃ m,
      Disk64.writeAt (⟨s⟩ : Disk64 .checked E) el i fs = (.error (.panic m), fs)) := by
  have hpos := LawfulElement.byteLen_pos (E := E)
  have hws := wordSize_eq
  refine ⟨fun hr => ?_, fun hr fs => ?_, fun h fs => ?_⟩
  · rcases elementRange64_wrapping hw hσ i with ⟨h, -⟩ | ⟨h1, -⟩
    · have h' := h
      rw [Nat.add_mul, Nat.one_mul] at h'
      have hi1 : i + 1 < wordSize := by
        by_contra hc
        refine hr ?_
        rw [show i = 2 ^ 64 - 1 by omega]
        exact pow_sub_one_mod (by omega)
      unfold Disk64.writeAt DiskStore.writeAt
      rw [mul_wrap_mod hw (by omega), M.ofRes_ok_bind,
        Disk64.storeCopyFromSlice_eq hz (by rw [LawfulElement.length_toBytes]; exact h')]
      simp only [Word.add_ok hi1, M.ofRes_ok_bind]
      funext fs
      simp only [M.bind_run]
      cases s.storeCopyFromSlice (i % 2 ^ (64 - σ) * Element.byteLen E) (Element.toBytes el) fs with
      | mk r fs' => cases r <;> rfl
    · exact absurd h1 hr
  · rcases elementRange64_wrapping hw hσ i with ⟨h, -⟩ | ⟨-, h2, he⟩
    · exfalso
      rw [hr, hw, Nat.sub_add_cancel (Nat.two_pow_pos _), ← Nat.pow_add, show 64 - σ + σ = 64 by omega] at h
      exact absurd h (by decide)
    · have hadd : add .wrapping (i % 2 ^ (64 - σ) * Element.byteLen E) (Element.byteLen E) = .ok 0 := by
        unfold elementRange64 at he
        rw [mul_wrap_mod hw (by omega), Res.ok_bind] at he
        obtain ⟨x, hx, he⟩ := bind_ok_iff.1 he
        cases he
        exact hx
      refine ⟨"Invalid argument", ?_⟩
      unfold Disk64.writeAt Disk64.storeCopyFromSlice writeAllAt64
      rw [mul_wrap_mod hw (by omega), M.ofRes_ok_bind, LawfulElement.length_toBytes, hadd, M.ofRes_ok_bind]
      refine M.bind_error ?_
      rw [M.bind_ok (mEnsure_true (Nat.zero_le _) _ fs)]
      refine M.bind_error (mEnsure_false ?_ _ fs)
      rintro (h | h)
      · have := LawfulElement.length_toBytes el
        rw [h] at this
        simp only [List.length_nil] at this
        omega
      · omega
  · rw [Nat.add_mul, Nat.one_mul] at h
    unfold Disk64.writeAt Disk64.storeCopyFromSlice
    by_cases h1 : i * Element.byteLen E < wordSize
    · refine ⟨"attempt to add with overflow", ?_⟩
      rw [Word.mul_ok h1, M.ofRes_ok_bind, LawfulElement.length_toBytes]
      unfold add
      rw [if_neg (by omega)]
      rfl
    · exact ⟨"attempt to multiply with overflow", by rw [mul_checked (by omega)]; rfl⟩

/-- **C65** for `write_at` of a `LevelCacheStore`, at every index given as a word. -/
theorem C65_level_cache_every_write {s : LevelCacheStore E} {σ : Nat} (hw : Element.byteLen E = 2 ^ σ)
    (hσ : σ ≤ 63) (hz : s.storeSize < 2 ^ 63) (el : E) {i : Nat} (hi : i < wordSize) :
    (i % 2 ^ (64 - σ) ≠ 2 ^ (64 - σ) - 1 → LevelCache64.writeAt (⟨s⟩ : LevelCache64 .wrapping E) el i =
      (do let _ ← s.writeAt el (i % 2 ^ (64 - σ)); pure ⟨{ s with len := max s.len (i + 1) }⟩)) ∧
    (i % 2 ^ (64 - σ) = 2 ^ (64 - σ) - 1 → ∀ fs, ∃ m,
      LevelCache64.writeAt (⟨s⟩ : LevelCache64 .wrapping E) el i fs = (.error (.err m), fs)) ∧
    (wordSize ≤ (i + 1) * Element.byteLen E → ∀ fs, ∃ m,
      LevelCache64.writeAt (⟨s⟩ : LevelCache64 .checked E) el i fs = (.error (.panic m), fs)) := by
  have hpos := LawfulElement.byteLen_pos (E := E)
  have hws := wordSize_eq
  refine ⟨fun hr => ?_, fun hr fs => ?_, fun h fs => ?_⟩
  · rcases elementRange64_wrapping hw hσ i with ⟨h, -⟩ | ⟨h1, -⟩
    · have h' := h
      rw [Nat.add_mul, Nat.one_mul] at h'
      have hi1 : i + 1 < wordSize := by
        by_contra hc
        refine hr ?_
        rw [show i = 2 ^ 64 - 1 by omega]
        exact pow_sub_one_mod (by omega)
      unfold LevelCache64.writeAt LevelCacheStore.writeAt
      rw [mul_wrap_mod hw (by omega), M.ofRes_ok_bind,
        LevelCache64.storeCopyFromSlice_eq hz (by rw [LawfulElement.length_toBytes]; exact h')]
      simp only [Word.add_ok hi1, M.ofRes_ok_bind]
      funext fs
      simp only [M.bind_run]
      cases s.storeCopyFromSlice (i % 2 ^ (64 - σ) * Element.byteLen E) (Element.toBytes el) fs with
      | mk r fs' => cases r <;> rfl
    · exact absurd h1 hr
  · rcases elementRange64_wrapping hw hσ i with ⟨h, -⟩ | ⟨-, h2, he⟩
    · exfalso
      rw [hr, hw, Nat.sub_add_cancel (Nat.two_pow_pos _), ← Nat.pow_add, show 64 - σ + σ = 64 by omega] at h
      exact absurd h (by decide)
    · have hadd : add .wrapping (i % 2 ^ (64 - σ) * Element.byteLen E) (Element.byteLen E) = .ok 0 := by
        unfold elementRange64 at he
        rw [mul_wrap_mod hw (by omega), Res.ok_bind] at he
        obtain ⟨x, hx, he⟩ := bind_ok_iff.1 he
        cases he
        exact hx
      refine ⟨"Invalid argument", ?_⟩
      unfold LevelCache64.writeAt LevelCache64.storeCopyFromSlice writeAllAt64
      rw [mul_wrap_mod hw (by omega), M.ofRes_ok_bind, LawfulElement.length_toBytes, hadd, M.ofRes_ok_bind]
      refine M.bind_error ?_
      rw [M.bind_ok (mEnsure_true (Nat.zero_le _) _ fs)]
      refine M.bind_error (mEnsure_false ?_ _ fs)
      rintro (h | h)
      · have := LawfulElement.length_toBytes el
        rw [h] at this
        simp only [List.length_nil] at this
        omega
      · omega
  · rw [Nat.add_mul, Nat.one_mul] at h
    unfold LevelCache64.writeAt LevelCache64.storeCopyFromSlice
    by_cases h1 : i * Element.byteLen E < wordSize
    · refine ⟨"attempt to add with overflow", ?_⟩
      rw [Word.mul_ok h1, M.ofRes_ok_bind, LawfulElement.length_toBytes]
      unfold add
      rw [if_neg (by omega)]
      rfl
    · exact ⟨"attempt to multiply with overflow", by rw [mul_checked (by omega)]; rfl⟩

/-- **C65** for `write_at` of an `MmapStore`, at every index given as a word; at the remainder whose end
is 2^64 it panics. -/
theorem C65_mmap_every_write {s : MmapStore E} {σ : Nat} (hw : Element.byteLen E = 2 ^ σ) (hσ : σ ≤ 63)
    (el : E) {i : Nat} (hi : i < wordSize) :
    (i % 2 ^ (64 - σ) ≠ 2 ^ (64 - σ) - 1 → Mmap64.writeAt (⟨s⟩ : Mmap64 .wrapping E) el i =
      (do let s' ← s.writeAt el (i % 2 ^ (64 - σ)); pure ⟨{ s' with len := max s.len (i + 1) }⟩)) ∧
    (i % 2 ^ (64 - σ) = 2 ^ (64 - σ) - 1 → ∀ fs, s.map ≠ none → ∃ m,
      Mmap64.writeAt (⟨s⟩ : Mmap64 .wrapping E) el i fs = (.error (.panic m), fs)) ∧
    (wordSize ≤ (i + 1) * Element.byteLen E → ∀ fs, ∃ m,
      Mmap64.writeAt (⟨s⟩ : Mmap64 .checked E) el i fs = (.error (.panic m), fs)) := by
  have hpos := LawfulElement.byteLen_pos (E := E)
  have hws := wordSize_eq
  refine ⟨fun hr => ?_, fun hr fs hmap => ?_, fun h fs => ?_⟩
  · rcases elementRange64_wrapping hw hσ i with ⟨h, he⟩ | ⟨h1, -⟩
    · have hi1 : i + 1 < wordSize := by
        by_contra hc
        refine hr ?_
        rw [show i = 2 ^ 64 - 1 by omega]
        exact pow_sub_one_mod (by omega)
      unfold Mmap64.writeAt MmapStore.writeAt
      rw [he, M.ofRes_ok_bind]
      simp only [Word.add_ok hi1, M.ofRes_ok_bind, if_pos (LawfulElement.length_toBytes el)]
      funext fs
      simp only [M.bind_run]
      cases hm : s.ensureMap fs with
      | mk r fs1 =>
        cases r with
        | error e => rfl
        | ok m =>
          have hl := Mmap64.ensureMap_len hm
          have := Mmap64.mapWrite_eq m (i % 2 ^ (64 - σ) * Element.byteLen E) (Element.toBytes el)
          rw [LawfulElement.length_toBytes] at this
          simp only [this]
          cases m.mapWrite (i % 2 ^ (64 - σ) * Element.byteLen E) (Element.toBytes el) fs1 with
          | mk r fs2 =>
            cases r with
            | error e => rfl
            | ok u => simp only [M.pure_run, hl]
    · exact absurd h1 hr
  · rcases elementRange64_wrapping hw hσ i with ⟨h, -⟩ | ⟨-, h2, he⟩
    · exfalso
      rw [hr, hw, Nat.sub_add_cancel (Nat.two_pow_pos _), ← Nat.pow_add, show 64 - σ + σ = 64 by omega] at h
      exact absurd h (by decide)
    · obtain ⟨n, hn⟩ := Option.ne_none_iff_exists'.1 hmap
      have hm : s.ensureMap fs = (.ok s, fs) := by
        unfold MmapStore.ensureMap; rw [hn]; rfl
      refine ⟨"range end index out of range for slice", ?_⟩
      unfold Mmap64.writeAt
      rw [he, M.ofRes_ok_bind]
      simp only []
      rw [M.bind_ok hm]
      refine M.bind_error ?_
      unfold Mmap64.mapWrite
      rw [hn]
      simp only []
      rw [if_neg (by omega)]
      rfl
  · obtain ⟨m, hm⟩ := elementRange64_panics h
    refine ⟨m, ?_⟩
    unfold Mmap64.writeAt
    rw [hm, M.ofRes_error_bind]
    rfl

/-! ### Beyond -/

/-- An index outside of every store that fits, but a word. -/
theorem far_index {σ n i : Nat} (hσ1 : 1 ≤ σ) (hσ : σ ≤ 63) (hn : n * 2 ^ σ < 2 ^ 63) (hi : i < n) :
    n ≤ 2 ^ (64 - σ) + i ∧ 2 ^ (64 - σ) + i < wordSize ∧ wordSize ≤ (2 ^ (64 - σ) + i) * 2 ^ σ := by
  have h1 : (2 : Nat) ^ (64 - σ) * 2 ^ σ = wordSize := by
    rw [← Nat.pow_add, show 64 - σ + σ = 64 by omega]; rfl
  have h2 : (2 : Nat) ^ (64 - σ) ≤ 2 ^ 63 := Nat.pow_le_pow_right (by omega) (by omega)
  have h3 : n ≤ n * 2 ^ σ := Nat.le_mul_of_pos_right _ (Nat.two_pow_pos σ)
  have h4 := wordSize_eq
  refine ⟨?_, by omega, by rw [Nat.add_mul]; omega⟩
  by_contra h
  have := Nat.mul_le_mul_right (2 ^ σ) (show 2 ^ (64 - σ) ≤ n by omega)
  omega

/-- Such an index wraps around to the index of the element. -/
theorem far_mod {σ n i : Nat} (hw : Element.byteLen E = 2 ^ σ) (hσ : σ ≤ 63)
    (hn : n * Element.byteLen E < 2 ^ 63) (hi : i < n) :
    (2 ^ (64 - σ) + i) % 2 ^ (64 - σ) = i ∧
      (2 ^ (64 - σ) + i) % 2 ^ (64 - σ) ≠ 2 ^ (64 - σ) - 1 ∧ i + 1 < 2 ^ (64 - σ) := by
  have h : i + 1 < 2 ^ (64 - σ) := by
    by_contra hc
    have h1 := Nat.mul_le_mul_right (2 ^ σ) (show 2 ^ (64 - σ) ≤ n by omega)
    rw [← Nat.pow_add, show 64 - σ + σ = 64 by omega, ← hw] at h1
    omega
  have h2 : (2 ^ (64 - σ) + i) % 2 ^ (64 - σ) = i := by
    rw [Nat.add_mod_left, Nat.mod_eq_of_lt (by omega)]
  exact ⟨h2, by omega, h⟩

/-- C65 fails for reads of a `DiskStore` whose offset is not a word: for each of its elements there is an
index outside of the store where, without overflow checks, `read_at` and `read_into` return that element,
and with them panic; it should be `Err`. -/
theorem C65_disk_read_refuted {s : DiskStore E} {σ : Nat} (hw : Element.byteLen E = 2 ^ σ) (hσ1 : 1 ≤ σ)
    (hσ : σ ≤ 63) (hs : s.len * Element.byteLen E < 2 ^ 63) (fs : FS) {i : Nat} (hi : i < s.len) :
    ∃ j, s.len ≤ j ∧ j < wordSize ∧ (s.readAt fs j).IsErr ∧
      Disk64.readAt fs (⟨s⟩ : Disk64 .wrapping E) j = s.readAt fs i ∧
      (∀ buf, Disk64.readInto fs (⟨s⟩ : Disk64 .wrapping E) j buf = s.readInto fs i buf) ∧
      ∃ m, Disk64.readAt fs (⟨s⟩ : Disk64 .checked E) j = .error (.panic m) := by
  have h63 := half_lt_word
  obtain ⟨h1, h2, h3⟩ := far_index hσ1 hσ (hw ▸ hs) hi
  have hi' := node_offset_lt hi (Nat.lt_trans hs h63)
  refine ⟨2 ^ (64 - σ) + i, h1, h2, ?_, ?_, fun buf => ?_, "attempt to multiply with overflow", ?_⟩
  · have := Nat.mul_le_mul_right (Element.byteLen E) h1
    unfold DiskStore.readAt DiskStore.checkRange
    simp only [ensure_false (show ¬ (2 ^ (64 - σ) + i) * Element.byteLen E < s.len * Element.byteLen E by omega),
      Res.error_bind]
    exact ⟨_, rfl⟩
  · rw [← Disk64.readAt_eq (o := .wrapping) fs hs hi']
    unfold Disk64.readAt
    rw [elementRange64_wrap hw (by omega)]
  · rw [← Disk64.readInto_eq (o := .wrapping) fs hs hi']
    unfold Disk64.readInto
    rw [elementRange64_wrap hw (by omega)]
  · unfold Disk64.readAt
    rw [elementRange64_checked (by rw [hw]; exact h3), Res.error_bind]

/-- C65 fails for reads of an `MmapStore` in the same way. -/
theorem C65_mmap_read_refuted {s : MmapStore E} {σ : Nat} (hw : Element.byteLen E = 2 ^ σ) (hσ1 : 1 ≤ σ)
    (hσ : σ ≤ 63) (hs : s.len * Element.byteLen E < 2 ^ 63) (fs : FS) {i : Nat} (hi : i < s.len) :
    ∃ j, s.len ≤ j ∧ j < wordSize ∧ (s.readAt fs j).IsErr ∧
      Mmap64.readAt fs (⟨s⟩ : Mmap64 .wrapping E) j = s.readAt fs i ∧
      (∀ buf, Mmap64.readInto fs (⟨s⟩ : Mmap64 .wrapping E) j buf = s.readInto fs i buf) ∧
      ∃ m, Mmap64.readAt fs (⟨s⟩ : Mmap64 .checked E) j = .error (.panic m) := by
  have h63 := half_lt_word
  obtain ⟨h1, h2, h3⟩ := far_index hσ1 hσ (hw ▸ hs) hi
  have hi' := node_offset_lt hi (Nat.lt_trans hs h63)
  refine ⟨2 ^ (64 - σ) + i, h1, h2, ?_, ?_, fun buf => ?_, "attempt to multiply with overflow", ?_⟩
  · have := Nat.mul_le_mul_right (Element.byteLen E) h1
    unfold MmapStore.readAt MmapStore.checkRange
    simp only [ensure_false (show ¬ (2 ^ (64 - σ) + i) * Element.byteLen E < s.len * Element.byteLen E by omega),
      Res.error_bind]
    exact ⟨_, rfl⟩
  · rw [← Mmap64.readAt_eq (o := .wrapping) fs (Nat.lt_trans hs h63) hi']
    unfold Mmap64.readAt
    rw [elementRange64_wrap hw (by omega)]
  · rw [← Mmap64.readInto_eq (o := .wrapping) fs (Nat.lt_trans hs h63) hi']
    unfold Mmap64.readInto
    rw [elementRange64_wrap hw (by omega)]
  · unfold Mmap64.readAt
    rw [elementRange64_checked (by rw [hw]; exact h3), Res.error_bind]

/-- C65 fails for reads of a `LevelCacheStore` in the same way. -/
theorem C65_level_cache_read_refuted {s : LevelCacheStore E} {σ : Nat} (hw : Element.byteLen E = 2 ^ σ)
    (hσ1 : 1 ≤ σ) (hσ : σ ≤ 63) (hs : LevelCache64.Fits s) (fs : FS) {i : Nat} (hi : i < s.len) :
    ∃ j, s.len ≤ j ∧ j < wordSize ∧ (s.readAt fs j).IsErr ∧
      LevelCache64.readAt fs (⟨s⟩ : LevelCache64 .wrapping E) j = s.readAt fs i ∧
      (∀ buf, LevelCache64.readInto fs (⟨s⟩ : LevelCache64 .wrapping E) j buf = s.readInto fs i buf) ∧
      ∃ m, LevelCache64.readAt fs (⟨s⟩ : LevelCache64 .checked E) j = .error (.panic m) := by
  have h63 := half_lt_word
  obtain ⟨h1, h2, h3⟩ := far_index hσ1 hσ (hw ▸ hs.len) hi
  have hi' := node_offset_lt hi (Nat.lt_trans hs.len h63)
  refine ⟨2 ^ (64 - σ) + i, h1, h2, LevelCacheStore.readAt_err_len h1 fs, ?_, fun buf => ?_, "attempt to multiply with overflow", ?_⟩
  · rw [← LevelCache64.readAt_eq (o := .wrapping) fs hs hi']
    unfold LevelCache64.readAt
    rw [elementRange64_wrap hw (by omega)]
  · rw [← LevelCache64.readInto_eq (o := .wrapping) fs hs hi']
    unfold LevelCache64.readInto
    rw [elementRange64_wrap hw (by omega)]
  · unfold LevelCache64.readAt
    rw [elementRange64_checked (by rw [hw]; exact h3), Res.error_bind]

/-- C65 fails for `write_at` of a `DiskStore`: for each of its elements there is an index outside of the
store where, without overflow checks, a write replaces that element and leaves a store that claims to
hold more elements than its file; it should be `Err` and change nothing. -/
theorem C65_disk_write_refuted {s : DiskStore E} {σ : Nat} (hw : Element.byteLen E = 2 ^ σ) (hσ1 : 1 ≤ σ)
    (hσ : σ ≤ 63) (hs : s.len * Element.byteLen E < 2 ^ 63) (hz : s.storeSize < 2 ^ 63) (el : E)
    {fs fs' : FS} {i : Nat} (hi : i < s.len) {s' : DiskStore E} (h : s.writeAt el i fs = (.ok s', fs')) :
    ∃ j, s.len ≤ j ∧ j < wordSize ∧ (∃ m, s.writeAt el j fs = (.error (.err m), fs)) ∧
      Disk64.writeAt (⟨s⟩ : Disk64 .wrapping E) el j fs = (.ok ⟨{ s with len := j + 1 }⟩, fs') ∧
      ∃ m, Disk64.writeAt (⟨s⟩ : Disk64 .checked E) el j fs = (.error (.panic m), fs) := by
  have h63 := half_lt_word
  have hws := wordSize_eq
  obtain ⟨h1, h2, h3⟩ := far_index hσ1 hσ (hw ▸ hs) hi
  have hi' := node_offset_lt hi (Nat.lt_trans hs h63)
  have hi2 := hi'
  rw [Nat.add_mul, Nat.one_mul] at hi2
  have hn : s.len < 2 ^ 63 := Nat.lt_of_le_of_lt
    (Nat.le_mul_of_pos_right _ (LawfulElement.byteLen_pos (E := E))) hs
  have hp : (2 : Nat) ^ (64 - σ) ≤ 2 ^ 63 := Nat.pow_le_pow_right (by omega) (by omega)
  refine ⟨2 ^ (64 - σ) + i, h1, h2, ?_, ?_, "attempt to multiply with overflow", ?_⟩
  · refine ⟨"Requested slice too large", ?_⟩
    unfold DiskStore.writeAt DiskStore.storeCopyFromSlice
    exact M.bind_error (M.bind_error (mEnsure_false (by rw [hw]; omega) _ fs))
  · unfold DiskStore.writeAt at h
    obtain ⟨u, fs1, hc, h⟩ := M.bind_ok_iff.1 h
    cases h
    unfold Disk64.writeAt
    rw [mul_wrap hw (by omega), Word.mul_ok (by omega), M.ofRes_ok_bind,
      Disk64.storeCopyFromSlice_eq hz (by rw [LawfulElement.length_toBytes]; exact hi2), M.bind_ok hc,
      Word.add_ok (by omega), M.ofRes_ok_bind, show max s.len (2 ^ (64 - σ) + i + 1) = 2 ^ (64 - σ) + i + 1 by omega]
    rfl
  · unfold Disk64.writeAt
    rw [mul_checked (by rw [hw]; exact h3), M.ofRes_error_bind]
    rfl

/-- C65 fails for `write_at` of a `LevelCacheStore` in the same way. -/
theorem C65_level_cache_write_refuted {s : LevelCacheStore E} {σ : Nat} (hw : Element.byteLen E = 2 ^ σ)
    (hσ1 : 1 ≤ σ) (hσ : σ ≤ 63) (hs : s.len * Element.byteLen E < 2 ^ 63) (hz : s.storeSize < 2 ^ 63)
    (el : E) {fs fs' : FS} {i : Nat} (hi : i < s.len) {s' : LevelCacheStore E}
    (h : s.writeAt el i fs = (.ok s', fs')) :
    ∃ j, s.len ≤ j ∧ j < wordSize ∧ (∃ m, s.writeAt el j fs = (.error (.err m), fs)) ∧
      LevelCache64.writeAt (⟨s⟩ : LevelCache64 .wrapping E) el j fs = (.ok ⟨{ s with len := j + 1 }⟩, fs') ∧
      ∃ m, LevelCache64.writeAt (⟨s⟩ : LevelCache64 .checked E) el j fs = (.error (.panic m), fs) := by
  have hws := wordSize_eq
  obtain ⟨h1, h2, h3⟩ := far_index hσ1 hσ (hw ▸ hs) hi
  obtain ⟨e1, e2, e3⟩ := far_mod hw hσ hs hi
  refine ⟨2 ^ (64 - σ) + i, h1, h2, ?_, ?_, (C65_level_cache_every_write hw hσ hz el h2).2.2 ?_ fs⟩
  · refine ⟨"Requested slice too large", ?_⟩
    unfold LevelCacheStore.writeAt LevelCacheStore.storeCopyFromSlice
    exact M.bind_error (M.bind_error (mEnsure_false (by rw [hw]; omega) _ fs))
  · rw [(C65_level_cache_every_write hw hσ hz el h2).1 e2, e1, M.bind_ok h,
      show max s.len (2 ^ (64 - σ) + i + 1) = 2 ^ (64 - σ) + i + 1 by omega]
    rfl
  · rw [Nat.add_mul, hw]; omega

/-- C65 fails for `write_at` of an `MmapStore` in the same way, except that the map is what bounds the
write: on natural numbers the far write panics. -/
theorem C65_mmap_write_refuted {s : MmapStore E} {σ : Nat} (hw : Element.byteLen E = 2 ^ σ)
    (hσ1 : 1 ≤ σ) (hσ : σ ≤ 63) (hs : s.len * Element.byteLen E < 2 ^ 63) {n : Nat} (hm : s.map = some n)
    (hn : n < 2 ^ 63) (el : E) {fs fs' : FS} {i : Nat} (hi : i < s.len) {s' : MmapStore E}
    (h : s.writeAt el i fs = (.ok s', fs')) :
    ∃ j, s.len ≤ j ∧ j < wordSize ∧ (∃ m, s.writeAt el j fs = (.error (.panic m), fs)) ∧
      Mmap64.writeAt (⟨s⟩ : Mmap64 .wrapping E) el j fs = (.ok ⟨{ s' with len := j + 1 }⟩, fs') ∧
      ∃ m, Mmap64.writeAt (⟨s⟩ : Mmap64 .checked E) el j fs = (.error (.panic m), fs) := by
  have hws := wordSize_eq
  obtain ⟨h1, h2, h3⟩ := far_index hσ1 hσ (hw ▸ hs) hi
  obtain ⟨e1, e2, e3⟩ := far_mod hw hσ hs hi
  refine ⟨2 ^ (64 - σ) + i, h1, h2, ?_, ?_, (C65_mmap_every_write hw hσ el h2).2.2 ?_ fs⟩
  · have he : s.ensureMap fs = (.ok s, fs) := by
      unfold MmapStore.ensureMap; rw [hm]; rfl
    refine ⟨"range end index out of range for slice", ?_⟩
    unfold MmapStore.writeAt
    rw [M.bind_ok he]
    simp only [if_pos (LawfulElement.length_toBytes el)]
    refine M.bind_error ?_
    unfold MmapStore.mapWrite
    rw [hm]
    simp only []
    rw [if_neg (by rw [hw]; omega)]
    rfl
  · rw [(C65_mmap_every_write hw hσ el h2).1 e2, e1, M.bind_ok h,
      show max s.len (2 ^ (64 - σ) + i + 1) = 2 ^ (64 - σ) + i + 1 by omega]
    rfl
  · rw [Nat.add_mul, hw]; omega

end

/-! ### Examples -/

/-- An element of 32 equal bytes. -/
def toyEl32 (x : UInt8) : Bytes32 := ⟨List.replicate 32 x, by simp⟩

/-- A store of two elements of 32 bytes. -/
def toyDisk32 : DiskStore Bytes32 := ⟨2, .temp 0, false, 64⟩
def toyDisk32Fs : FS := ⟨fun _ => some (encodeAll [toyEl32 1, toyEl32 2]), 1⟩

/-- The hypotheses of `C65_disk` and of its refutations can be met, and the element is really returned. -/
example : toyDisk32.len * Element.byteLen Bytes32 < 2 ^ 63 ∧ Element.byteLen Bytes32 = 2 ^ 5 ∧
    toyDisk32.readAt toyDisk32Fs 1 = .ok (toyEl32 2) ∧
    Disk64.readAt toyDisk32Fs (⟨toyDisk32⟩ : Disk64 .wrapping Bytes32) (2 ^ 59 + 1) = .ok (toyEl32 2) := by
  decide +kernel

example : (Disk64.writeAt (⟨toyDisk32⟩ : Disk64 .wrapping Bytes32) (toyEl32 9) (2 ^ 59) toyDisk32Fs).2.file (.temp 0) =
    some (encodeAll [toyEl32 9, toyEl32 2]) := by decide +kernel

/-- The same for a mapped store and for a level cache of two elements without rows above. -/
example : Mmap64.readAt toyDisk32Fs (⟨⟨some 64, .temp 0, 2⟩⟩ : Mmap64 .wrapping Bytes32) (2 ^ 59 + 1) =
    .ok (toyEl32 2) := by decide +kernel

def toyLevel32 : LevelCacheStore Bytes32 := ⟨2, .temp 0, 2, 64, false, 64, none⟩

example : LevelCache64.Fits toyLevel32 := ⟨by decide, by decide, fun _ h => by cases h⟩
example : LevelCache64.readAt toyDisk32Fs (⟨toyLevel32⟩ : LevelCache64 .wrapping Bytes32) (2 ^ 59 + 1) =
    .ok (toyEl32 2) := by decide +kernel

/-- At the remainder whose end is 2^64: a read is `Err`, as is the write of a file; of a map it panics. -/
example : (Disk64.readAt toyDisk32Fs (⟨toyDisk32⟩ : Disk64 .wrapping Bytes32) (2 ^ 59 - 1)).IsErr ∧
    (Disk64.writeAt (⟨toyDisk32⟩ : Disk64 .wrapping Bytes32) (toyEl32 9) (2 ^ 60 - 1) toyDisk32Fs).1.IsErr ∧
    ∃ m, (Mmap64.writeAt (⟨⟨some 64, .temp 0, 2⟩⟩ : Mmap64 .wrapping Bytes32) (toyEl32 9) (2 ^ 60 - 1)
      toyDisk32Fs).1 = .error (.panic m) :=
  ⟨⟨_, rfl⟩, ⟨_, rfl⟩, ⟨_, rfl⟩⟩

example : (LevelCache64.writeAt (⟨toyLevel32⟩ : LevelCache64 .wrapping Bytes32) (toyEl32 9) (2 ^ 59 + 1)
    toyDisk32Fs).2.file (.temp 0) = some (encodeAll [toyEl32 1, toyEl32 9]) ∧
  (Mmap64.writeAt (⟨⟨some 64, .temp 0, 2⟩⟩ : Mmap64 .wrapping Bytes32) (toyEl32 9) (2 ^ 59 + 1)
    toyDisk32Fs).2.file (.temp 0) = some (encodeAll [toyEl32 1, toyEl32 9]) := by decide +kernel

/-- A tree of three nodes for `C65_gen_proof_disk`. -/
example : ∃ t : BaseTree (DiskStore UInt8) UInt8, t.leafs = 2 ^ 1 ∧ t.rowCount = 1 + 1 ∧ t.length = nodes 2 1 ∧
    nodes 2 1 * Element.byteLen UInt8 < 2 ^ 63 ∧
    ∃ p, t.genProof 2 0 0 ⟨fun _ => some [1, 2, 3], 1⟩ 0 = .ok p :=
  ⟨⟨⟨3, .temp 0, false, 3⟩, 2, 3, 2, 3⟩, rfl, rfl, rfl, by decide, _, rfl⟩

end Verif
