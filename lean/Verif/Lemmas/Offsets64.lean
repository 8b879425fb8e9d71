import Verif.Model.Offsets64
import Verif.Lemmas.Sizing64
import Verif.Lemmas.Proof64
import Verif.Lemmas.LevelProof
/-
Helper lemmas: byte offsets on words against byte offsets on natural numbers.
-/
namespace Verif
open Spec Word

theorem M.ofRes_ok_bind {α β : Type} (a : α) (f : α → M β) : (M.ofRes (.ok a) >>= f) = f a := rfl

theorem M.ofRes_error_bind {α β : Type} (e : Fault) (f : α → M β) :
    (M.ofRes (.error e : Res α) >>= f) = M.throw e := rfl

theorem M.bind_congr {α β : Type} {x : M α} {f g : α → M β} (h : ∀ a, f a = g a) : (x >>= f) = (x >>= g) := by
  rw [show f = g from funext h]

theorem allocLen_ok {n : Nat} (h : n < 2 ^ 63) : allocLen n = .ok n := by rw [allocLen, if_pos h]

theorem writeAllAt64_eq {f : FileId} {off : Nat} {data : Bytes} (h : off < 2 ^ 63) :
    writeAllAt64 f off data = FS.writeAllAt f off data := by
  funext fs
  unfold writeAllAt64
  rw [M.bind_ok (mEnsure_true (Or.inr h) _ fs)]

theorem half_lt_word : 2 ^ 63 < wordSize := by decide

theorem Word.mul_wrapping (a b : Nat) : mul .wrapping a b = .ok (a * b % wordSize) := by
  unfold mul
  split
  · rename_i h; rw [Nat.mod_eq_of_lt h]
  · rfl

theorem Word.mul_checked {a b : Nat} (h : wordSize ≤ a * b) :
    mul .checked a b = .error (.panic "attempt to multiply with overflow") := by
  rw [mul, if_neg (by omega)]; rfl

theorem withReadContext_eq {o : Overflow} {a b : Nat} (h : a ≤ b) (r : Res Bytes) :
    withReadContext o a b r = r := by
  unfold withReadContext
  split
  · rw [Word.sub_ok h, Res.ok_bind]
  · rfl

section
variable {E : Type} [Element E] {o : Overflow}

theorem elementRange64_ok {i : Nat} (h : (i + 1) * Element.byteLen E < wordSize) :
    elementRange64 E o i = .ok (i * Element.byteLen E, i * Element.byteLen E + Element.byteLen E) := by
  rw [Nat.add_mul, Nat.one_mul] at h
  unfold elementRange64
  rw [Word.mul_ok (by omega), Res.ok_bind, Word.add_ok h, Res.ok_bind]

theorem elementsRange64_ok {a b : Nat} (hab : a ≤ b) (h : b * Element.byteLen E < wordSize) :
    elementsRange64 E o a b = .ok (a * Element.byteLen E, b * Element.byteLen E) := by
  have := Nat.mul_le_mul_right (Element.byteLen E) hab
  unfold elementsRange64
  rw [Word.mul_ok (by omega), Res.ok_bind, Word.mul_ok h, Res.ok_bind]

/-- Far enough past the end, the byte range of an element is that of another one. -/
theorem mul_wrap {σ : Nat} (hw : Element.byteLen E = 2 ^ σ) (hσ : σ ≤ 64) (i : Nat) :
    mul .wrapping (2 ^ (64 - σ) + i) (Element.byteLen E) = mul .wrapping i (Element.byteLen E) := by
  rw [mul_wrapping, mul_wrapping, hw, Nat.add_mul, ← Nat.pow_add, show 64 - σ + σ = 64 by omega,
    show (2 : Nat) ^ 64 = wordSize from rfl, Nat.add_mod_left]

theorem elementRange64_wrap {σ : Nat} (hw : Element.byteLen E = 2 ^ σ) (hσ : σ ≤ 64) (i : Nat) :
    elementRange64 E .wrapping (2 ^ (64 - σ) + i) = elementRange64 E .wrapping i := by
  unfold elementRange64; rw [mul_wrap hw hσ]

theorem elementsRange64_wrap {σ : Nat} (hw : Element.byteLen E = 2 ^ σ) (hσ : σ ≤ 64) (i j : Nat) :
    elementsRange64 E .wrapping (2 ^ (64 - σ) + i) (2 ^ (64 - σ) + j) = elementsRange64 E .wrapping i j := by
  unfold elementsRange64; rw [mul_wrap hw hσ, mul_wrap hw hσ]

/-- Every index is taken modulo the number of elements that 2^64 bytes hold. -/
theorem mul_wrap_mod {σ : Nat} (hw : Element.byteLen E = 2 ^ σ) (hσ : σ ≤ 64) (i : Nat) :
    mul .wrapping i (Element.byteLen E) = .ok (i % 2 ^ (64 - σ) * Element.byteLen E) := by
  have h : wordSize = 2 ^ (64 - σ) * 2 ^ σ := by
    rw [← Nat.pow_add, show 64 - σ + σ = 64 by omega]; rfl
  rw [mul_wrapping, hw, h, Nat.mul_mod_mul_right]

theorem elementRange64_wrap_mod {σ : Nat} (hw : Element.byteLen E = 2 ^ σ) (hσ : σ ≤ 64) (i : Nat) :
    elementRange64 E .wrapping i = elementRange64 E .wrapping (i % 2 ^ (64 - σ)) := by
  unfold elementRange64
  rw [mul_wrap_mod hw hσ, mul_wrap_mod hw hσ, Nat.mod_mod]

theorem elementsRange64_wrap_mod {σ : Nat} (hw : Element.byteLen E = 2 ^ σ) (hσ : σ ≤ 64) (i j : Nat) :
    elementsRange64 E .wrapping i j =
      .ok (i % 2 ^ (64 - σ) * Element.byteLen E, j % 2 ^ (64 - σ) * Element.byteLen E) := by
  unfold elementsRange64
  rw [mul_wrap_mod hw hσ, mul_wrap_mod hw hσ, Res.ok_bind, Res.ok_bind]

/-- The byte range of an index: in order, or the one element whose end is 2^64. -/
theorem elementRange64_wrapping {σ : Nat} (hw : Element.byteLen E = 2 ^ σ) (hσ : σ ≤ 63) (i : Nat) :
    let r := i % 2 ^ (64 - σ)
    ((r + 1) * Element.byteLen E < wordSize ∧
      elementRange64 E .wrapping i = .ok (r * Element.byteLen E, r * Element.byteLen E + Element.byteLen E)) ∨
    (r = 2 ^ (64 - σ) - 1 ∧ 2 ^ 63 ≤ r * Element.byteLen E ∧
      elementRange64 E .wrapping i = .ok (r * Element.byteLen E, 0)) := by
  intro r
  have h64 : 2 ^ (64 - σ) * 2 ^ σ = wordSize := by
    rw [← Nat.pow_add, show 64 - σ + σ = 64 by omega]; rfl
  have hr : r < 2 ^ (64 - σ) := Nat.mod_lt _ (Nat.two_pow_pos _)
  by_cases h : (r + 1) * Element.byteLen E < wordSize
  · exact .inl ⟨h, by rw [elementRange64_wrap_mod hw (by omega), elementRange64_ok h]⟩
  · refine .inr ?_
    have h1 : r = 2 ^ (64 - σ) - 1 := by
      by_contra hne
      have := Nat.mul_le_mul_right (2 ^ σ) (show r + 1 + 1 ≤ 2 ^ (64 - σ) by omega)
      rw [h64, Nat.add_mul (r + 1), Nat.one_mul, ← hw] at this
      have := Nat.two_pow_pos σ
      omega
    have h2 : r * Element.byteLen E + Element.byteLen E = wordSize := by
      have : (r + 1) * Element.byteLen E = wordSize := by
        rw [hw, show r + 1 = 2 ^ (64 - σ) by omega]; exact h64
      rw [← this, Nat.add_mul, Nat.one_mul]
    have h3 : Element.byteLen E ≤ 2 ^ 63 := by rw [hw]; exact Nat.pow_le_pow_right (by omega) hσ
    have h4 := wordSize_eq
    refine ⟨h1, by omega, ?_⟩
    unfold elementRange64
    rw [mul_wrap_mod hw (by omega), Res.ok_bind]
    show (add .wrapping (r * Element.byteLen E) (Element.byteLen E) >>= _) = _
    unfold add
    rw [if_neg (by omega), h2]
    simp only [overflow, Nat.mod_self, Res.ok_bind]
    rfl

theorem elementRange64_panics {i : Nat} (h : wordSize ≤ (i + 1) * Element.byteLen E) :
    ∃ m, elementRange64 E .checked i = .error (.panic m) := by
  rw [Nat.add_mul, Nat.one_mul] at h
  unfold elementRange64
  by_cases h1 : i * Element.byteLen E < wordSize
  · refine ⟨"attempt to add with overflow", ?_⟩
    rw [Word.mul_ok h1, Res.ok_bind]
    unfold add
    rw [if_neg (by omega)]
    rfl
  · exact ⟨"attempt to multiply with overflow", by rw [mul_checked (by omega)]; rfl⟩

theorem elementRange64_checked {i : Nat} (h : wordSize ≤ i * Element.byteLen E) :
    elementRange64 E .checked i = .error (.panic "attempt to multiply with overflow") := by
  unfold elementRange64; rw [mul_checked h]; rfl

theorem elementsRange64_checked {i : Nat} (h : wordSize ≤ i * Element.byteLen E) (j : Nat) :
    elementsRange64 E .checked i j = .error (.panic "attempt to multiply with overflow") := by
  unfold elementsRange64; rw [mul_checked h]; rfl

end

/-! ### `DiskStore` -/
namespace Disk64
variable {E : Type} [Element E] {o : Overflow} {s : DiskStore E}

theorem checkRange_eq (hs : s.len * Element.byteLen E < 2 ^ 63) (a b : Nat) :
    checkRange (⟨s⟩ : Disk64 o E) a b = s.checkRange a b := by
  have := half_lt_word
  unfold checkRange DiskStore.checkRange
  rw [Word.mul_ok (show s.len * Element.byteLen E < wordSize by omega), Res.ok_bind]

theorem storeReadRange_eq (fs : FS) {a b : Nat} (hab : a ≤ b) (hn : b < 2 ^ 63) :
    storeReadRange fs (⟨s⟩ : Disk64 o E) a b = s.storeReadRange fs a b := by
  unfold storeReadRange DiskStore.storeReadRange
  rw [Word.sub_ok hab, subP_ok hab, Res.ok_bind, Res.ok_bind, allocLen_ok (by omega), Res.ok_bind]

/-- After the checks, the end of the range is within the store. -/
theorem check_bind {β : Type} (hs : s.len * Element.byteLen E < 2 ^ 63) {a b : Nat} {f g : Res β}
    (h : b < 2 ^ 63 → f = g) :
    (do checkRange (⟨s⟩ : Disk64 o E) a b; f) = (do s.checkRange a b; g) := by
  rw [checkRange_eq hs]
  unfold DiskStore.checkRange
  by_cases h1 : a < s.len * Element.byteLen E
  · by_cases h2 : b ≤ s.len * Element.byteLen E
    · simp only [ensure_true h1, ensure_true h2, Res.ok_bind]
      exact h (by omega)
    · simp only [ensure_true h1, ensure_false h2, Res.ok_bind, Res.error_bind]
  · simp only [ensure_false h1, Res.error_bind]

theorem readAt_eq (fs : FS) (hs : s.len * Element.byteLen E < 2 ^ 63) {i : Nat}
    (hi : (i + 1) * Element.byteLen E < wordSize) :
    readAt fs (⟨s⟩ : Disk64 o E) i = s.readAt fs i := by
  unfold readAt DiskStore.readAt
  rw [elementRange64_ok hi, Res.ok_bind]
  exact check_bind hs fun h => by rw [storeReadRange_eq fs (by omega) h]

theorem readInto_eq (fs : FS) (hs : s.len * Element.byteLen E < 2 ^ 63) {i : Nat}
    (hi : (i + 1) * Element.byteLen E < wordSize) (buf : Bytes) :
    readInto fs (⟨s⟩ : Disk64 o E) i buf = s.readInto fs i buf := by
  unfold readInto DiskStore.readInto
  rw [elementRange64_ok hi, Res.ok_bind]
  exact check_bind hs fun _ => by
    unfold DiskStore.storeReadInto
    rw [withReadContext_eq (by omega), readContext_le (by omega)]

theorem readRange_eq (fs : FS) (hs : s.len * Element.byteLen E < 2 ^ 63) {a b : Nat} (hab : a ≤ b)
    (hb : b * Element.byteLen E < wordSize) :
    readRange fs (⟨s⟩ : Disk64 o E) a b = s.readRange fs a b := by
  unfold readRange DiskStore.readRange
  rw [elementsRange64_ok hab hb, Res.ok_bind]
  exact check_bind hs fun h => by rw [storeReadRange_eq fs (Nat.mul_le_mul_right _ hab) h]

theorem readRangeInto_eq (fs : FS) (hs : s.len * Element.byteLen E < 2 ^ 63) {a b : Nat} (hab : a ≤ b)
    (hb : b * Element.byteLen E < wordSize) (buf : Bytes) :
    readRangeInto fs (⟨s⟩ : Disk64 o E) a b buf = s.readRangeInto fs a b buf := by
  unfold readRangeInto DiskStore.readRangeInto
  rw [elementsRange64_ok hab hb, Res.ok_bind]
  exact check_bind hs fun _ => by
    have := Nat.mul_le_mul_right (Element.byteLen E) hab
    unfold DiskStore.storeReadInto
    rw [withReadContext_eq this, readContext_le this]

theorem storeCopyFromSlice_eq (hz : s.storeSize < 2 ^ 63) {a : Nat} {buf : Bytes}
    (h : a + buf.length < wordSize) :
    storeCopyFromSlice (⟨s⟩ : Disk64 o E) a buf = s.storeCopyFromSlice a buf := by
  unfold storeCopyFromSlice DiskStore.storeCopyFromSlice
  rw [Word.add_ok h, M.ofRes_ok_bind]
  funext fs
  by_cases hc : a + buf.length ≤ s.storeSize
  · rw [M.bind_ok (mEnsure_true hc _ fs), M.bind_ok (mEnsure_true hc _ fs), writeAllAt64_eq (by omega)]
  · rw [M.bind_error (mEnsure_false hc _ fs), M.bind_error (mEnsure_false hc _ fs)]

theorem bind_pure_mk {x : M Unit} {s' : DiskStore E} :
    (do x; pure (⟨s'⟩ : Disk64 o E)) = (do let s ← (do x; pure s'); pure ⟨s⟩) := by
  funext fs
  simp only [M.bind_run]
  cases x fs with
  | mk r fs' => cases r <;> rfl

variable [LawfulElement E]

theorem writeAt_eq (hz : s.storeSize < 2 ^ 63) (el : E) {i : Nat} (hi : (i + 1) * Element.byteLen E < wordSize) :
    writeAt (⟨s⟩ : Disk64 o E) el i = (do let s' ← s.writeAt el i; pure ⟨s'⟩) := by
  have hw := LawfulElement.byteLen_pos (E := E)
  have h1 : i + 1 ≤ (i + 1) * Element.byteLen E := Nat.le_mul_of_pos_right _ hw
  have hi' := hi
  rw [Nat.add_mul, Nat.one_mul] at hi'
  unfold writeAt DiskStore.writeAt
  rw [Word.mul_ok (by omega), M.ofRes_ok_bind,
    storeCopyFromSlice_eq hz (by rw [LawfulElement.length_toBytes]; exact hi')]
  simp only [Word.add_ok (show i + 1 < wordSize by omega), M.ofRes_ok_bind]
  exact bind_pure_mk

theorem copyFromSlice_eq (hz : s.storeSize < 2 ^ 63) (buf : Bytes) {i : Nat} (hi : i * Element.byteLen E + buf.length < wordSize) :
    copyFromSlice (⟨s⟩ : Disk64 o E) buf i = (do let s' ← s.copyFromSlice buf i; pure ⟨s'⟩) := by
  have hw := LawfulElement.byteLen_pos (E := E)
  have h1 : i ≤ i * Element.byteLen E := Nat.le_mul_of_pos_right _ hw
  have h2 : buf.length / Element.byteLen E ≤ buf.length := Nat.div_le_self _ _
  unfold copyFromSlice DiskStore.copyFromSlice
  rw [modP_ok hw, M.ofRes_ok_bind, M.ofRes_ok_bind]
  simp only [Word.mul_ok (show i * Element.byteLen E < wordSize by omega), storeCopyFromSlice_eq hz hi,
    Word.add_ok (show i + buf.length / Element.byteLen E < wordSize by omega), M.ofRes_ok_bind]
  funext fs
  by_cases hr : buf.length % Element.byteLen E = 0
  · rw [M.bind_ok (mEnsure_true hr _ fs), bind_pure_mk, M.bind_run, M.bind_run (x := do mEnsure _ _; _),
      M.bind_ok (mEnsure_true hr _ fs)]
  · rw [M.bind_error (mEnsure_false hr _ fs), M.bind_error (M.bind_error (mEnsure_false hr _ fs))]

theorem push_eq (hz : s.storeSize < 2 ^ 63) (el : E) (hs : (s.len + 1) * Element.byteLen E < wordSize) :
    push (⟨s⟩ : Disk64 o E) el = (do let s' ← s.push el; pure ⟨s'⟩) := by
  have hw := LawfulElement.byteLen_pos (E := E)
  have h1 : s.len + 1 ≤ (s.len + 1) * Element.byteLen E := Nat.le_mul_of_pos_right _ hw
  unfold push DiskStore.push
  rw [Word.add_ok (show s.len + 1 < wordSize by omega), M.ofRes_ok_bind, Word.mul_ok hs, M.ofRes_ok_bind]
  funext fs
  by_cases hr : (s.len + 1) * Element.byteLen E ≤ s.storeSize
  · rw [M.bind_ok (mEnsure_true hr _ fs), writeAt_eq hz el hs, M.bind_run, M.bind_run (x := do mEnsure _ _; _),
      M.bind_ok (mEnsure_true hr _ fs)]
  · rw [M.bind_error (mEnsure_false hr _ fs), M.bind_error (M.bind_error (mEnsure_false hr _ fs))]

end Disk64

/-! ### `MmapStore` -/
namespace Mmap64
variable {E : Type} [Element E] {o : Overflow} {s : MmapStore E}

theorem checkRange_eq (hs : s.len * Element.byteLen E < wordSize) (a b : Nat) :
    checkRange (⟨s⟩ : Mmap64 o E) a b = s.checkRange a b := by
  unfold checkRange MmapStore.checkRange
  rw [Word.mul_ok hs, Res.ok_bind]

theorem readAt_eq (fs : FS) (hs : s.len * Element.byteLen E < wordSize) {i : Nat}
    (hi : (i + 1) * Element.byteLen E < wordSize) :
    readAt fs (⟨s⟩ : Mmap64 o E) i = s.readAt fs i := by
  unfold readAt MmapStore.readAt
  rw [elementRange64_ok hi, Res.ok_bind]
  simp only [checkRange_eq hs]

theorem readInto_eq (fs : FS) (hs : s.len * Element.byteLen E < wordSize) {i : Nat}
    (hi : (i + 1) * Element.byteLen E < wordSize) (buf : Bytes) :
    readInto fs (⟨s⟩ : Mmap64 o E) i buf = s.readInto fs i buf := by
  unfold readInto MmapStore.readInto
  rw [elementRange64_ok hi, Res.ok_bind]
  simp only [checkRange_eq hs]

theorem readRange_eq (fs : FS) (hs : s.len * Element.byteLen E < wordSize) {a b : Nat} (hab : a ≤ b)
    (hb : b * Element.byteLen E < wordSize) :
    readRange fs (⟨s⟩ : Mmap64 o E) a b = s.readRange fs a b := by
  unfold readRange MmapStore.readRange
  rw [elementsRange64_ok hab hb, Res.ok_bind]
  simp only [checkRange_eq hs]

theorem mapWrite_eq (s : MmapStore E) (a : Nat) (data : Bytes) :
    mapWrite s a (a + data.length) data = s.mapWrite a data := by
  unfold mapWrite MmapStore.mapWrite
  cases s.map with
  | none => rfl
  | some n =>
    simp only []
    by_cases h : a + data.length ≤ n
    · rw [if_pos ⟨by omega, h⟩, if_pos (by omega), if_pos h]
    · rw [if_neg (fun h' => h h'.2), if_neg h]

variable [LawfulElement E]

theorem writeAt_eq (el : E) {i : Nat} (hi : (i + 1) * Element.byteLen E < wordSize) :
    writeAt (⟨s⟩ : Mmap64 o E) el i = (do let s' ← s.writeAt el i; pure ⟨s'⟩) := by
  have hw := LawfulElement.byteLen_pos (E := E)
  have h1 : i + 1 ≤ (i + 1) * Element.byteLen E := Nat.le_mul_of_pos_right _ hw
  unfold writeAt MmapStore.writeAt
  rw [elementRange64_ok hi, M.ofRes_ok_bind]
  simp only [Word.add_ok (show i + 1 < wordSize by omega), M.ofRes_ok_bind,
    if_pos (LawfulElement.length_toBytes el)]
  funext fs
  simp only [M.bind_run]
  cases hm : s.ensureMap fs with
  | mk r fs1 =>
    cases r with
    | error e => rfl
    | ok m =>
      have := mapWrite_eq m (i * Element.byteLen E) (Element.toBytes el)
      rw [LawfulElement.length_toBytes] at this
      simp only [this]
      cases m.mapWrite (i * Element.byteLen E) (Element.toBytes el) fs1 with
      | mk r fs2 => cases r <;> rfl

theorem copyFromSlice_eq (buf : Bytes) {i : Nat} (hi : i * Element.byteLen E + buf.length < wordSize) :
    copyFromSlice (⟨s⟩ : Mmap64 o E) buf i = (do let s' ← s.copyFromSlice buf i; pure ⟨s'⟩) := by
  have hw := LawfulElement.byteLen_pos (E := E)
  have h1 : i ≤ i * Element.byteLen E := Nat.le_mul_of_pos_right _ hw
  have h2 : buf.length / Element.byteLen E ≤ buf.length := Nat.div_le_self _ _
  unfold copyFromSlice MmapStore.copyFromSlice
  rw [modP_ok hw, M.ofRes_ok_bind, M.ofRes_ok_bind]
  simp only [Word.mul_ok (show i * Element.byteLen E < wordSize by omega), Word.add_ok hi,
    Word.add_ok (show i + buf.length / Element.byteLen E < wordSize by omega), M.ofRes_ok_bind]
  funext fs
  simp only [M.bind_run]
  cases mEnsure (buf.length % Element.byteLen E = 0) "buf size must be a multiple of byte_len" fs with
  | mk r fs0 =>
    cases r with
    | error e => rfl
    | ok u =>
      simp only []
      cases hm : s.ensureMap fs0 with
      | mk r fs1 =>
        cases r with
        | error e => rfl
        | ok m =>
          simp only [mapWrite_eq m (i * Element.byteLen E) buf]
          cases m.mapWrite (i * Element.byteLen E) buf fs1 with
          | mk r fs2 => cases r <;> rfl

theorem ensureMap_len {s m : MmapStore E} {fs fs' : FS} (h : s.ensureMap fs = (.ok m, fs')) : m.len = s.len := by
  unfold MmapStore.ensureMap at h
  cases hm : s.map with
  | none =>
    rw [hm] at h
    unfold MmapStore.reinit at h
    obtain ⟨n, fs1, _, h2⟩ := M.bind_ok_iff.1 h
    cases h2; rfl
  | some n =>
    rw [hm] at h
    cases h; rfl

theorem push_eq (el : E) (hs : (s.len + 1) * Element.byteLen E < wordSize) :
    push (⟨s⟩ : Mmap64 o E) el = (do let s' ← s.push el; pure ⟨s'⟩) := by
  have hw := LawfulElement.byteLen_pos (E := E)
  have h1 : s.len + 1 ≤ (s.len + 1) * Element.byteLen E := Nat.le_mul_of_pos_right _ hw
  unfold push MmapStore.push
  simp only [Word.add_ok (show s.len + 1 < wordSize by omega), M.ofRes_ok_bind, Word.mul_ok hs]
  funext fs
  simp only [M.bind_run]
  cases hm : s.ensureMap fs with
  | mk r fs1 =>
    cases r with
    | error e => rfl
    | ok m =>
      have hl := ensureMap_len hm
      simp only [hl]
      cases mEnsure ((s.len + 1) * Element.byteLen E ≤ m.map.getD 0) "not enough space" fs1 with
      | mk r fs2 =>
        cases r with
        | error e => rfl
        | ok u =>
          simp only []
          rw [writeAt_eq el hs, M.bind_run]

end Mmap64

/-! ### `LevelCacheStore` -/
namespace LevelCache64
variable {E : Type} [Element E] {o : Overflow} {s : LevelCacheStore E}

/-- The bytes of the store and of its reader can be numbered. -/
structure Fits (s : LevelCacheStore E) : Prop where
  len : s.len * Element.byteLen E < 2 ^ 63
  width : s.dataWidth * Element.byteLen E < 2 ^ 63
  reader : ∀ r, s.reader = some r → r.offset + s.len * Element.byteLen E < wordSize

theorem checkBounds_eq (hs : Fits s) (a : Nat) (m : String) :
    checkBounds (⟨s⟩ : LevelCache64 o E) a m = ensure (s.InBounds a) m := by
  have := half_lt_word
  have := hs.width
  unfold checkBounds
  rw [Word.mul_ok (show s.dataWidth * Element.byteLen E < wordSize by omega), Res.ok_bind]
  rfl

theorem checkRange_eq (hs : Fits s) (a b : Nat) :
    checkRange (⟨s⟩ : LevelCache64 o E) a b = s.checkRange a b := by
  have := half_lt_word
  have := hs.len
  unfold checkRange LevelCacheStore.checkRange
  rw [Word.mul_ok (show s.len * Element.byteLen E < wordSize by omega), Res.ok_bind]
  simp only [checkBounds_eq hs]

theorem check_bind {β : Type} (hs : Fits s) {a b : Nat} {f g : Res β}
    (h : b ≤ s.len * Element.byteLen E → f = g) :
    (do checkRange (⟨s⟩ : LevelCache64 o E) a b; f) = (do s.checkRange a b; g) := by
  rw [checkRange_eq hs]
  cases hc : s.checkRange a b with
  | error e => rfl
  | ok u =>
    simp only [Res.ok_bind]
    apply h
    unfold LevelCacheStore.checkRange at hc
    simp only [ensure_bind_ok] at hc
    exact hc.2.1

theorem adjustedStart_eq (hs : Fits s) {a : Nat} (ha : a < 2 ^ 63) :
    adjustedStart (⟨s⟩ : LevelCache64 o E) a = .ok (s.adjustedStart a) := by
  have := wordSize_eq
  have := hs.width
  unfold adjustedStart LevelCacheStore.adjustedStart
  simp only []
  split
  · rename_i h
    split
    · rw [Word.sub_ok h, Res.ok_bind, Word.mul_ok (by omega), Res.ok_bind, Word.add_ok (by omega)]
    · rw [Word.sub_ok h]
  · rfl

theorem readerRead_eq (hs : Fits s) {r : ExternalReader} (hr : s.reader = some r) (fs : FS) {a b : Nat}
    (hab : a ≤ b) (hb : b ≤ s.len * Element.byteLen E) (buf : Bytes) :
    readerRead o r fs a b buf = r.read fs a b buf := by
  have := hs.reader r hr
  unfold readerRead ExternalReader.read
  rw [Word.add_ok (by omega), Res.ok_bind, Word.add_ok (by omega), Res.ok_bind]

theorem storeReadRange_eq (hs : Fits s) (fs : FS) {a b : Nat} (hab : a ≤ b)
    (hb : b ≤ s.len * Element.byteLen E) :
    storeReadRange fs (⟨s⟩ : LevelCache64 o E) a b = s.storeReadRange fs a b := by
  have h1 := hs.len
  have h2 := hs.width
  have h3 := half_lt_word
  unfold storeReadRange LevelCacheStore.storeReadRange
  rw [Word.sub_ok hab, subP_ok hab, Res.ok_bind, Res.ok_bind, allocLen_ok (by omega), Res.ok_bind,
    checkBounds_eq hs]
  simp only [Word.mul_ok (show s.dataWidth * Element.byteLen E < wordSize by omega),
    adjustedStart_eq hs (show a < 2 ^ 63 by omega), Res.ok_bind, withReadContext_eq hab]
  congr 1
  funext _
  cases hr : s.reader with
  | none => rfl
  | some r => simp only [readerRead_eq hs hr fs hab hb]

theorem storeReadInto_eq (hs : Fits s) (fs : FS) {a b : Nat} (hab : a ≤ b)
    (hb : b ≤ s.len * Element.byteLen E) (buf : Bytes) :
    storeReadInto fs (⟨s⟩ : LevelCache64 o E) a b buf = s.storeReadInto fs a b buf := by
  have h1 := hs.len
  have h2 := hs.width
  have h3 := half_lt_word
  unfold storeReadInto LevelCacheStore.storeReadInto
  rw [checkBounds_eq hs]
  simp only [Word.mul_ok (show s.dataWidth * Element.byteLen E < wordSize by omega),
    adjustedStart_eq hs (show a < 2 ^ 63 by omega), Res.ok_bind, withReadContext_eq hab,
    readContext_le hab]
  congr 1
  funext _
  cases hr : s.reader with
  | none => rfl
  | some r => simp only [readerRead_eq hs hr fs hab hb]

theorem readAt_eq (fs : FS) (hs : Fits s) {i : Nat} (hi : (i + 1) * Element.byteLen E < wordSize) :
    readAt fs (⟨s⟩ : LevelCache64 o E) i = s.readAt fs i := by
  unfold readAt LevelCacheStore.readAt
  rw [elementRange64_ok hi, Res.ok_bind]
  exact check_bind hs fun h => by rw [storeReadRange_eq hs fs (by omega) h]

theorem readInto_eq (fs : FS) (hs : Fits s) {i : Nat} (hi : (i + 1) * Element.byteLen E < wordSize)
    (buf : Bytes) : readInto fs (⟨s⟩ : LevelCache64 o E) i buf = s.readInto fs i buf := by
  unfold readInto LevelCacheStore.readInto
  rw [elementRange64_ok hi, Res.ok_bind]
  exact check_bind hs fun h => storeReadInto_eq hs fs (by omega) h buf

theorem readRange_eq (fs : FS) (hs : Fits s) {a b : Nat} (hab : a ≤ b)
    (hb : b * Element.byteLen E < wordSize) :
    readRange fs (⟨s⟩ : LevelCache64 o E) a b = s.readRange fs a b := by
  unfold readRange LevelCacheStore.readRange
  rw [elementsRange64_ok hab hb, Res.ok_bind]
  exact check_bind hs fun h => by rw [storeReadRange_eq hs fs (Nat.mul_le_mul_right _ hab) h]

theorem readRangeInto_eq (fs : FS) (hs : Fits s) {a b : Nat} (hab : a ≤ b)
    (hb : b * Element.byteLen E < wordSize) (buf : Bytes) :
    readRangeInto fs (⟨s⟩ : LevelCache64 o E) a b buf = s.readRangeInto fs a b buf := by
  unfold readRangeInto LevelCacheStore.readRangeInto
  rw [elementsRange64_ok hab hb, Res.ok_bind]
  exact check_bind hs fun h => storeReadInto_eq hs fs (Nat.mul_le_mul_right _ hab) h buf

theorem storeCopyFromSlice_eq (hz : s.storeSize < 2 ^ 63) {a : Nat} {buf : Bytes}
    (h : a + buf.length < wordSize) :
    storeCopyFromSlice (⟨s⟩ : LevelCache64 o E) a buf = s.storeCopyFromSlice a buf := by
  unfold storeCopyFromSlice LevelCacheStore.storeCopyFromSlice
  rw [Word.add_ok h, M.ofRes_ok_bind]
  funext fs
  by_cases hc : a + buf.length ≤ s.storeSize
  · rw [M.bind_ok (mEnsure_true hc _ fs), M.bind_ok (mEnsure_true hc _ fs), writeAllAt64_eq (by omega)]
  · rw [M.bind_error (mEnsure_false hc _ fs), M.bind_error (mEnsure_false hc _ fs)]

theorem bind_pure_mk {x : M Unit} {s' : LevelCacheStore E} :
    (do x; pure (⟨s'⟩ : LevelCache64 o E)) = (do let s ← (do x; pure s'); pure ⟨s⟩) := by
  funext fs
  simp only [M.bind_run]
  cases x fs with
  | mk r fs' => cases r <;> rfl

variable [LawfulElement E]

theorem writeAt_eq (hz : s.storeSize < 2 ^ 63) (el : E) {i : Nat} (hi : (i + 1) * Element.byteLen E < wordSize) :
    writeAt (⟨s⟩ : LevelCache64 o E) el i = (do let s' ← s.writeAt el i; pure ⟨s'⟩) := by
  have hw := LawfulElement.byteLen_pos (E := E)
  have h1 : i + 1 ≤ (i + 1) * Element.byteLen E := Nat.le_mul_of_pos_right _ hw
  have hi' := hi
  rw [Nat.add_mul, Nat.one_mul] at hi'
  unfold writeAt LevelCacheStore.writeAt
  rw [Word.mul_ok (by omega), M.ofRes_ok_bind,
    storeCopyFromSlice_eq hz (by rw [LawfulElement.length_toBytes]; exact hi')]
  simp only [Word.add_ok (show i + 1 < wordSize by omega), M.ofRes_ok_bind]
  exact bind_pure_mk

theorem copyFromSlice_eq (hz : s.storeSize < 2 ^ 63) (buf : Bytes) {i : Nat} (hi : i * Element.byteLen E + buf.length < wordSize) :
    copyFromSlice (⟨s⟩ : LevelCache64 o E) buf i = (do let s' ← s.copyFromSlice buf i; pure ⟨s'⟩) := by
  have hw := LawfulElement.byteLen_pos (E := E)
  have h1 : i ≤ i * Element.byteLen E := Nat.le_mul_of_pos_right _ hw
  have h2 : buf.length / Element.byteLen E ≤ buf.length := Nat.div_le_self _ _
  unfold copyFromSlice LevelCacheStore.copyFromSlice
  rw [modP_ok hw, M.ofRes_ok_bind, M.ofRes_ok_bind]
  simp only [Word.mul_ok (show i * Element.byteLen E < wordSize by omega), storeCopyFromSlice_eq hz hi,
    Word.add_ok (show i + buf.length / Element.byteLen E < wordSize by omega), M.ofRes_ok_bind]
  funext fs
  by_cases hr : buf.length % Element.byteLen E = 0
  · rw [M.bind_ok (mEnsure_true hr _ fs), bind_pure_mk, M.bind_run, M.bind_run (x := do mEnsure _ _; _),
      M.bind_ok (mEnsure_true hr _ fs)]
  · rw [M.bind_error (mEnsure_false hr _ fs), M.bind_error (M.bind_error (mEnsure_false hr _ fs))]

theorem push_eq (hz : s.storeSize < 2 ^ 63) (el : E) (hs : (s.len + 1) * Element.byteLen E < wordSize) :
    push (⟨s⟩ : LevelCache64 o E) el = (do let s' ← s.push el; pure ⟨s'⟩) := by
  have hw := LawfulElement.byteLen_pos (E := E)
  have h1 : s.len + 1 ≤ (s.len + 1) * Element.byteLen E := Nat.le_mul_of_pos_right _ hw
  unfold push LevelCacheStore.push
  rw [Word.add_ok (show s.len + 1 < wordSize by omega), M.ofRes_ok_bind, Word.mul_ok hs, M.ofRes_ok_bind]
  funext fs
  by_cases hr : (s.len + 1) * Element.byteLen E ≤ s.storeSize
  · rw [M.bind_ok (mEnsure_true hr _ fs), writeAt_eq hz el hs, M.bind_run, M.bind_run (x := do mEnsure _ _; _),
      M.bind_ok (mEnsure_true hr _ fs)]
  · rw [M.bind_error (mEnsure_false hr _ fs), M.bind_error (M.bind_error (mEnsure_false hr _ fs))]

end LevelCache64

/-! ### `gen_proof` -/
section
variable {E : Type} {o : Overflow}

theorem siblings64_eq {rd rd' : Nat → Res E} {base j total : Nat} (ht : total ≤ wordSize)
    (h : ∀ p, p < total → rd p = rd' p) : ∀ n k, base + (k + n) ≤ total →
    BaseTree.siblings64 o rd base j n k = BaseTree.siblings (fun k => rd' (base + k)) j n k
  | 0, _, _ => rfl
  | n + 1, k, hk => by
    unfold BaseTree.siblings64 BaseTree.siblings
    rw [siblings64_eq ht h n (k + 1) (by omega), Word.add_ok (by omega), Res.ok_bind, h _ (by omega)]

theorem proofLoop64_eq {rd rd' : Nat → Res E} {b k : Nat} (hb : Arity b) (hw : nodes b k < wordSize)
    (h : ∀ p, p < nodes b k → rd p = rd' p) :
    ∀ (fuel n j : Nat), n ≤ k → j < b ^ n →
    BaseTree.proofLoop64 o rd b (nodes b k) fuel (rowStart b k (k - n)) (b ^ n) j =
      BaseTree.proofLoop rd' b (nodes b k) fuel (rowStart b k (k - n)) (b ^ n) j
  | 0, _, _, _, _ => rfl
  | fuel + 1, 0, j, _, _ => by
    have := rowStart_top b k
    rw [BaseTree.proofLoop64, BaseTree.proofLoop, Nat.sub_zero, Word.add_ok (by omega), Res.ok_bind,
      if_neg (by omega), if_neg (by omega)]
  | fuel + 1, n + 1, j, hn, hj => by
    have hb2 := hb.two_le
    have hj' : j / b < b ^ n := by
      rw [Nat.div_lt_iff_lt_mul (by omega), ← Nat.pow_succ]; exact hj
    have hrs := rowStart_le_nodes b k (k - (n + 1)) (by omega)
    have hn3 := nodes_ge (b := b) (n := n + 1) (by omega) hb2
    have hpn := pow_le_nodes b (n + 1)
    rw [show k - (k - (n + 1)) = n + 1 by omega] at hrs
    have hblk : j / b * b + b ≤ b ^ (n + 1) := by
      calc j / b * b + b = (j / b + 1) * b := by ring
        _ ≤ b ^ n * b := Nat.mul_le_mul_right _ hj'
        _ = b ^ (n + 1) := (Nat.pow_succ ..).symm
    have hrow : rowStart b k (k - (n + 1)) + b ^ (n + 1) = rowStart b k (k - n) := by
      rw [show k - n = (k - (n + 1)) + 1 by omega, rowStart]
      congr 2; omega
    have hsh : log2Pow2 b < 64 := shift_lt hb.pow2 (by omega)
    have ih := proofLoop64_eq hb hw h fuel n (j / b) (by omega) hj'
    rw [BaseTree.proofLoop64, BaseTree.proofLoop, Word.add_ok (by omega), Res.ok_bind, if_pos (by omega),
      if_pos (by omega), divP_ok (by omega), Res.ok_bind, Word.mul_ok (by omega), Res.ok_bind,
      Word.add_ok (by omega), Res.ok_bind, Nat.add_sub_cancel_left,
      siblings64_eq (total := nodes b k) (by omega) h b _ (by omega)]
    simp only [modP_ok (show 0 < b by omega), Word.trailingZeros, Res.ok_bind,
      Word.add_ok (show rowStart b k (k - (n + 1)) + b ^ (n + 1) < wordSize by omega), Word.shr_ok hsh, hrow,
      hb.shiftRight, show b ^ (n + 1) / b = b ^ n by rw [Nat.pow_succ, Nat.mul_div_cancel _ (by omega)], ih]

theorem lemmaLen_le {b : Nat} (hb : 1 ≤ b) : ∀ k, 1 ≤ k → 2 + (b - 1) * k ≤ nodes b k
  | 0, h => by omega
  | 1, _ => by simp [nodes]; omega
  | k + 2, _ => by
    have ih := lemmaLen_le hb (k + 1) (by omega)
    have : b ≤ b ^ (k + 1 + 1) := Nat.le_self_pow (by omega) b
    rw [nodes, Nat.mul_succ]
    omega

variable [Element E] [LawfulElement E]

theorem BaseTree.genProof64_eq {S S' : Type} [StoreOps S E] [StoreOps S' E] {b k : Nat} (hb : Arity b) (hk : 1 ≤ k)
    {fs : FS} {t : BaseTree S E} {t' : BaseTree S' E} (hl : t.leafs = b ^ k) (hrows : t.rowCount = k + 1)
    (hlen : t.length = nodes b k) (hl' : t'.leafs = b ^ k) (hrows' : t'.rowCount = k + 1)
    (hlen' : t'.length = nodes b k) (hroot : t.root = t'.root) (hw : nodes b k < wordSize)
    (h : ∀ p, p < nodes b k → t.readAt fs p = t'.readAt fs p) (i : Nat) :
    t.genProof64 o b 0 0 fs i = t'.genProof b 0 0 fs i := by
  have hb2 := hb.two_le
  have hpn := pow_le_nodes b k
  have hbk : b ≤ b ^ k := (pow_le_iff hb2).2 hk
  have h63 := pow2_le_half (hb.pow_isPow2 k) (by omega)
  have hlem := lemmaLen_le (b := b) (by omega) k hk
  unfold BaseTree.genProof64
  by_cases hi : i < b ^ k
  · rw [genProof_unfold hb hk hl' hrows' hlen' hi, hl, hrows, hlen, ensure_true hi, Res.ok_bind,
      Word.npow2_ok h63, Res.ok_bind, ensure_true ((eq_nextPow2_iff _).2 (hb.pow_isPow2 k)), Res.ok_bind,
      Word.npow2_ok (by omega), Res.ok_bind, ensure_true ((eq_nextPow2_iff _).2 hb.pow2), Res.ok_bind]
    have h1 : merkleProofLemmaLen64 o (k + 1) b = .ok (2 + (b - 1) * k) := by
      unfold merkleProofLemmaLen64
      rw [Word.sub_ok (by omega), Res.ok_bind, Word.sub_ok (by omega), Res.ok_bind, Nat.add_sub_cancel,
        Word.mul_ok (by omega), Res.ok_bind, Word.add_ok (by omega)]
    have h2 := proofLoop64_eq (o := o) hb hw h (nodes b k + b ^ k + 2) k i (Nat.le_refl _) hi
    rw [Nat.sub_self] at h2
    rw [h1, Res.ok_bind, Word.sub_ok (by omega), Res.ok_bind, ensure_true rfl, Res.ok_bind, ensure_true rfl,
      Res.ok_bind, Nat.add_sub_cancel, h i (by omega), hroot]
    simp only [show rowStart b k 0 = 0 from rfl] at h2
    rw [h2]
    simp only [Proof.ensure_new64 (show 1 ≤ b by omega) (show k + 1 < wordSize by
        have : k ≤ (b - 1) * k := Nat.le_mul_of_pos_left _ (by omega)
        omega)
      (show 2 + (b - 1) * k < wordSize by omega)]
  · unfold BaseTree.genProof
    rw [hl, hl', ensure_false hi, Res.error_bind, Res.error_bind]

end
end Verif
