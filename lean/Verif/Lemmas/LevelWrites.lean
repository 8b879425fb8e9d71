import Verif.Lemmas.StoreArray
/-! `LevelCacheStore` next to the `DiskStore` of the same file. -/
set_option linter.unusedSectionVars false
namespace Verif
open Spec StoreOps

/-- The outcome of a run with the value replaced. -/
def mapOutcome {α β : Type} (g : α → β) (r : Res α × FS) : Res β × FS := (r.1.map g, r.2)

theorem mapOutcome_bind {α β γ δ : Type} (g : α → β) (h : γ → δ) (m : M α) (k : α → M γ) (k' : β → M δ)
    (m' : M β) (fs : FS) (hm : m' fs = mapOutcome g (m fs))
    (hk : ∀ a fs, k' (g a) fs = mapOutcome h (k a fs)) :
    (m' >>= k') fs = mapOutcome h ((m >>= k) fs) := by
  show (match m' fs with | (.ok a, fs') => k' a fs' | (.error e, fs') => (.error e, fs')) = _
  rw [hm]
  show _ = mapOutcome h (match m fs with | (.ok a, fs') => k a fs' | (.error e, fs') => (.error e, fs'))
  rcases m fs with ⟨_ | a, fs'⟩
  · rfl
  · exact hk a fs'

namespace LevelCacheStore
variable {E : Type} [Element E]

/-- The `DiskStore` with the same file, length and capacity. -/
def toDisk (s : LevelCacheStore E) : DiskStore E := ⟨s.len, s.file, s.loadedFromDisk, s.storeSize⟩

theorem writeAt_toDisk (s : LevelCacheStore E) (e : E) (i : Nat) (fs : FS) :
    LevelCacheStore.writeAt s e i fs
      = mapOutcome (fun d => { s with len := d.len }) (DiskStore.writeAt s.toDisk e i fs) := by
  unfold LevelCacheStore.writeAt DiskStore.writeAt
  exact mapOutcome_bind id _ _ _ _ _ fs (by
    show storeCopyFromSlice s _ _ fs = mapOutcome id (storeCopyFromSlice s _ _ fs)
    rcases storeCopyFromSlice s (i * Element.byteLen E) (Element.toBytes e) fs with ⟨_ | _, _⟩ <;> rfl)
    fun _ _ => rfl

theorem copyFromSlice_toDisk (s : LevelCacheStore E) (buf : Bytes) (start : Nat) (fs : FS) :
    LevelCacheStore.copyFromSlice s buf start fs
      = mapOutcome (fun d => { s with len := d.len }) (DiskStore.copyFromSlice s.toDisk buf start fs) := by
  unfold LevelCacheStore.copyFromSlice DiskStore.copyFromSlice
  refine mapOutcome_bind id _ _ _ _ _ fs ?_ fun r fs => ?_
  · rcases M.ofRes (modP buf.length (Element.byteLen E)) fs with ⟨_ | _, _⟩ <;> rfl
  refine mapOutcome_bind id _ _ _ _ _ fs ?_ fun u fs => ?_
  · rw [id]; rcases mEnsure (r = 0) "buf size must be a multiple of elem_len" fs with ⟨_ | _, _⟩ <;> rfl
  refine mapOutcome_bind id _ _ _ _ _ fs ?_ fun u fs => rfl
  show storeCopyFromSlice s _ _ fs = mapOutcome id (storeCopyFromSlice s _ _ fs)
  rcases storeCopyFromSlice s (start * Element.byteLen E) buf fs with ⟨_ | _, _⟩ <;> rfl

theorem push_toDisk (s : LevelCacheStore E) (e : E) (fs : FS) :
    LevelCacheStore.push s e fs
      = mapOutcome (fun d => { s with len := d.len }) (DiskStore.push s.toDisk e fs) := by
  unfold LevelCacheStore.push DiskStore.push
  refine mapOutcome_bind id _ _ _ _ _ fs ?_ fun u fs => writeAt_toDisk s e s.len fs
  show mEnsure ((s.len + 1) * Element.byteLen E ≤ s.storeSize) "not enough space" fs = mapOutcome id
    (mEnsure ((s.len + 1) * Element.byteLen E ≤ s.storeSize) "not enough space" fs)
  rcases mEnsure ((s.len + 1) * Element.byteLen E ≤ s.storeSize) "not enough space" fs with ⟨_ | _, _⟩ <;> rfl

/-- All elements so far are in the part of the file that is read where it was written: they are leaves,
or the cached rows follow the leaves. -/
structure Plain (s : LevelCacheStore E) : Prop where
  reader : s.reader = none
  start : s.dataWidth * Element.byteLen E ≤ s.cacheIndexStart
  len : s.len ≤ s.dataWidth ∨ s.cacheIndexStart = s.dataWidth * Element.byteLen E

theorem Plain.place {s : LevelCacheStore E} (h : s.Plain) {a : Nat} (ha : a < s.len * Element.byteLen E) :
    s.InBounds a ∧ s.adjustedStart a = a := by
  have h2 := h.start
  unfold adjustedStart
  rw [h.reader]
  rcases h.len with h1 | h1
  · have h1 := Nat.mul_le_mul_right (Element.byteLen E) h1
    exact ⟨.inl (by omega), if_neg (by omega)⟩
  · refine ⟨by unfold InBounds; omega, ?_⟩
    by_cases h3 : a ≥ s.cacheIndexStart
    · rw [if_pos h3, if_pos (by rfl)]; omega
    · rw [if_neg h3]

theorem Plain.checkRange {s : LevelCacheStore E} (h : s.Plain) (a c : Nat) :
    LevelCacheStore.checkRange s a c = DiskStore.checkRange s.toDisk a c := by
  unfold LevelCacheStore.checkRange DiskStore.checkRange
  dsimp only
  by_cases h1 : a < s.len * Element.byteLen E
  · rw [ensure_true h1, Res.ok_bind, ensure_true (show a < s.toDisk.len * _ from h1), Res.ok_bind]
    by_cases h2 : c ≤ s.len * Element.byteLen E
    · rw [ensure_true h2, Res.ok_bind, ensure_true (show c ≤ s.toDisk.len * _ from h2),
        ensure_true (h.place h1).1]
    · rw [ensure_false h2, ensure_false (show ¬ c ≤ s.toDisk.len * _ from h2)]; rfl
  · rw [ensure_false h1, ensure_false (show ¬ a < s.toDisk.len * _ from h1)]; rfl

theorem DiskStore.checkRange_lt {s : DiskStore E} {a c : Nat} (h : DiskStore.checkRange s a c = .ok ()) :
    a < s.len * Element.byteLen E := by
  unfold DiskStore.checkRange at h
  simp only [bind_ok_iff, ensure_ok_iff, exists_const] at h
  exact h.1

theorem Plain.storeReadRange {s : LevelCacheStore E} (h : s.Plain) (fs : FS) {a : Nat} (c : Nat)
    (ha : a < s.len * Element.byteLen E) :
    LevelCacheStore.storeReadRange fs s a c = DiskStore.storeReadRange fs s.toDisk a c := by
  unfold LevelCacheStore.storeReadRange DiskStore.storeReadRange
  rw [ensure_true (h.place ha).1, h.reader, (h.place ha).2]
  rfl

theorem Plain.storeReadInto {s : LevelCacheStore E} (h : s.Plain) (fs : FS) {a : Nat} (c : Nat)
    (ha : a < s.len * Element.byteLen E) (buf : Bytes) :
    LevelCacheStore.storeReadInto fs s a c buf = DiskStore.storeReadInto fs s.toDisk a c buf := by
  unfold LevelCacheStore.storeReadInto DiskStore.storeReadInto
  rw [ensure_true (h.place ha).1, h.reader, (h.place ha).2]
  rfl

theorem Plain.guarded {s : LevelCacheStore E} (h : s.Plain) {α : Type} {a c : Nat} {k k' : Unit → Res α}
    (hk : a < s.len * Element.byteLen E → k () = k' ()) :
    (LevelCacheStore.checkRange s a c >>= k) = (DiskStore.checkRange s.toDisk a c >>= k') := by
  rw [h.checkRange]
  cases hc : DiskStore.checkRange s.toDisk a c with
  | error e => rfl
  | ok u => exact hk (DiskStore.checkRange_lt hc)

theorem Plain.readAt {s : LevelCacheStore E} (h : s.Plain) (fs : FS) (i : Nat) :
    LevelCacheStore.readAt fs s i = DiskStore.readAt fs s.toDisk i := by
  unfold LevelCacheStore.readAt DiskStore.readAt
  exact h.guarded fun ha => by rw [h.storeReadRange fs _ ha]

theorem Plain.readRange {s : LevelCacheStore E} (h : s.Plain) (fs : FS) (a c : Nat) :
    LevelCacheStore.readRange fs s a c = DiskStore.readRange fs s.toDisk a c := by
  unfold LevelCacheStore.readRange DiskStore.readRange
  exact h.guarded fun ha => by rw [h.storeReadRange fs _ ha]

theorem Plain.readInto {s : LevelCacheStore E} (h : s.Plain) (fs : FS) (i : Nat) (buf : Bytes) :
    LevelCacheStore.readInto fs s i buf = DiskStore.readInto fs s.toDisk i buf := by
  unfold LevelCacheStore.readInto DiskStore.readInto
  exact h.guarded fun ha => h.storeReadInto fs _ ha buf

theorem Plain.readRangeInto {s : LevelCacheStore E} (h : s.Plain) (fs : FS) (a c : Nat) (buf : Bytes) :
    LevelCacheStore.readRangeInto fs s a c buf = DiskStore.readRangeInto fs s.toDisk a c buf := by
  unfold LevelCacheStore.readRangeInto DiskStore.readRangeInto
  exact h.guarded fun ha => h.storeReadInto fs _ ha buf

end LevelCacheStore

/-! Operation sequences. -/
section
variable {E : Type} [Element E] [LawfulElement E] [FloatRows]

theorem Spec.Arr.step_mono {cap cap' : Nat} (hc : cap ≤ cap') {a : Arr E} {op : StoreOp E}
    {r : StoreObs E × Arr E} (h : a.step cap op = some r) : a.step cap' op = some r := by
  cases op with
  | write e i =>
    simp only [Arr.step] at h ⊢
    split at h
    · rw [if_pos (by omega)]; exact h
    · cases h
  | copy es start =>
    simp only [Arr.step] at h ⊢
    split at h
    · rw [if_pos (by omega)]; exact h
    · cases h
  | push e =>
    simp only [Arr.step] at h ⊢
    split at h
    · rw [if_pos (by omega)]; exact h
    · cases h
  | read i => exact h
  | range x y => exact h
  | len => exact h

theorem Spec.Arr.step_len {cap : Nat} {a a' : Arr E} {op : StoreOp E} {o : StoreObs E} (ha : a.len ≤ cap)
    (h : a.step cap op = some (o, a')) : a'.len ≤ cap := by
  cases op with
  | write e i =>
    simp only [Arr.step] at h
    split at h
    · cases h; simp only [Arr.put, List.length_singleton]; omega
    · cases h
  | copy es start =>
    simp only [Arr.step] at h
    split at h
    · cases h; simp only [Arr.put]; omega
    · cases h
  | push e =>
    simp only [Arr.step] at h
    split at h
    · cases h; simp only [Arr.put, List.length_singleton]; omega
    · cases h
  | read i =>
    simp only [Arr.step] at h
    split at h
    · cases hs : a.slot i with
      | none => rw [hs] at h; cases h
      | some e => rw [hs] at h; cases h; exact ha
    · cases h
  | range x y =>
    simp only [Arr.step] at h
    split at h
    · rw [Option.map_eq_some_iff] at h
      obtain ⟨es, -, h⟩ := h
      cases h; exact ha
    · cases h
  | len => cases h; exact ha

theorem DiskStore.writeAt_same {d d' : DiskStore E} {e : E} {i : Nat} {fs fs' : FS}
    (h : DiskStore.writeAt d e i fs = (.ok d', fs')) : d' = { d with len := d'.len } := by
  unfold DiskStore.writeAt at h
  obtain ⟨_, _, -, h⟩ := M.bind_ok_iff.1 h
  cases h; rfl

theorem DiskStore.run_same {d d' : DiskStore E} {op : StoreOp E} {o : StoreObs E} {fs fs' : FS}
    (h : StoreOp.run d op fs = (.ok (o, d'), fs')) : d' = { d with len := d'.len } := by
  cases op with
  | write e i =>
    obtain ⟨_, _, h1, h⟩ := M.bind_ok_iff.1 h
    cases h
    exact DiskStore.writeAt_same h1
  | copy es st =>
    obtain ⟨_, _, h1, h⟩ := M.bind_ok_iff.1 h
    cases h
    replace h1 : DiskStore.copyFromSlice d _ st fs = _ := h1
    unfold DiskStore.copyFromSlice at h1
    obtain ⟨_, _, -, h1⟩ := M.bind_ok_iff.1 h1
    obtain ⟨_, _, -, h1⟩ := M.bind_ok_iff.1 h1
    obtain ⟨_, _, -, h1⟩ := M.bind_ok_iff.1 h1
    cases h1; rfl
  | push e =>
    obtain ⟨_, _, h1, h⟩ := M.bind_ok_iff.1 h
    cases h
    replace h1 : DiskStore.push d e fs = _ := h1
    unfold DiskStore.push at h1
    obtain ⟨_, _, -, h1⟩ := M.bind_ok_iff.1 h1
    exact DiskStore.writeAt_same h1
  | read i =>
    obtain ⟨_, _, -, h⟩ := M.bind_ok_iff.1 h
    cases h; rfl
  | range x y =>
    obtain ⟨_, _, -, h⟩ := M.bind_ok_iff.1 h
    cases h; rfl
  | len => cases h; rfl

namespace LevelCacheStore

theorem Plain.run {s : LevelCacheStore E} (h : s.Plain) (op : StoreOp E) (fs : FS) :
    StoreOp.run s op fs = mapOutcome (fun r => (r.1, { s with len := r.2.len }))
      (StoreOp.run s.toDisk op fs) := by
  cases op with
  | write e i => exact mapOutcome_bind _ _ _ _ _ _ fs (writeAt_toDisk s e i fs) fun _ _ => rfl
  | copy es st => exact mapOutcome_bind _ _ _ _ _ _ fs (copyFromSlice_toDisk s _ st fs) fun _ _ => rfl
  | push e => exact mapOutcome_bind _ _ _ _ _ _ fs (push_toDisk s e fs) fun _ _ => rfl
  | read i =>
    refine mapOutcome_bind id _ _ _ _ _ fs ?_ fun _ _ => rfl
    show (LevelCacheStore.readAt fs s i, fs) = mapOutcome id (DiskStore.readAt fs s.toDisk i, fs)
    rw [h.readAt]
    cases DiskStore.readAt fs s.toDisk i <;> rfl
  | range x y =>
    refine mapOutcome_bind id _ _ _ _ _ fs ?_ fun _ _ => rfl
    show (LevelCacheStore.readRange fs s x y, fs) = mapOutcome id (DiskStore.readRange fs s.toDisk x y, fs)
    rw [h.readRange]
    cases DiskStore.readRange fs s.toDisk x y <;> rfl
  | len => rfl

/-- What a `LevelCacheStore` returns to a sequence of operations on its first `w` elements. -/
theorem Plain.runAll {cap w : Nat} : ∀ (ops : List (StoreOp E)) {fs : FS} {s : LevelCacheStore E}
    {a a' : Arr E} {os : List (StoreObs E)}, s.Plain → w ≤ cap → s.len ≤ w →
    (w ≤ s.dataWidth ∨ s.cacheIndexStart = s.dataWidth * Element.byteLen E) →
    Agrees fs s.toDisk cap a → a.run w ops = some (os, a') →
    ∃ n fs', StoreOp.runAll s ops fs = (.ok (os, { s with len := n }), fs') ∧
      ({ s with len := n } : LevelCacheStore E).Plain ∧
      Agrees fs' ({ s with len := n } : LevelCacheStore E).toDisk cap a'
  | [], fs, s, a, a', os, h, hc, hl, hw, ha, ho => by
    cases ho
    exact ⟨s.len, fs, rfl, h, ha⟩
  | op :: ops, fs, s, a, a', os, h, hc, hl, hw, ha, ho => by
    simp only [Arr.run, bind, Option.bind_eq_some_iff] at ho
    obtain ⟨⟨o, a1⟩, h1, ⟨os1, a2⟩, h2, ho⟩ := ho
    cases ho
    obtain ⟨d1, fs1, g1, g2⟩ := ha.step DiskStore.pushLaw op (Arr.step_mono hc h1)
    have hrun := h.run op fs
    rw [g1] at hrun
    have hl1 : a1.len ≤ w := Arr.step_len (ha.len_eq ▸ hl) h1
    have hd : d1 = ({ s with len := d1.len } : LevelCacheStore E).toDisk :=
      DiskStore.run_same (d := s.toDisk) g1
    rw [hd] at g2
    have hl2 : d1.len ≤ w := by have : d1.len = a1.len := g2.len_eq; exact this ▸ hl1
    have hp : ({ s with len := d1.len } : LevelCacheStore E).Plain :=
      ⟨h.reader, h.start, hw.imp_left hl2.trans⟩
    obtain ⟨n, fs2, k1, k2, k3⟩ := Plain.runAll ops (s := { s with len := d1.len }) hp hc hl2 hw g2 h2
    refine ⟨n, fs2, ?_, k2, k3⟩
    rw [StoreOp.runAll, M.bind_ok hrun]
    dsimp only
    rw [M.bind_ok k1]
    rfl

end LevelCacheStore
end
/-! The length of the file. -/
section
variable {E : Type} [Element E] [LawfulElement E] [FloatRows]
namespace LevelCacheStore

/-- `s'` is `s` up to the length, and its file is as long as the store. -/
def Sized (s s' : LevelCacheStore E) (fs : FS) : Prop :=
  s' = { s with len := s'.len } ∧ ∃ bs, fs.file s.file = some bs ∧ bs.length = s.storeSize

theorem storeCopy_sized {s : LevelCacheStore E} {fs fs' : FS} {off : Nat} {data : Bytes} {u : Unit}
    (h : ∃ bs, fs.file s.file = some bs ∧ bs.length = s.storeSize)
    (hw : storeCopyFromSlice s off data fs = (.ok u, fs')) :
    ∃ bs, fs'.file s.file = some bs ∧ bs.length = s.storeSize := by
  obtain ⟨bs, h1, h2⟩ := h
  by_cases hl : off + data.length ≤ s.storeSize
  · obtain ⟨fs1, w1, w2, -⟩ := storeCopy_ok h1 h2 hl
    rw [w1] at hw
    cases hw
    exact ⟨_, w2, by rw [patch_length (by omega)]; exact h2⟩
  · unfold storeCopyFromSlice at hw
    rw [M.bind_error (mEnsure_false hl _ _)] at hw
    cases hw

theorem writeAt_sized {s s' : LevelCacheStore E} {fs fs' : FS} {e : E} {i : Nat}
    (h : ∃ bs, fs.file s.file = some bs ∧ bs.length = s.storeSize)
    (hw : LevelCacheStore.writeAt s e i fs = (.ok s', fs')) : Sized s s' fs' := by
  unfold LevelCacheStore.writeAt at hw
  obtain ⟨_, _, h1, hw⟩ := M.bind_ok_iff.1 hw
  cases hw
  exact ⟨rfl, storeCopy_sized h h1⟩

theorem run_sized {s s' : LevelCacheStore E} {op : StoreOp E} {o : StoreObs E} {fs fs' : FS}
    (h : ∃ bs, fs.file s.file = some bs ∧ bs.length = s.storeSize)
    (hw : StoreOp.run s op fs = (.ok (o, s'), fs')) : Sized s s' fs' := by
  cases op with
  | write e i =>
    obtain ⟨_, _, h1, hw⟩ := M.bind_ok_iff.1 hw
    cases hw
    exact writeAt_sized h h1
  | copy es st =>
    obtain ⟨_, _, h1, hw⟩ := M.bind_ok_iff.1 hw
    cases hw
    replace h1 : LevelCacheStore.copyFromSlice s _ st fs = _ := h1
    unfold LevelCacheStore.copyFromSlice at h1
    obtain ⟨r, fs1, g1, h3⟩ := M.bind_ok_iff.1 h1
    have e1 : fs1 = fs := (Prod.mk.inj g1).2.symm
    obtain ⟨_, fs2, g2, h4⟩ := M.bind_ok_iff.1 h3
    have e2 : fs2 = fs1 := by
      by_cases hr : r = 0
      · rw [mEnsure_true hr] at g2; exact (Prod.mk.inj g2).2.symm
      · rw [mEnsure_false hr] at g2; cases g2
    obtain ⟨_, _, g3, h5⟩ := M.bind_ok_iff.1 h4
    cases h5
    rw [e2, e1] at g3
    exact ⟨rfl, storeCopy_sized h g3⟩
  | push e =>
    obtain ⟨_, _, h1, hw⟩ := M.bind_ok_iff.1 hw
    cases hw
    replace h1 : LevelCacheStore.push s e fs = _ := h1
    unfold LevelCacheStore.push at h1
    obtain ⟨_, fs2, g2, h3⟩ := M.bind_ok_iff.1 h1
    have e2 : fs2 = fs := by
      by_cases hr : (s.len + 1) * Element.byteLen E ≤ s.storeSize
      · rw [mEnsure_true hr] at g2; exact (Prod.mk.inj g2).2.symm
      · rw [mEnsure_false hr] at g2; cases g2
    rw [e2] at h3
    exact writeAt_sized h h3
  | read i =>
    obtain ⟨_, fs1, g, h1⟩ := M.bind_ok_iff.1 hw
    have e1 : fs1 = fs := (Prod.mk.inj g).2.symm
    cases h1
    rw [e1]
    exact ⟨rfl, h⟩
  | range x y =>
    obtain ⟨_, fs1, g, h1⟩ := M.bind_ok_iff.1 hw
    have e1 : fs1 = fs := (Prod.mk.inj g).2.symm
    cases h1
    rw [e1]
    exact ⟨rfl, h⟩
  | len => cases hw; exact ⟨rfl, h⟩

theorem runAll_sized : ∀ (ops : List (StoreOp E)) {s s' : LevelCacheStore E} {os : List (StoreObs E)}
    {fs fs' : FS}, (∃ bs, fs.file s.file = some bs ∧ bs.length = s.storeSize) →
    StoreOp.runAll s ops fs = (.ok (os, s'), fs') → Sized s s' fs'
  | [], s, s', os, fs, fs', h, hw => by cases hw; exact ⟨rfl, h⟩
  | op :: ops, s, s', os, fs, fs', h, hw => by
    rw [StoreOp.runAll] at hw
    obtain ⟨⟨o, s1⟩, fs1, h1, hw⟩ := M.bind_ok_iff.1 hw
    dsimp only at hw
    obtain ⟨⟨os1, s2⟩, fs2, h2, hw⟩ := M.bind_ok_iff.1 hw
    cases hw
    obtain ⟨e1, g1⟩ := run_sized h h1
    have hf : s1.file = s.file ∧ s1.storeSize = s.storeSize := by rw [e1]; exact ⟨rfl, rfl⟩
    obtain ⟨e2, g2⟩ := runAll_sized ops (by rw [hf.1, hf.2]; exact g1) h2
    rw [hf.1, hf.2] at g2
    refine ⟨?_, g2⟩
    rw [e2, e1]

end LevelCacheStore
end
end Verif
