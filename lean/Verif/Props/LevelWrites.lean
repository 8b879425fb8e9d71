import Verif.Lemmas.LevelWrites
import Verif.Props.Stores
import Verif.Lemmas.LevelCacheTree
import Verif.Lemmas.LevelView
import Verif.Spec.Toy
import Verif.Spec.Ideal
/-
C66: writing to a `LevelCacheStore` and reading it back (src/store/level_cache.rs:201-217, 328-448).
-/
set_option linter.unusedSectionVars false
namespace Verif
open Spec StoreOps

section
variable {E : Type} [Element E] [LawfulElement E] [FloatRows]

/-! ### Writing -/

/-- C66: `write_at` on a `LevelCacheStore` ends as on a `DiskStore` with the same file, length and
capacity, with the same files afterwards; only the length of the store changes. -/
theorem C66_write (s : LevelCacheStore E) (e : E) (i : Nat) (fs : FS) :
    writeAt s e i fs = match writeAt s.toDisk e i fs with
      | (.ok d, fs') => (.ok { s with len := len (E := E) d }, fs')
      | (.error x, fs') => (.error x, fs') := by
  rw [show writeAt s e i fs = _ from LevelCacheStore.writeAt_toDisk s e i fs]
  show mapOutcome _ (writeAt s.toDisk e i fs) = _
  rcases writeAt s.toDisk e i fs with ⟨_ | _, _⟩ <;> rfl

/-- C66 for `copy_from_slice`. -/
theorem C66_copy (s : LevelCacheStore E) (buf : Bytes) (start : Nat) (fs : FS) :
    copyFromSlice (E := E) s buf start fs = match copyFromSlice (E := E) s.toDisk buf start fs with
      | (.ok d, fs') => (.ok { s with len := len (E := E) d }, fs')
      | (.error x, fs') => (.error x, fs') := by
  rw [show copyFromSlice (E := E) s buf start fs = _ from LevelCacheStore.copyFromSlice_toDisk s buf start fs]
  show mapOutcome _ (copyFromSlice (E := E) s.toDisk buf start fs) = _
  rcases copyFromSlice (E := E) s.toDisk buf start fs with ⟨_ | _, _⟩ <;> rfl

/-- C66 for `push`. -/
theorem C66_push (s : LevelCacheStore E) (e : E) (fs : FS) :
    push s e fs = match push s.toDisk e fs with
      | (.ok d, fs') => (.ok { s with len := len (E := E) d }, fs')
      | (.error x, fs') => (.error x, fs') := by
  rw [show push s e fs = _ from LevelCacheStore.push_toDisk s e fs]
  show mapOutcome _ (push s.toDisk e fs) = _
  rcases push s.toDisk e fs with ⟨_ | _, _⟩ <;> rfl

/-- C66: what does not fit is refused with `Err`, and no file changes. -/
theorem C66_refuses (s : LevelCacheStore E) (fs : FS) :
    (∀ (e : E) i, s.storeSize < (i + 1) * Element.byteLen E →
      ∃ m, writeAt s e i fs = (.error (.err m), fs)) ∧
    (∀ (buf : Bytes) start, s.storeSize < start * Element.byteLen E + buf.length ∨
        buf.length % Element.byteLen E ≠ 0 →
      ∃ m, copyFromSlice (E := E) s buf start fs = (.error (.err m), fs)) ∧
    ∀ e : E, s.storeSize < (s.len + 1) * Element.byteLen E →
      ∃ m, push s e fs = (.error (.err m), fs) := by
  refine ⟨fun e i h => ?_, fun buf start h => ?_, fun e h => ?_⟩
  · obtain ⟨m, hm⟩ := C25_disk_write (s := s.toDisk) (e := e) (i := i) h fs
    exact ⟨m, by rw [C66_write, hm]⟩
  · obtain ⟨m, hm⟩ := C25_disk_copy (s := s.toDisk) (buf := buf) (start := start) h fs
    exact ⟨m, by rw [C66_copy, hm]⟩
  · obtain ⟨m, hm⟩ := C25_disk_push (s := s.toDisk) (e := e) h fs
    exact ⟨m, by rw [C66_push, hm]⟩

/-! ### Reading back -/

/-- C66: as long as a store without reader holds leaves only (`len ≤ data_width`), every read returns
what it returns on the `DiskStore`; if no row is discarded (the cached rows follow the leaves) this is so
for every length. -/
theorem C66_reads {s : LevelCacheStore E} (hr : s.reader = none)
    (hs : s.dataWidth * Element.byteLen E ≤ s.cacheIndexStart)
    (hl : s.len ≤ s.dataWidth ∨ s.cacheIndexStart = s.dataWidth * Element.byteLen E) (fs : FS)
    (a c : Nat) (buf : Bytes) :
    readAt fs s a = (readAt fs s.toDisk a : Res E) ∧
    readRange fs s a c = (readRange fs s.toDisk a c : Res (List E)) ∧
    readInto (E := E) fs s a buf = readInto (E := E) fs s.toDisk a buf ∧
    readRangeInto (E := E) fs s a c buf = readRangeInto (E := E) fs s.toDisk a c buf :=
  have h : s.Plain := ⟨hr, hs, hl⟩
  ⟨h.readAt fs a, h.readRange fs a c, h.readInto fs a buf, h.readRangeInto fs a c buf⟩

/-- C66: a store that `new_with_config` makes for a tree of height `k` behaves as a growable array with
room for the leaves, or for all nodes if no row is discarded: whatever a sequence of operations on the
array returns, it returns on the store. -/
theorem C66_array_partial {b k : Nat} (hb : Arity b) (hk : 1 ≤ k) (hf : FloatRows.ExactAt b k)
    {c : StoreConfig} (hd : c.rowsToDiscard < k) {fs : FS} (hc : fs.file c.file = none)
    {ops : List (StoreOp E)} {os : List (StoreObs E)} {a : Arr E}
    (h : Arr.empty.run (if c.rowsToDiscard = 0 then nodes b k else b ^ k) ops = some (os, a)) :
    ∃ s fs' s' fs'', Store.newWithConfig (S := LevelCacheStore E) (nodes b k) b c fs = (.ok s, fs') ∧
      StoreOp.runAll s ops fs' = (.ok (os, s'), fs'') ∧ len (E := E) s' = a.len := by
  obtain ⟨fs', h1, h2, h3⟩ := LevelCacheStore.newWithConfig_run (E := E) hb hk hf hd hc
  have hp : (LevelCacheStore.built E b k c 0).Plain :=
    ⟨rfl, Nat.mul_le_mul_right _ (pow_le_rowStart b k _), .inl (Nat.zero_le _)⟩
  have hag : Agrees fs' (LevelCacheStore.built E b k c 0).toDisk (nodes b k) (Arr.empty : Arr E) :=
    ⟨⟨_, h2, List.length_replicate, Nat.mul_comm _ _⟩, rfl, fun i e h => by cases h⟩
  obtain ⟨n, fs'', g1, g2, g3⟩ := hp.runAll ops (by split; exacts [Nat.le_refl _, pow_le_nodes b k])
    (Nat.zero_le _) (by
      split
      · rename_i h0
        right
        show rowStart b k (c.rowsToDiscard + 1) * _ = b ^ k * _
        rw [h0]
        simp [rowStart]
      · exact .inl (Nat.le_refl _)) hag h
  exact ⟨_, fs', _, fs'', h1, g1, g3.len_eq⟩

/-! ### `new` -/

/-- C66 fails for a store made by `new`: nothing written to it can be read back.  After any sequence of
operations that succeeds, every `read_at` returns `Err`. -/
theorem C66_new_refuted (cap : Nat) (fs : FS) :
    ∃ s fs', Store.new (S := LevelCacheStore E) cap fs = (.ok s, fs') ∧
      ∀ (ops : List (StoreOp E)) os s' fs'', StoreOp.runAll s ops fs' = (.ok (os, s'), fs'') →
        ∀ i, Res.IsErr (readAt fs'' s' i : Res E) := by
  obtain ⟨fs1, f, h1, h2⟩ : ∃ fs1 f, LevelCacheStore.new (E := E) cap fs
      = (.ok ⟨0, f, cap, 0, false, Element.byteLen E * cap, none⟩, fs1) ∧
      ∃ bs, fs1.file f = some bs ∧ bs.length = Element.byteLen E * cap := by
    obtain ⟨fs1, h1, h2, _⟩ := createTemp_run fs
    obtain ⟨fs2, g1, g2, _⟩ := setLen_empty fs1 (Element.byteLen E * cap) h2
    exact ⟨fs2, _, by unfold LevelCacheStore.new; rw [M.bind_ok h1, M.bind_ok g1]; rfl, _, g2,
      List.length_replicate⟩
  refine ⟨_, fs1, h1, fun ops os s' fs'' hrun i => ?_⟩
  obtain ⟨e, bs, g1, g2⟩ := LevelCacheStore.runAll_sized ops h2 hrun
  generalize s'.len = n at e
  subst e
  have hp := LawfulElement.byteLen_pos (E := E)
  by_cases hi : i < n
  · apply LevelCacheStore.readAt_run_err
    unfold LevelCacheStore.storeReadRange
    rw [subP_ok (by omega), Res.ok_bind, ensure_true (show LevelCacheStore.InBounds _ _ from
      .inr (Nat.zero_le _)), Res.ok_bind]
    show Res.IsErr (FS.readExactAt _ _ (LevelCacheStore.adjustedStart _ _) _)
    unfold LevelCacheStore.adjustedStart
    rw [if_pos (Nat.zero_le _), if_pos (by rfl)]
    refine readExactAt_past g1 (by omega) ?_
    show bs.length < _ - 0 + cap * Element.byteLen E + _
    rw [g2, Nat.mul_comm]
    show cap * Element.byteLen E < _
    omega
  · exact LevelCacheStore.readAt_err_len (Nat.le_of_not_lt hi) _

end

/-! Concrete instances. -/
section
attribute [local instance] idealRows

/-- What the operations return on a level-cache store for a tree over four leaves. -/
def toyLevelRun (d : Nat) (ops : List (StoreOp UInt8)) : Option (List (StoreObs UInt8)) :=
  match (do
    let s : LevelCacheStore UInt8 ← Store.newWithConfig 7 2 (StoreConfig.new "d" "t" d)
    StoreOp.runAll s ops) FS.empty with
  | (.ok (os, _), _) => some os
  | _ => none

-- within the leaves the store agrees with the array
example : toyLevelRun 1 [.push 5, .push 6, .copy [7, 8] 2, .write 9 0, .read 0, .range 1 4, .len]
    = ((Arr.empty : Arr UInt8).run 4
      [.push 5, .push 6, .copy [7, 8] 2, .write 9 0, .read 0, .range 1 4, .len]).map Prod.fst := by
  decide +kernel

-- and beyond if no row is discarded
example : toyLevelRun 0 [.copy [1, 2, 3, 4, 5, 6, 7] 0, .read 6] = some [.done, .elem 7] := by
  decide +kernel

/-- C66 fails beyond the leaves if a row is discarded: with room for seven elements, of which the seventh
is the root, reading the root returns the element written at index 4, and reading index 5 fails. -/
theorem C66_array_refuted :
    ((Arr.empty : Arr UInt8).run 7 [.copy [1, 2, 3, 4, 5, 6, 7] 0, .read 6]).map Prod.fst
      = some [.done, .elem 7] ∧
    toyLevelRun 1 [.copy [1, 2, 3, 4, 5, 6, 7] 0, .read 6] = some [.done, .elem 5] ∧
    toyLevelRun 1 [.copy [1, 2, 3, 4, 5, 6, 7] 0, .read 5] = none := by decide +kernel

-- a store made by `new`
example : ∃ s : LevelCacheStore UInt8, ∃ fs, (do
    let s : LevelCacheStore UInt8 ← LevelCacheStore.new 2
    push s (5 : UInt8)) FS.empty = (.ok s, fs) ∧ len (E := UInt8) s = 1 ∧
      (readAt fs s 0 : Res UInt8) = .error (.err "failed to fill whole buffer") := ⟨_, _, rfl, rfl, rfl⟩

end
end Verif
