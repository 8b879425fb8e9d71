import Verif.Model.TreeStore
import Verif.Lemmas.M
import Verif.Props.Lifecycle
import Verif.Spec.Toy
/-
C64: the operations of a tree on its own store (src/merkle.rs:212-221, 1373-1396, 1422-1429, 1471-1496).
-/
set_option linter.unusedSectionVars false
namespace Verif
open Spec

section
variable {S E : Type} [Element E] [Store S E]

/-- **C64.** A compound tree (two or three layers) has no store of its own: `data` is `None`, and
`compact`, `reinit`, `read_range`, `read_range_into` and `read_into` return `Err`, leave the tree and
every file (so the files of its parts) as they were, and never panic. -/
theorem C64_compound (t : Tree2 S E) (ht : ∀ s, t ≠ .base s) (b version : Nat) (c : StoreConfig) (fs : FS) :
    t.data = none ∧
    (∃ m, t.compact b c version fs = (.error (.err m), t, fs)) ∧
    (∃ m, t.reinit fs = (.error (.err m), fs)) ∧
    (∀ i j, (t.readRange fs i j).IsErr) ∧
    (∀ i j buf, (t.readRangeInto fs i j buf).IsErr) ∧
    (∀ i buf, (t.readInto fs i buf).IsErr) := by
  cases t with
  | base s => exact absurd rfl (ht s)
  | sub n =>
    refine ⟨rfl, ⟨_, rfl⟩, ⟨_, M.bind_error rfl⟩, fun i j => ?_, fun i j buf => ?_, fun i buf => ⟨_, rfl⟩⟩
    · unfold Tree2.readRange ensure
      split <;> exact ⟨_, rfl⟩
    · unfold Tree2.readRangeInto ensure
      split <;> exact ⟨_, rfl⟩
  | top n =>
    refine ⟨rfl, ⟨_, rfl⟩, ⟨_, M.bind_error rfl⟩, fun i j => ?_, fun i j buf => ?_, fun i buf => ⟨_, rfl⟩⟩
    · unfold Tree2.readRange ensure
      split <;> exact ⟨_, rfl⟩
    · unfold Tree2.readRangeInto ensure
      split <;> exact ⟨_, rfl⟩

/-- **C64** for trees with at most two layers, the parts of a tree with three. -/
theorem C64_compound_sub (t : Tree1 S E) (ht : ∀ s, t ≠ .base s) (b version : Nat) (c : StoreConfig) (fs : FS) :
    t.data = none ∧
    (∃ m, t.compact b c version fs = (.error (.err m), t, fs)) ∧
    (∃ m, t.reinit fs = (.error (.err m), fs)) ∧
    (∀ i j, (t.readRange fs i j).IsErr) ∧
    (∀ i j buf, (t.readRangeInto fs i j buf).IsErr) ∧
    (∀ i buf, (t.readInto fs i buf).IsErr) := by
  cases t with
  | base s => exact absurd rfl (ht s)
  | sub n =>
    refine ⟨rfl, ⟨_, rfl⟩, ⟨_, M.bind_error rfl⟩, fun i j => ?_, fun i j buf => ?_, fun i buf => ⟨_, rfl⟩⟩
    · unfold Tree1.readRange ensure
      split <;> exact ⟨_, rfl⟩
    · unfold Tree1.readRangeInto ensure
      split <;> exact ⟨_, rfl⟩

/-- **C64.** On a tree of one layer they are the operations of its store, and the tree changes in
nothing but its store. -/
theorem C64_base (t : BaseTree S E) (b version : Nat) (c : StoreConfig) (fs : FS) :
    (Tree2.base t).data = some t.store ∧
    (Tree2.base t).compact b c version fs
      = ((t.compact b c version fs).1, .base (t.compact b c version fs).2.1, (t.compact b c version fs).2.2) ∧
    (∀ s fs', Store.reinit t.store fs = (.ok s, fs') →
      (Tree2.base t).reinit fs = (.ok (.base { t with store := s }), fs')) ∧
    (∀ e fs', Store.reinit t.store fs = (.error e, fs') → (Tree2.base t).reinit fs = (.error e, fs')) ∧
    (∀ i j, (Tree2.base t).readRange fs i j = t.readRange fs i j) ∧
    (∀ i j buf, (Tree2.base t).readRangeInto fs i j buf = t.readRangeInto fs i j buf) ∧
    (∀ i buf, (Tree2.base t).readInto fs i buf = t.readInto fs i buf) := by
  refine ⟨rfl, rfl, fun s fs' h => ?_, fun e fs' h => ?_, fun _ _ => rfl, fun _ _ _ => rfl, fun _ _ => rfl⟩
  · unfold Tree2.reinit
    exact (M.bind_ok (show M.ofRes (storeOf (Tree2.base t).data) fs = (.ok t.store, fs) from rfl)).trans
      ((M.bind_ok h).trans rfl)
  · unfold Tree2.reinit
    exact (M.bind_ok (show M.ofRes (storeOf (Tree2.base t).data) fs = (.ok t.store, fs) from rfl)).trans
      (M.bind_error h)

/-- **C64** on a tree of one layer, seen as a part of a tree with two or three. -/
theorem C64_base_sub (t : BaseTree S E) (b version : Nat) (c : StoreConfig) (fs : FS) :
    (Tree1.base t).data = some t.store ∧
    (Tree1.base t).compact b c version fs
      = ((t.compact b c version fs).1, .base (t.compact b c version fs).2.1, (t.compact b c version fs).2.2) ∧
    (∀ s fs', Store.reinit t.store fs = (.ok s, fs') →
      (Tree1.base t).reinit fs = (.ok (.base { t with store := s }), fs')) ∧
    (∀ e fs', Store.reinit t.store fs = (.error e, fs') → (Tree1.base t).reinit fs = (.error e, fs')) ∧
    (∀ i j, (Tree1.base t).readRange fs i j = t.readRange fs i j) ∧
    (∀ i j buf, (Tree1.base t).readRangeInto fs i j buf = t.readRangeInto fs i j buf) ∧
    (∀ i buf, (Tree1.base t).readInto fs i buf = t.readInto fs i buf) := by
  refine ⟨rfl, rfl, fun s fs' h => ?_, fun e fs' h => ?_, fun _ _ => rfl, fun _ _ _ => rfl, fun _ _ => rfl⟩
  · unfold Tree1.reinit
    exact (M.bind_ok (show M.ofRes (storeOf (Tree1.base t).data) fs = (.ok t.store, fs) from rfl)).trans
      ((M.bind_ok h).trans rfl)
  · unfold Tree1.reinit
    exact (M.bind_ok (show M.ofRes (storeOf (Tree1.base t).data) fs = (.ok t.store, fs) from rfl)).trans
      (M.bind_error h)

/-- **C64.** `delete` acts on the configuration alone: any two trees, of any number of layers, delete
the same. -/
theorem C64_delete (t : Tree2 S E) (u : Tree1 S E) (v : BaseTree S E) (c : StoreConfig) :
    t.delete c = v.delete c ∧ u.delete c = v.delete c := ⟨rfl, rfl⟩

end

section
variable {E : Type} [Element E]

/-- **C64.** `set_external_reader_path` on a compound tree returns `Err` whatever the path. -/
theorem C64_reader (t : Tree2 (LevelCacheStore E) E) (ht : ∀ s, t ≠ .base s) (path : String) (fs : FS) :
    ∃ m, t.setExternalReaderPath path fs = (.error (.err m), fs) := by
  cases t with
  | base s => exact absurd rfl (ht s)
  | sub _ => exact ⟨_, rfl⟩
  | top _ => exact ⟨_, rfl⟩

/-- **C64** for trees with at most two layers. -/
theorem C64_reader_sub (t : Tree1 (LevelCacheStore E) E) (ht : ∀ s, t ≠ .base s) (path : String) (fs : FS) :
    ∃ m, t.setExternalReaderPath path fs = (.error (.err m), fs) := by
  cases t with
  | base s => exact absurd rfl (ht s)
  | sub _ => exact ⟨_, rfl⟩

/-- Opening a reader needs the file and nothing else. -/
theorem newFromPath_run (path : String) (fs : FS) :
    (fs.file (.named path) ≠ none →
      ExternalReader.newFromPath path fs = (.ok (.ofFile (.named path) 0), fs)) ∧
    (fs.file (.named path) = none → ∃ m, ExternalReader.newFromPath path fs = (.error (.err m), fs)) := by
  refine ⟨fun h => ?_, fun h => ?_⟩
  · obtain ⟨bs, hbs⟩ := Option.ne_none_iff_exists'.1 h
    have hop : FS.openFile (.named path) fs = (.ok (), fs) := by
      unfold FS.openFile; rw [M.get_run, FS.contents_ok hbs]; rfl
    unfold ExternalReader.newFromPath ExternalReader.newFromConfig
    rw [M.bind_ok hop]
    rfl
  · obtain ⟨m, hm⟩ : ∃ m, FS.openFile (.named path) fs = (.error (.err m), fs) := by
      unfold FS.openFile FS.contents
      simp only [M.get, h]
      exact ⟨_, rfl⟩
    exact ⟨m, M.bind_error hm⟩

/-- **C64.** On a tree of one layer it sets the reader of the store, and nothing else, when the file
exists; this holds for each of the three types a tree of one layer is seen with. -/
theorem C64_reader_base (t : BaseTree (LevelCacheStore E) E) (path : String) (fs : FS) :
    (fs.file (.named path) ≠ none →
      let u := { t with store := { t.store with reader := some (.ofFile (.named path) 0) } }
      (Tree2.base t).setExternalReaderPath path fs = (.ok (.base u), fs) ∧
      (Tree1.base t).setExternalReaderPath path fs = (.ok (.base u), fs) ∧
      t.setExternalReaderPath path fs = (.ok u, fs)) ∧
    (fs.file (.named path) = none →
      (∃ m, (Tree2.base t).setExternalReaderPath path fs = (.error (.err m), fs)) ∧
      (∃ m, (Tree1.base t).setExternalReaderPath path fs = (.error (.err m), fs)) ∧
      ∃ m, t.setExternalReaderPath path fs = (.error (.err m), fs)) := by
  refine ⟨fun h => ?_, fun h => ?_⟩
  · have hr := (newFromPath_run path fs).1 h
    refine ⟨?_, ?_, ?_⟩
    all_goals
      show (ExternalReader.newFromPath path >>= _) fs = _
      rw [M.bind_ok hr]
      rfl
  · obtain ⟨m, hm⟩ := (newFromPath_run path fs).2 h
    exact ⟨⟨m, M.bind_error hm⟩, ⟨m, M.bind_error hm⟩, m, M.bind_error hm⟩

end

/-! Concrete instances. -/
section

/-- A tree over two leaves, and a compound tree over it twice. -/
def toyTwo : BaseTree (VecStore UInt8) UInt8 := ⟨⟨[72, 73, 91]⟩, 2, 3, 2, 91⟩
def toyPair : Node (BaseTree (VecStore UInt8) UInt8) UInt8 := ⟨[toyTwo, toyTwo], 4, 7, 3, toyAlg.nodeHash [91, 91] 1⟩

example : fromTrees toyAlg 2 [toyTwo, toyTwo] = .ok toyPair := rfl
example : (∀ s, Tree2.sub toyPair ≠ .base s) ∧ ∀ s, Tree1.sub toyPair ≠ .base s :=
  by
  constructor <;> intro _ h <;> cases h
example : (Tree2.base toyTwo).readInto FS.empty 1 [0] = .ok [73] := by decide +kernel
example : (Tree2.base toyTwo).readRange FS.empty 1 3 = .ok [73, 91] := by decide +kernel
example : (Tree2.sub toyPair).readAt 2 2 FS.empty 3 = .ok 73 := by decide +kernel

end
end Verif
