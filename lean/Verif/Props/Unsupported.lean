import Verif.Model.Merkle
import Verif.Model.MmapStore
import Verif.Model.LevelCache
import Verif.Model.Build64
import Verif.Spec.Toy
/-
C72: operations that a store or a type of tree does not support (src/store/vec.rs, src/store/mmap.rs,
src/store/level_cache.rs, src/merkle.rs:928-1000 and 1111-1225).
-/
namespace Verif

section stores
variable {E : Type} [Element E]

/-- C72: `VecStore::new_from_disk` panics whatever it is asked for, and the files stay as they are. -/
theorem C72_vec_from_disk (size branches : Nat) (c : StoreConfig) (fs : FS) :
    ∃ m, (Store.newFromDisk size branches c : M (VecStore E)) fs = (.error (.panic m), fs) := ⟨_, rfl⟩

/-- C72: `read_range_into` of `VecStore` panics even for a range within the store. -/
theorem C72_vec_read_range_into (fs : FS) (s : VecStore E) (a b : Nat) (buf : Bytes) :
    ∃ m, StoreOps.readRangeInto (E := E) fs s a b buf = .error (.panic m) := ⟨_, rfl⟩

/-- C72: and so does that of `MmapStore`. -/
theorem C72_mmap_read_range_into (fs : FS) (s : MmapStore E) (a b : Nat) (buf : Bytes) :
    ∃ m, StoreOps.readRangeInto (E := E) fs s a b buf = .error (.panic m) := ⟨_, rfl⟩

/-- C72: compacting a level cache is refused with `Err`; neither the store nor a file changes. -/
theorem C72_level_cache_compact [FloatRows] (s : LevelCacheStore E) (b : Nat) (c : StoreConfig) (v : Nat) (fs : FS) :
    ∃ m, Store.compact (E := E) s b c v fs = (.error (.err m), s, fs) := ⟨_, rfl⟩

/-- C72: the same two answers on 64-bit words; compacting a `VecStore` is answered with `Ok(true)` there
too, and nothing changes. -/
theorem C72_vec_64 (o : Overflow) (size branches : Nat) (c : StoreConfig) (v : Nat) (s : Vec64 o E)
    (a b : Nat) (buf : Bytes) (fs : FS) :
    (∃ m, (Store.newFromDisk size branches c : M (Vec64 o E)) fs = (.error (.panic m), fs)) ∧
    (∃ m, StoreOps.readRangeInto (E := E) fs s a b buf = .error (.panic m)) ∧
    Store.compact (E := E) s branches c v fs = (.ok true, s, fs) ∧
    Store.compact (E := E) s.store branches c v fs = (.ok true, s.store, fs) :=
  ⟨⟨_, rfl⟩, ⟨_, rfl⟩, rfl, rfl⟩

/-- C72: a replica is not read into a buffer that is too short for the range: the slicing panics,
whatever the file holds. -/
theorem C72_replica_short_buffer (f : FileId) (offset : Nat) (fs : FS) {a b : Nat} {buf : Bytes}
    (h : buf.length < b - a) :
    ∃ m, (ExternalReader.ofFile f offset).read fs a b buf = .error (.panic m) := by
  refine ⟨"range end index out of range for slice", ?_⟩
  show ExternalReader.fileReadFn f fs (a + offset) (b + offset) buf = _
  have h1 : a + offset ≤ b + offset := by omega
  have h2 : ¬ b + offset - (a + offset) ≤ buf.length := by omega
  unfold ExternalReader.fileReadFn subP
  rw [if_pos h1, Res.ok_bind, if_neg h2]

/-- C72: nor is a range with its end before its start. -/
theorem C72_replica_backward (f : FileId) (offset : Nat) (fs : FS) {a b : Nat} {buf : Bytes}
    (h : b < a) : ∃ m, (ExternalReader.ofFile f offset).read fs a b buf = .error (.panic m) := by
  refine ⟨"attempt to subtract with overflow", ?_⟩
  show ExternalReader.fileReadFn f fs (a + offset) (b + offset) buf = _
  have h1 : ¬ a + offset ≤ b + offset := by omega
  unfold ExternalReader.fileReadFn subP
  rw [if_neg h1]
  rfl

/-- C72: an element of a memory-mapped store whose file somebody else has cut below its end is never
returned: the process gets a fault (SIGBUS), no `Err`. -/
theorem C72_mmap_cut (s : MmapStore E) (fs : FS) {n i : Nat} {bs : Bytes} (hm : s.map = some n)
    (hn : s.len * Element.byteLen E ≤ n) (hi : i < s.len) (hb : 0 < Element.byteLen E)
    (hf : fs.file s.file = some bs) (hc : bs.length < (i + 1) * Element.byteLen E) :
    MmapStore.readAt fs s i = .error (.panic "SIGBUS") := by
  have h1 : (i + 1) * Element.byteLen E ≤ s.len * Element.byteLen E := Nat.mul_le_mul_right _ hi
  rw [Nat.add_mul, Nat.one_mul] at h1 hc
  have hc' : fs.contents s.file = .ok bs := by simp [FS.contents, hf]
  simp only [MmapStore.readAt, MmapStore.checkRange, MmapStore.mapRead, hm, hc', ensure]
  rw [if_pos (by omega), Res.ok_bind, if_pos (by omega), Res.ok_bind, if_pos (by omega)]
  simp only [Res.ok_bind]
  rw [if_neg (by omega)]
  rfl

end stores

/-- Two bytes of a replica into a buffer of one. -/
example : ∃ m, (ExternalReader.ofFile (.named "r") 0).read FS.empty 0 2 [0] = .error (.panic m) :=
  C72_replica_short_buffer _ _ _ (by decide)

/-- From 2 to 1. -/
example : ∃ m, (ExternalReader.ofFile (.named "r") 0).read FS.empty 2 1 [0] = .error (.panic m) :=
  C72_replica_backward _ _ _ (by decide)

/-- A map of two bytes over a file that has only one of them left. -/
example : MmapStore.readAt (FS.empty.set (.named "m") (some [5])) (⟨some 2, .named "m", 2⟩ : MmapStore UInt8) 1 =
    .error (.panic "SIGBUS") :=
  C72_mmap_cut _ _ (n := 2) (bs := [5]) rfl (by decide) (by decide) (by decide) (by decide) (by decide)

section iterators
variable {S E : Type} [Element E] [Store S E] [FloatRows]

/-- C72: an iterator without a size hint is refused with `Err` before a store is made, on unbounded
integers and on 64-bit words. -/
theorem C72_no_size_hint (o : Overflow) (A : Alg E) (b : Nat) (σ : Sched) (items : List (Res E))
    (c : StoreConfig) (fs : FS) :
    ∃ m, (BaseTree.tryFromIter A b σ none items : M (BaseTree S E)) fs = (.error (.err m), fs) ∧
      (BaseTree.tryFromIterWithConfig A b σ none items c : M (BaseTree S E)) fs = (.error (.err m), fs) ∧
      (BaseTree.tryFromIter64 o A b σ none items : M (BaseTree S E)) fs = (.error (.err m), fs) ∧
      (BaseTree.tryFromIterWithConfig64 o A b σ none items c : M (BaseTree S E)) fs =
        (.error (.err m), fs) :=
  ⟨_, rfl, rfl, rfl, rfl⟩

end iterators

section layers
variable {S E : Type} [Element E] [StoreOps S E]

/-- A tree of a type without a top layer, as a tree of a type that may have one. -/
def Tree1.asTree2 : Tree1 S E → Tree2 S E
  | .base t => .base t
  | .sub t => .sub t

/-- C72: a type without a top layer is one whose top arity is zero: reads and proofs are the same. -/
theorem C72_no_top_layer [FloatRows] (A : Alg E) (b sub : Nat) (σ : Sched) (fs : FS) (t : Tree1 S E) (i : Nat)
    (rows : Option Nat) :
    t.asTree2.leafs = t.leafs ∧ t.asTree2.root = t.root ∧ t.asTree2.readAt sub 0 fs i = t.readAt sub fs i ∧
    t.asTree2.genProof b sub 0 fs i = t.genProof b sub fs i ∧
    t.asTree2.genCachedProof A b sub 0 σ i rows = t.genCachedProof A b sub σ i rows := by
  cases t <;> exact ⟨rfl, rfl, rfl, rfl, rfl⟩

end layers

/-- A tree for which `C72_no_top_layer` is about proofs that exist. -/
example : ∃ (t : Tree1 (VecStore UInt8) UInt8) (p : Proof UInt8),
    t.asTree2.genProof 2 0 0 FS.empty 0 = .ok p :=
  ⟨.base ⟨⟨[1, 2, 3]⟩, 2, 3, 2, 3⟩, _, rfl⟩

end Verif
