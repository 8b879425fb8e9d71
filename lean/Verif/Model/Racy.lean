import Verif.Model.DiskStore
import Verif.Model.LevelCache
/-
The parallel builds of `DiskStore` and `LevelCacheStore`, byte by byte.

`Model/DiskStore` and `Model/LevelCache` let a worker read its chunk in one step and write its hashes
in one step.  The code guarantees less: the lock around the reads is shared (`data_lock.read()`,
src/store/disk.rs:350-353, src/store/level_cache.rs:487-490), and the hashes are copied into the memory
map under no lock at all (src/store/disk.rs:372, src/store/level_cache.rs:509).  Here each byte that is
read and each byte that is written is a step of its own, and the steps of all workers are interleaved
in any order that keeps each worker's reads before its hashing and its hashing before its writes.
-/
namespace Verif
namespace Racy

/-- A step of worker `t`: it reads byte `i` of its chunk, hashes what it has read, or writes byte `i` of
its hashes. -/
inductive Step where
  | read (t i : Nat)
  | hash (t : Nat)
  | write (t i : Nat)
  deriving DecidableEq, Repr

/-- The steps of a layer with `n` workers, of which worker `t` reads `ρ t` bytes and writes `ω t` bytes:
each one is taken exactly once, reads before hashing, hashing before writes. -/
structure Steps.Valid (ts : List Step) (n : Nat) (ρ ω : Nat → Nat) : Prop where
  read : ∀ t i, ts.count (.read t i) = if t < n ∧ i < ρ t then 1 else 0
  hash : ∀ t, ts.count (.hash t) = if t < n then 1 else 0
  write : ∀ t i, ts.count (.write t i) = if t < n ∧ i < ω t then 1 else 0
  read_hash : ∀ t i, t < n → i < ρ t → ts.idxOf (.read t i) < ts.idxOf (.hash t)
  hash_write : ∀ t i, t < n → i < ω t → ts.idxOf (.hash t) < ts.idxOf (.write t i)

/-- An order of the steps for each layer, given its level, the number of its workers and the number of
bytes each of them reads and writes. -/
def ByteSched := (level n : Nat) → (ρ ω : Nat → Nat) → List Step

/-- The order is a possible one in every layer. -/
def ByteSched.Valid (τ : ByteSched) : Prop := ∀ level n ρ ω, Steps.Valid (τ level n ρ ω) n ρ ω

/-- The workers one after the other. -/
def ByteSched.sequential : ByteSched := fun _ n ρ ω =>
  (List.range n).flatMap fun t =>
    (List.range (ρ t)).map (.read t ·) ++ .hash t :: (List.range (ω t)).map (.write t ·)

/-- All reads, then all hashing, then all writes. -/
def ByteSched.phases : ByteSched := fun _ n ρ ω =>
  (List.range n).flatMap (fun t => (List.range (ρ t)).map (.read t ·)) ++
    (List.range n).map (.hash ·) ++
    (List.range n).flatMap (fun t => (List.range (ω t)).map (.write t ·))

/-- What a layer asks of its workers: the checks before reading, the place and number of the bytes to
read, what becomes of them, and the place and size of the piece of the map to write to. -/
structure Layer where
  file : FileId
  check : Nat → Res Unit
  start : Nat → Nat
  size : Nat → Nat
  hash : Nat → Bytes → Res Bytes
  dest : Nat → Nat
  room : Nat → Nat

/-- The memory of the workers: what they have read (`vec![0; read_len]`, src/store/disk.rs:510) and what
they have hashed. -/
structure Mem where
  buf : Nat → Nat → UInt8
  out : Nat → Bytes

/-- Nothing read yet. -/
def Mem.init : Mem := ⟨fun _ _ => 0, fun _ => []⟩

/-- One step (src/store/disk.rs:345-374, src/store/level_cache.rs:482-511). -/
def Layer.step (y : Layer) : Step → Mem → M Mem
  | .read t i, m => do
    M.ofRes (y.check t)
    let bs ← M.get fun fs => fs.readExactAt y.file (y.start t + i) 1
    pure { m with buf := fun u j => if u = t ∧ j = i then bs.headD 0 else m.buf u j }
  | .hash t, m => do
    let bs ← M.ofRes (y.hash t ((List.range (y.size t)).map (m.buf t)))
    if bs.length ≤ y.room t then
      pure { m with out := fun u => if u = t then bs else m.out u }
    else M.throw (.panic "range end index out of range for slice")
  | .write t i, m => do
    FS.mmapWrite y.file (y.dest t + i) [(m.out t).getD i 0]
    pure m

/-- The steps in the given order; the first failing one ends the loop. -/
def Layer.run (y : Layer) : List Step → Mem → M Mem
  | [], m => pure m
  | st :: sts, m => do
    let m ← y.step st m
    y.run sts m

/-- Number of nodes in the chunk of worker `t` (src/store/disk.rs:346). -/
def chunkSize (width t : Nat) : Nat := min buildChunkNodes (width - t * buildChunkNodes)

section
variable {E : Type} [Element E]

/-- The layer of `DiskStore::process_layer` (src/store/disk.rs:318-376). -/
def diskLayer (A : Alg E) (branches : Nat) (s : DiskStore E) (width level readStart writeStart : Nat) :
    Layer where
  file := s.file
  check t := s.checkRange ((readStart + t * buildChunkNodes) * Element.byteLen E)
    ((readStart + t * buildChunkNodes + chunkSize width t) * Element.byteLen E)
  start t := (readStart + t * buildChunkNodes) * Element.byteLen E
  size t := chunkSize width t * Element.byteLen E
  hash t bs := do
    let nodes ← decodeAll bs
    hashChunk A branches level (chunkSize width t) nodes
  dest t := writeStart * Element.byteLen E + t * writeChunkWidth E branches
  room t := min (writeChunkWidth E branches)
    (width * Element.byteLen E - t * writeChunkWidth E branches)

/-- The layer of `LevelCacheStore::process_layer` (src/store/level_cache.rs:455-513). -/
def cacheLayer (A : Alg E) (branches : Nat) (s : LevelCacheStore E)
    (width level readStart writeStart : Nat) : Layer where
  file := s.file
  check t := s.checkRange ((readStart + t * buildChunkNodes) * Element.byteLen E)
    ((readStart + t * buildChunkNodes + chunkSize width t) * Element.byteLen E)
  start t := (readStart + t * buildChunkNodes) * Element.byteLen E
  size t := chunkSize width t * Element.byteLen E
  hash t bs := do
    let nodes ← decodeAll bs
    hashChunk A branches level (chunkSize width t) nodes
  dest t := writeStart * Element.byteLen E + t * writeChunkWidth E branches
  room t := min (writeChunkWidth E branches)
    (width * Element.byteLen E - t * writeChunkWidth E branches)

/-- Number of bytes worker `t` writes. -/
def outSize (E : Type) [Element E] (branches width t : Nat) : Nat :=
  chunkSize width t / branches * Element.byteLen E

end

/-- A `DiskStore` whose workers run in the order `τ`. -/
def Disk (_τ : ByteSched) (E : Type) := DiskStore E

namespace Disk
variable {E : Type} [Element E]

/-- `process_layer` (src/store/disk.rs:318-376). -/
def processLayer (τ : ByteSched) (A : Alg E) (branches : Nat) (s : DiskStore E)
    (width level readStart writeStart : Nat) : M Unit := do
  FS.openFile s.file
  mEnsure (buildChunkNodes % branches = 0) "Invalid chunk size"
  let y := diskLayer A branches s width level readStart writeStart
  let _ ← y.run (τ level (mmapTasks E branches width) y.size (outSize E branches width)) Mem.init
  pure ()

/-- The `while width > 1` loop of `build` (src/store/disk.rs:403-425). -/
def buildLoop (τ : ByteSched) (A : Alg E) (branches : Nat) :
    Nat → (width level levelNodeIndex : Nat) → DiskStore E → M (DiskStore E × Nat)
  | 0, _, _, _, _ => M.throw .diverge
  | f + 1, width, level, levelNodeIndex, s =>
    if width > 1 then
      let rw := if level = 0 then (0, s.len) else (levelNodeIndex, levelNodeIndex + width)
      do
        processLayer τ A branches s width level rw.1 rw.2
        let width' := width >>> log2Pow2 branches
        buildLoop τ A branches f width' (level + 1) (levelNodeIndex + width)
          { s with len := s.len + width' }
    else pure (s, level)

/-- `build` (src/store/disk.rs:379-439). -/
def build (τ : ByteSched) (A : Alg E) (branches : Nat) (s : DiskStore E) (leafs rowCount : Nat) :
    M (E × DiskStore E) := do
  mEnsure (nextPow2 branches = branches) "branches MUST be a power of 2"
  mEnsure (s.len = leafs) "Inconsistent data"
  mEnsure (leafs % 2 = 0) "Leafs must be a power of two"
  let (s, level) ← buildLoop τ A branches (leafs + 1) leafs 0 0 s
  let n ← M.ofRes (merkleTreeLen leafs branches)
  mEnsure (s.len = n) "Invalid merkle tree length"
  mEnsure (rowCount = level + 1) "Invalid tree row_count"
  let root ← M.get fun fs => StoreOps.last fs s
  pure (root, s)

/-- Everything but `build` is that of `DiskStore`. -/
instance {τ : ByteSched} : StoreOps (Disk τ E) E := inferInstanceAs (StoreOps (DiskStore E) E)

instance {τ : ByteSched} [FloatRows] : Store (Disk τ E) E where
  new := DiskStore.new
  newWithConfig := DiskStore.newWithConfig
  newFromSlice := DiskStore.newFromSlice
  newFromSliceWithConfig := DiskStore.newFromSliceWithConfig
  newFromDisk := DiskStore.newFromDisk
  build A b _ s leafs rowCount _ := build τ A b s leafs rowCount
  compact := DiskStore.compact
  delete := DiskStore.delete

end Disk

/-- A `LevelCacheStore` whose workers run in the order `τ`. -/
def Cache (_τ : ByteSched) (E : Type) := LevelCacheStore E

namespace Cache
variable {E : Type} [Element E]

/-- `process_layer` (src/store/level_cache.rs:455-513). -/
def processLayer (τ : ByteSched) (A : Alg E) (branches : Nat) (s : LevelCacheStore E)
    (width level readStart writeStart : Nat) : M Unit := do
  FS.openFile s.file
  mEnsure (buildChunkNodes % branches = 0) "Invalid chunk size"
  let y := cacheLayer A branches s width level readStart writeStart
  let _ ← y.run (τ level (mmapTasks E branches width) y.size (outSize E branches width)) Mem.init
  pure ()

/-- The `while width > 1` loop of `build` (src/store/level_cache.rs:545-576). -/
def buildLoop (τ : ByteSched) (A : Alg E) (branches : Nat) (config : StoreConfig)
    (cacheIndexStart : Nat) :
    Nat → (width level levelNodeIndex : Nat) → LevelCacheStore E → M (LevelCacheStore E × Nat)
  | 0, _, _, _, _ => M.throw .diverge
  | f + 1, width, level, levelNodeIndex, s =>
    if width > 1 then
      let rw :=
        if level = 0 then (0, s.len)
        else if levelNodeIndex < cacheIndexStart then (0, width)
        else (levelNodeIndex - cacheIndexStart, levelNodeIndex + width - cacheIndexStart)
      do
        processLayer τ A branches s width level rw.1 rw.2
        let s ← (if levelNodeIndex < cacheIndexStart then s.frontTruncate config width else pure s)
        buildLoop τ A branches config cacheIndexStart f (width >>> log2Pow2 branches) (level + 1)
          (levelNodeIndex + width) { s with len := levelNodeIndex + width }
    else pure (s, level)

/-- `build` (src/store/level_cache.rs:516-595). -/
def build [FloatRows] (τ : ByteSched) (A : Alg E) (branches : Nat) (s : LevelCacheStore E)
    (leafs rowCount : Nat) (config : Option StoreConfig) : M (E × LevelCacheStore E) := do
  mEnsure (nextPow2 branches = branches) "branches MUST be a power of 2"
  mEnsure (s.len = leafs) "Inconsistent data"
  mEnsure (leafs % 2 = 0) "Leafs must be a power of two"
  match config with
  | none => M.throw (.err "LevelCacheStore build requires a valid config")
  | some config => do
    let cacheSize ← M.ofRes (merkleTreeCacheSize leafs branches config.rowsToDiscard)
    let n ← M.ofRes (merkleTreeLen leafs branches)
    let cacheIndexStart ← M.ofRes (subP n cacheSize)
    let (s, level) ← buildLoop τ A branches config cacheIndexStart (leafs + 1) leafs 0 0 s
    let s := { s with len := s.len + 1 }
    let n ← M.ofRes (merkleTreeLen leafs branches)
    mEnsure (s.len = n) "Invalid merkle tree length"
    mEnsure (rowCount = level + 1) "Invalid tree row_count"
    let i ← M.ofRes (subP s.len cacheIndexStart)
    let i ← M.ofRes (subP i 1)
    let root ← M.get fun fs => s.readAtInternal fs i
    pure (root, s)

/-- Everything but `build` is that of `LevelCacheStore`. -/
instance {τ : ByteSched} : StoreOps (Cache τ E) E := inferInstanceAs (StoreOps (LevelCacheStore E) E)

instance {τ : ByteSched} [FloatRows] : Store (Cache τ E) E where
  new := LevelCacheStore.new
  newWithConfig := LevelCacheStore.newWithConfig
  newFromSlice := LevelCacheStore.newFromSlice
  newFromSliceWithConfig := LevelCacheStore.newFromSliceWithConfig
  newFromDisk := LevelCacheStore.newFromDisk
  build A b _ s leafs rowCount c := build τ A b s leafs rowCount c
  compact s _ _ _ fs := (.error (.err "Cannot compact this type of Store"), s, fs)
  delete c := FS.remove c.file

end Cache
end Racy
end Verif
