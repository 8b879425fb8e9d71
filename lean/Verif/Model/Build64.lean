import Verif.Model.Offsets64
/-
Building trees on 64-bit words: `build` and the constructors of the stores (src/store/*.rs), and the
constructors of base trees (src/merkle.rs:334-511, 1499-1817), with every sum, difference, product
and shift taken on words as in `Sizing64` and `Offsets64`.

What the address space or the disk can hold is not modelled: a memory map or a file of any length
below 2^63 bytes can be made.
-/
namespace Verif
open Word StoreOps

/-! ### The default build -/
section default
variable {S E : Type} [Element E]

/-- `Store::last` (src/store/mod.rs:250-252). -/
def StoreOps.last64 [StoreOps S E] (o : Overflow) (fs : FS) (s : S) : Res E := do
  let i ← sub o (len (E := E) s) 1
  readAt fs s i

/-- The hashing part of a `process_layer` task (src/store/mod.rs:344-358): the buffer is allocated
first, for the number of hashes expected. -/
def hashChunk64 (o : Overflow) (A : Alg E) (branches level chunkSize : Nat) (nodes : List E) :
    Res Bytes := do
  let cap ← mul o (nodes.length / branches) (Element.byteLen E)
  let _ ← allocLen cap
  let bs := encodeAll ((chunks branches nodes).map fun ns => A.nodeHash ns level)
  let n ← mul o (chunkSize / branches) (Element.byteLen E)
  ensure (bs.length = n) "Invalid hashed node length"
  .ok bs

/-- Reading half of a `process_layer` task (src/store/mod.rs:328-358), with the method `rd` that reads
the nodes.  `chunk_index` comes from the iterator over the range, which does not overflow. -/
def layerRead64 (o : Overflow) (rd : FS → S → Nat → Nat → Res (List E)) (A : Alg E)
    (branches width level readStart : Nat) (t : Nat) (s : S) (fs : FS) : Res Bytes := do
  let chunkIndex := readStart + t * buildChunkNodes
  let stop ← add o readStart width
  let rest ← sub o stop chunkIndex
  let chunkSize := min buildChunkNodes rest
  let chunkEnd ← add o chunkIndex chunkSize
  let nodes ← rd fs s chunkIndex chunkEnd
  hashChunk64 o A branches level chunkSize nodes

variable [StoreOps S E]

/-- Default `process_layer` (src/store/mod.rs:309-366).  A range whose end has wrapped around is
empty. -/
def processLayer64 (o : Overflow) (A : Alg E) (branches : Nat) (σ : Sched) (s : S)
    (width level readStart writeStart : Nat) : M S := do
  mEnsure (buildChunkNodes % branches = 0) "Invalid chunk size"
  let stop ← M.ofRes (add o readStart width)
  runSteps (layerRead64 o readRange A branches width level readStart)
    (fun t bs s => do
      let i ← M.ofRes (add o writeStart (t * buildChunkNodes / branches))
      copyFromSlice s bs i)
    (σ level (numChunks (stop - readStart))) (fun _ => none) s

/-- The writes of one layer in `build_small_tree` (src/store/mod.rs:293-295). -/
def writeLayer64 (o : Overflow) (writeStart : Nat) : List E → Nat → S → M S
  | [], _, s => pure s
  | n :: ns, i, s => do
    let p ← M.ofRes (add o writeStart i)
    let s ← writeAt s n p
    writeLayer64 o writeStart ns (i + 1) s

/-- Where a layer is read and written (src/store/mod.rs:276-281, 401-408). -/
def layerStarts64 (o : Overflow) (level levelNodeIndex width storeLen : Nat) : Res (Nat × Nat) :=
  if level = 0 then .ok (0, storeLen)
  else do
    let w ← add o levelNodeIndex width
    .ok (levelNodeIndex, w)

/-- The `while width > 1` loop of `build_small_tree` (src/store/mod.rs:274-300). -/
def smallTreeLoop64 (o : Overflow) (A : Alg E) (branches : Nat) :
    Nat → (width level levelNodeIndex : Nat) → S → M (S × Nat)
  | 0, _, _, _, _ => M.throw .diverge
  | f + 1, width, level, levelNodeIndex, s =>
    if width > 1 then do
      let rw ← M.ofRes (layerStarts64 o level levelNodeIndex width (len (E := E) s))
      let stop ← M.ofRes (add o rw.1 width)
      let nodes ← M.get fun fs => readRange fs s rw.1 stop
      let s ← writeLayer64 o rw.2 ((chunks branches nodes).map fun ns => A.nodeHash ns level) 0 s
      let levelNodeIndex ← M.ofRes (add o levelNodeIndex width)
      let level ← M.ofRes (add o level 1)
      let width ← M.ofRes (shr o width (trailingZeros branches))
      smallTreeLoop64 o A branches f width level levelNodeIndex s
    else pure (s, level)

/-- `build_small_tree` (src/store/mod.rs:261-307). -/
def buildSmallTree64 (o : Overflow) (A : Alg E) (branches : Nat) (s : S) (leafs rowCount : Nat) :
    M (E × S) := do
  mEnsure (leafs % 2 = 0) "Leafs must be a power of two"
  let (s, level) ← smallTreeLoop64 o A branches (leafs + 1) leafs 0 0 s
  let rows ← M.ofRes (add o level 1)
  mEnsure (rowCount = rows) "Invalid tree row_count"
  let root ← M.get fun fs => StoreOps.last64 o fs s
  pure (root, s)

/-- The `while width > 1` loop of the default `build` (src/store/mod.rs:396-414). -/
def buildLoop64 (o : Overflow) (A : Alg E) (branches : Nat) (σ : Sched) :
    Nat → (width level levelNodeIndex : Nat) → S → M (S × Nat)
  | 0, _, _, _, _ => M.throw .diverge
  | f + 1, width, level, levelNodeIndex, s =>
    if width > 1 then do
      let rw ← M.ofRes (layerStarts64 o level levelNodeIndex width (len (E := E) s))
      let s ← processLayer64 o A branches σ s width level rw.1 rw.2
      let levelNodeIndex ← M.ofRes (add o levelNodeIndex width)
      let level ← M.ofRes (add o level 1)
      let width ← M.ofRes (shr o width (trailingZeros branches))
      buildLoop64 o A branches σ f width level levelNodeIndex s
    else pure (s, level)

/-- Default `Store::build` (src/store/mod.rs:369-422). -/
def defaultBuild64 (o : Overflow) (A : Alg E) (branches : Nat) (σ : Sched) (s : S)
    (leafs rowCount : Nat) (_config : Option StoreConfig) : M (E × S) := do
  let p ← M.ofRes (npow2 o branches)
  mEnsure (p = branches) "branches MUST be a power of 2"
  mEnsure (len (E := E) s = leafs) "Inconsistent data"
  mEnsure (leafs % 2 = 0) "Leafs must be a power of two"
  if leafs ≤ smallTreeBuild then buildSmallTree64 o A branches s leafs rowCount
  else do
    let (s, level) ← buildLoop64 o A branches σ (leafs + 1) leafs 0 0 s
    let rows ← M.ofRes (add o level 1)
    mEnsure (rowCount = rows) "Invalid tree row_count"
    let root ← M.get fun fs => StoreOps.last64 o fs s
    pure (root, s)

end default

/-! ### `VecStore` -/

/-- `VecStore` on 64-bit words. -/
structure Vec64 (o : Overflow) (E : Type) where
  store : VecStore E

namespace Vec64
variable {o : Overflow} {E : Type} [Element E]

/-- `Vec::resize(n, default)`: no allocation is larger than `isize::MAX` bytes.  (A vector may allocate
more than it needs when it grows; that is not modelled.) -/
def resize64 (xs : List E) (n : Nat) : Res (List E) := do
  let _ ← allocLen (n * Element.byteLen E)
  .ok (resize xs n Element.default)

/-- `write_at` (src/store/vec.rs:28-35). -/
def writeAt (s : Vec64 o E) (el : E) (index : Nat) : M (Vec64 o E) :=
  if s.store.els.length ≤ index then do
    let n ← M.ofRes (add o index 1)
    let els ← M.ofRes (resize64 s.store.els n)
    pure ⟨⟨els.set index el⟩⟩
  else pure ⟨⟨s.store.els.set index el⟩⟩

/-- `copy_from_slice` (src/store/vec.rs:42-59). -/
def copyFromSlice (s : Vec64 o E) (buf : Bytes) (start : Nat) : M (Vec64 o E) := do
  let L := Element.byteLen E
  let r ← M.ofRes (modP buf.length L)
  mEnsure (r = 0) "buf size must be a multiple of byte_len"
  let stop ← M.ofRes (add o start (buf.length / L))
  let els ← M.ofRes (if s.store.els.length < stop then resize64 s.store.els stop else .ok s.store.els)
  let new : List E ← M.ofRes ((chunksExact L buf).mapM Element.fromSlice)
  pure ⟨⟨els.take start ++ new ++ els.drop stop⟩⟩

/-- `Vec::with_capacity(size)` (src/store/vec.rs:25): an element takes `byte_len` bytes of memory. -/
def new (size : Nat) : M (Vec64 o E) := do
  let _ ← M.ofRes (allocLen (size * Element.byteLen E))
  pure ⟨⟨[]⟩⟩

/-- `new_from_slice` (src/store/vec.rs:70-79): what is missing to `size` is reserved. -/
def newFromSlice (size : Nat) (data : Bytes) : M (Vec64 o E) := M.ofRes do
  let _ ← (if Element.byteLen E = 0 then .error (.panic "chunk size must be non-zero") else .ok ())
  let v ← (chunksExact (Element.byteLen E) data).mapM Element.fromSlice
  let additional ← sub o size v.length
  let _ ← allocLen ((v.length + additional) * Element.byteLen E)
  .ok ⟨⟨v⟩⟩

/-- Basic operations. -/
instance : StoreOps (Vec64 o E) E where
  len s := s.store.els.length
  isEmpty s := s.store.els.isEmpty
  loadedFromDisk _ := false
  readAt _ s i := idxP s.store.els i
  readRange _ s a b := s.store.readRange a b
  readInto _ s i buf := s.store.readInto i buf
  readRangeInto _ _ _ _ _ := .error (.panic "not implemented: Not required here")
  writeAt := writeAt
  copyFromSlice := copyFromSlice
  push s e := pure ⟨⟨s.store.els ++ [e]⟩⟩

instance : Store (Vec64 o E) E where
  new := new
  newWithConfig size _ _ := new size
  newFromSlice := newFromSlice
  newFromSliceWithConfig size _ data _ := newFromSlice size data
  newFromDisk _ _ _ := M.throw (.panic "not implemented: Cannot load a VecStore from disk")
  build := defaultBuild64 o
  compact s _ _ _ fs := (.ok true, s, fs)
  delete _ := pure ()

end Vec64

/-! ### `MmapStore` -/
namespace Mmap64
variable {o : Overflow} {E : Type} [Element E]

/-- `new` (src/store/mmap.rs:61-75). -/
def new (size : Nat) : M (Mmap64 o E) := do
  let storeSize ← M.ofRes (mul o (Element.byteLen E) size)
  let f ← FS.createTemp
  FS.setLen f storeSize
  pure ⟨⟨some storeSize, f, 0⟩⟩

/-- `new_from_disk` (src/store/mmap.rs:78-112). -/
def newFromDisk (size _branches : Nat) (config : StoreConfig) : M (Mmap64 o E) := do
  let ex ← FS.pathExists config.file
  mEnsure (ex = true) "[MmapStore] new_from_disk constructor can be used only for existing storages"
  let storeSize ← M.get fun fs => fs.fileLen config.file
  let n ← M.ofRes (mul o size (Element.byteLen E))
  mEnsure (storeSize = n) "Invalid formatted file provided"
  pure ⟨⟨some storeSize, config.file, size⟩⟩

/-- `new_with_config` (src/store/mmap.rs:32-58). -/
def newWithConfig (size branches : Nat) (config : StoreConfig) : M (Mmap64 o E) := do
  let ex ← FS.pathExists config.file
  if ex then newFromDisk size branches config
  else do
    FS.createNew config.file
    let storeSize ← M.ofRes (mul o (Element.byteLen E) size)
    FS.setLen config.file storeSize
    pure ⟨⟨some storeSize, config.file, 0⟩⟩

/-- `new_from_slice` (src/store/mmap.rs:183-199). -/
def newFromSlice (size : Nat) (data : Bytes) : M (Mmap64 o E) := do
  let r ← M.ofRes (modP data.length (Element.byteLen E))
  mEnsure (r = 0) "data size must be a multiple of byte_len"
  let s : Mmap64 o E ← new size
  mapWrite s.store 0 data.length data
  pure ⟨{ s.store with len := data.length / Element.byteLen E }⟩

/-- `new_from_slice_with_config` (src/store/mmap.rs:150-181). -/
def newFromSliceWithConfig (size branches : Nat) (data : Bytes) (config : StoreConfig) :
    M (Mmap64 o E) := do
  let r ← M.ofRes (modP data.length (Element.byteLen E))
  mEnsure (r = 0) "data size must be a multiple of byte_len"
  let s : Mmap64 o E ← newWithConfig size branches config
  let m ← s.store.ensureMap
  mapWrite m 0 data.length data
  pure ⟨{ m with len := data.length / Element.byteLen E }⟩

/-- `impl Store for MmapStore` (src/store/mmap.rs:30-305). -/
instance : Store (Mmap64 o E) E where
  new := new
  newWithConfig := newWithConfig
  newFromSlice := newFromSlice
  newFromSliceWithConfig := newFromSliceWithConfig
  newFromDisk := newFromDisk
  build := defaultBuild64 o
  compact s _ _ _ fs := (.ok s.store.map.isSome, ⟨{ s.store with map := none }⟩, fs)
  reinit s := do
    let m ← s.store.reinit
    pure ⟨m⟩
  delete _ := pure ()

end Mmap64

/-! ### The memory-mapped `process_layer` of `DiskStore` and `LevelCacheStore` -/

/-- What `process_layer` computes before its tasks start (src/store/disk.rs:327-343,
src/store/level_cache.rs:464-480): where its map starts in the file, the length of the map, the
length of the piece of each task, and the end of the range to read. -/
structure MapPlan where
  offset : Nat
  len : Nat
  piece : Nat
  stop : Nat

/-- The computations before the map is made (src/store/disk.rs:327-333). -/
def mapBounds64 (E : Type) [Element E] (o : Overflow) (width writeStart : Nat) : Res (Nat × Nat) := do
  let off ← mul o writeStart (Element.byteLen E)
  let n ← mul o width (Element.byteLen E)
  .ok (off, n)

/-- The computations after the map was made (src/store/disk.rs:335-343).  `par_chunks_mut` panics when
asked for empty pieces. -/
def mapPieces64 (E : Type) [Element E] (o : Overflow) (branches width readStart : Nat) :
    Res (Nat × Nat) := do
  let c ← shr o buildChunkNodes (trailingZeros branches)
  let w ← mul o c (Element.byteLen E)
  ensure (buildChunkNodes % branches = 0) "Invalid chunk size"
  let stop ← add o readStart width
  let _ ← (if w = 0 then .error (.panic "chunk_size must not be zero") else .ok ())
  .ok (w, stop)

/-- Number of tasks: the read chunks zipped with the pieces of the map (src/store/disk.rs:341-343). -/
def MapPlan.tasks (p : MapPlan) (readStart : Nat) : Nat :=
  min (numChunks (p.stop - readStart)) ((p.len + p.piece - 1) / p.piece)

/-- `write_mmap[0..len].copy_from_slice(..)` for task `t` (src/store/disk.rs:372). -/
def MapPlan.write (p : MapPlan) (file : FileId) (t : Nat) (bs : Bytes) : M Unit :=
  if bs.length ≤ min p.piece (p.len - t * p.piece) then
    FS.mmapWrite file (p.offset + t * p.piece) bs
  else M.throw (.panic "range end index out of range for slice")

/-- The memory-mapped `process_layer` (src/store/disk.rs:318-376, src/store/level_cache.rs:454-513) on
the file `file`, with the method `rd` that reads the nodes. -/
def mapLayer64 {S E : Type} [Element E] (o : Overflow) (rd : FS → S → Nat → Nat → Res (List E))
    (file : S → FileId) (A : Alg E) (branches : Nat) (σ : Sched) (s : S)
    (width level readStart writeStart : Nat) : M S := do
  let (off, n) ← M.ofRes (mapBounds64 E o width writeStart)
  FS.openFile (file s)
  let (w, stop) ← M.ofRes (mapPieces64 E o branches width readStart)
  let p : MapPlan := ⟨off, n, w, stop⟩
  runSteps (layerRead64 o rd A branches width level readStart)
    (fun t bs s => do
      p.write (file s) t bs
      pure s)
    (σ level (p.tasks readStart)) (fun _ => none) s

/-! ### `DiskStore` -/
namespace Disk64
variable {o : Overflow} {E : Type} [Element E]

/-- `new` (src/store/disk.rs:75-88). -/
def new (size : Nat) : M (Disk64 o E) := do
  let storeSize ← M.ofRes (mul o (Element.byteLen E) size)
  let f ← FS.createTemp
  FS.setLen f storeSize
  pure ⟨⟨0, f, false, storeSize⟩⟩

/-- `new_from_disk_with_path` (src/store/disk.rs:443-480). -/
def newFromDiskWithPath (size : Nat) (f : FileId) : M (Disk64 o E) := do
  let ex ← FS.pathExists f
  mEnsure (ex = true) "[DiskStore] new_from_disk constructor can be used only for existing storages"
  FS.openFile f
  let storeSize ← M.get fun fs => fs.fileLen f
  let n ← M.ofRes (mul o size (Element.byteLen E))
  mEnsure (storeSize = n) "Invalid formatted file provided"
  pure ⟨⟨size, f, true, storeSize⟩⟩

/-- `new_from_disk` (src/store/disk.rs:130-133). -/
def newFromDisk (size _branches : Nat) (config : StoreConfig) : M (Disk64 o E) :=
  newFromDiskWithPath size config.file

/-- `new_with_config` (src/store/disk.rs:47-73). -/
def newWithConfig (size branches : Nat) (config : StoreConfig) : M (Disk64 o E) := do
  let ex ← FS.pathExists config.file
  if ex then newFromDisk size branches config
  else do
    FS.createNew config.file
    let storeSize ← M.ofRes (mul o (Element.byteLen E) size)
    FS.setLen config.file storeSize
    pure ⟨⟨0, config.file, false, storeSize⟩⟩

/-- `new_from_slice` (src/store/disk.rs:116-128). -/
def newFromSlice (size : Nat) (data : Bytes) : M (Disk64 o E) := do
  let r ← M.ofRes (modP data.length (Element.byteLen E))
  mEnsure (r = 0) "data size must be a multiple of byte_len"
  let s : Disk64 o E ← new size
  storeCopyFromSlice s 0 data
  pure ⟨{ s.store with len := data.length / Element.byteLen E }⟩

/-- `new_from_slice_with_config` (src/store/disk.rs:90-114). -/
def newFromSliceWithConfig (size branches : Nat) (data : Bytes) (config : StoreConfig) :
    M (Disk64 o E) := do
  let r ← M.ofRes (modP data.length (Element.byteLen E))
  mEnsure (r = 0) "data size must be a multiple of byte_len"
  let s : Disk64 o E ← newWithConfig size branches config
  if s.store.loadedFromDisk then pure s
  else do
    storeCopyFromSlice s 0 data
    pure ⟨{ s.store with len := data.length / Element.byteLen E }⟩

/-- `process_layer` (src/store/disk.rs:318-376). -/
def processLayer (A : Alg E) (branches : Nat) (σ : Sched) (s : Disk64 o E)
    (width level readStart writeStart : Nat) : M (Disk64 o E) :=
  mapLayer64 o readRange (fun s => s.store.file) A branches σ s width level readStart writeStart

/-- The `while width > 1` loop of `build` (src/store/disk.rs:403-425). -/
def buildLoop (A : Alg E) (branches : Nat) (σ : Sched) :
    Nat → (width level levelNodeIndex : Nat) → Disk64 o E → M (Disk64 o E × Nat)
  | 0, _, _, _, _ => M.throw .diverge
  | f + 1, width, level, levelNodeIndex, s =>
    if width > 1 then do
      let rw ← M.ofRes (layerStarts64 o level levelNodeIndex width s.store.len)
      let s ← processLayer A branches σ s width level rw.1 rw.2
      let levelNodeIndex ← M.ofRes (add o levelNodeIndex width)
      let level ← M.ofRes (add o level 1)
      let width ← M.ofRes (shr o width (trailingZeros branches))
      let n ← M.ofRes (add o s.store.len width)
      buildLoop A branches σ f width level levelNodeIndex ⟨{ s.store with len := n }⟩
    else pure (s, level)

/-- `build` (src/store/disk.rs:379-439). -/
def build (A : Alg E) (branches : Nat) (σ : Sched) (s : Disk64 o E) (leafs rowCount : Nat)
    (_config : Option StoreConfig) : M (E × Disk64 o E) := do
  let p ← M.ofRes (npow2 o branches)
  mEnsure (p = branches) "branches MUST be a power of 2"
  mEnsure (s.store.len = leafs) "Inconsistent data"
  mEnsure (leafs % 2 = 0) "Leafs must be a power of two"
  let (s, level) ← buildLoop A branches σ (leafs + 1) leafs 0 0 s
  let n ← M.ofRes (merkleTreeLen64 o leafs branches)
  mEnsure (s.store.len = n) "Invalid merkle tree length"
  let rows ← M.ofRes (add o level 1)
  mEnsure (rowCount = rows) "Invalid tree row_count"
  let root ← M.get fun fs => StoreOps.last64 o fs s
  pure (root, s)

/-- The checks and computations at the start of `compact` (src/store/disk.rs:218-243). -/
def compactPlan [FloatRows] (s : Disk64 o E) (branches : Nat) (config : StoreConfig) :
    Res (Nat × Nat × Nat) := do
  let leafs ← merkleTreeLeafs64 o (s.store.len + 1) s.store.len branches
  let dataWidth ← mul o leafs (Element.byteLen E)
  let c ← merkleTreeCacheSize64 o leafs branches config.rowsToDiscard
  let cacheSize ← mul o c (Element.byteLen E)
  let n ← mul o s.store.len (Element.byteLen E)
  ensure (cacheSize < n ∧ cacheSize ≠ 0) "Cannot compact with this configuration"
  let cacheStart ← sub o s.store.storeSize cacheSize
  .ok (dataWidth, cacheSize, cacheStart)

/-- The file part of `compact` (src/store/disk.rs:245-287). -/
def compactFile (E : Type) [Element E] (o : Overflow) (f : FileId) (v1 : Bool)
    (dataWidth cacheSize cacheStart : Nat) : M Nat := do
  FS.openFile f
  let start := if v1 then dataWidth else 0
  let written ← DiskStore.copyWithin f cacheStart start
  mEnsure (written = cacheSize) "Failed to copy all data"
  let newSize ← (if v1 then M.ofRes (add o dataWidth cacheSize) else pure cacheSize)
  FS.setLen f newSize
  pure (newSize / Element.byteLen E)

/-- `compact` (src/store/disk.rs:212-289). -/
def compact [FloatRows] (s : Disk64 o E) (branches : Nat) (config : StoreConfig) (version : Nat)
    (fs : FS) : Res Bool × Disk64 o E × FS :=
  match compactPlan s branches config with
  | .error e => (.error e, s, fs)
  | .ok (dataWidth, cacheSize, cacheStart) =>
    match fs.file config.file with
    | none => (.error (.err "No such file or directory"), s, fs)
    | some _ =>
      let s : Disk64 o E := ⟨{ s.store with file := config.file }⟩
      match compactFile E o config.file (version == 1) dataWidth cacheSize cacheStart fs with
      | (.error e, fs) => (.error e, s, fs)
      | (.ok n, fs) =>
        let s : Disk64 o E := ⟨{ s.store with len := n }⟩
        match fs.fileLen s.store.file with
        | .error e => (.error e, s, fs)
        | .ok m =>
          match mul o s.store.len (Element.byteLen E) with
          | .error e => (.error e, s, fs)
          | .ok k =>
            if k = m then (.ok true, s, fs)
            else (.error (.err "Inconsistent metadata detected"), s, fs)

/-- `impl Store for DiskStore` (src/store/disk.rs:46-440). -/
instance [FloatRows] : Store (Disk64 o E) E where
  new := new
  newWithConfig := newWithConfig
  newFromSlice := newFromSlice
  newFromSliceWithConfig := newFromSliceWithConfig
  newFromDisk := newFromDisk
  build := build
  compact := compact
  delete c := FS.remove c.file

end Disk64

/-! ### `LevelCacheStore` -/
namespace LevelCache64
variable {o : Overflow} {E : Type} [Element E]

/-- The size checks of the constructors that open a file (src/store/level_cache.rs:106-121, 285-299). -/
def plan (E : Type) [Element E] [FloatRows] (o : Overflow) (storeRange branches : Nat)
    (config : StoreConfig) : Res (Nat × Nat × Nat × Nat) := do
  let size ← merkleTreeLeafs64 o (storeRange + 1) storeRange branches
  let p ← npow2 o size
  ensure (size = p) "Inconsistent merkle tree row_count detected"
  let range ← mul o storeRange (Element.byteLen E)
  let c ← merkleTreeCacheSize64 o size branches config.rowsToDiscard
  let cacheSize ← mul o c (Element.byteLen E)
  let cacheIndexStart ← sub o range cacheSize
  .ok (size, range, cacheSize, cacheIndexStart)

/-- `new_from_disk_with_reader` (src/store/level_cache.rs:76-145). -/
def newFromDiskWithReader [FloatRows] (storeRange branches : Nat) (config : StoreConfig)
    (reader : ExternalReader) : M (LevelCache64 o E) := do
  let ex ← FS.pathExists config.file
  mEnsure (ex = true) "new_from_disk_with_reader can be used only for existing storages"
  let storeSize ← M.get fun fs => fs.fileLen config.file
  let (size, range, cacheSize, cacheIndexStart) ← M.ofRes (plan E o storeRange branches config)
  mEnsure (storeSize = cacheSize) "Inconsistent store size detected with external reader"
  pure ⟨⟨range / Element.byteLen E, config.file, size, cacheIndexStart, false, storeSize, some reader⟩⟩

/-- `new_from_disk` (src/store/level_cache.rs:260-326). -/
def newFromDisk [FloatRows] (storeRange branches : Nat) (config : StoreConfig) :
    M (LevelCache64 o E) := do
  let ex ← FS.pathExists config.file
  mEnsure (ex = true) "new_from_disk constructor can be used only for existing storages"
  let storeSize ← M.get fun fs => fs.fileLen config.file
  let (size, range, _, cacheIndexStart) ← M.ofRes (plan E o storeRange branches config)
  pure ⟨⟨range / Element.byteLen E, config.file, size, cacheIndexStart, true, storeSize, none⟩⟩

/-- The sizes in `new_with_config` when it creates the file (src/store/level_cache.rs:172-184). -/
def newPlan (E : Type) [Element E] [FloatRows] (o : Overflow) (size branches : Nat)
    (config : StoreConfig) : Res (Nat × Nat × Nat) := do
  let storeSize ← mul o (Element.byteLen E) size
  let leafs ← merkleTreeLeafs64 o (size + 1) size branches
  let p ← npow2 o leafs
  ensure (leafs = p) "Inconsistent merkle tree row_count detected"
  let c ← merkleTreeCacheSize64 o leafs branches config.rowsToDiscard
  let cacheSize ← mul o c (Element.byteLen E)
  let cacheIndexStart ← sub o storeSize cacheSize
  .ok (storeSize, leafs, cacheIndexStart)

/-- `new_with_config` (src/store/level_cache.rs:155-199). -/
def newWithConfig [FloatRows] (size branches : Nat) (config : StoreConfig) :
    M (LevelCache64 o E) := do
  let ex ← FS.pathExists config.file
  if ex then newFromDisk size branches config
  else do
    FS.createNew config.file
    let (storeSize, leafs, cacheIndexStart) ← M.ofRes (newPlan E o size branches config)
    FS.setLen config.file storeSize
    pure ⟨⟨0, config.file, leafs, cacheIndexStart, false, storeSize, none⟩⟩

/-- `new` (src/store/level_cache.rs:201-217). -/
def new (size : Nat) : M (LevelCache64 o E) := do
  let storeSize ← M.ofRes (mul o (Element.byteLen E) size)
  let f ← FS.createTemp
  FS.setLen f storeSize
  pure ⟨⟨0, f, size, 0, false, storeSize, none⟩⟩

/-- `new_from_slice` (src/store/level_cache.rs:245-257). -/
def newFromSlice (size : Nat) (data : Bytes) : M (LevelCache64 o E) := do
  let r ← M.ofRes (modP data.length (Element.byteLen E))
  mEnsure (r = 0) "data size must be a multiple of byte_len"
  let s : LevelCache64 o E ← new size
  storeCopyFromSlice s 0 data
  pure ⟨{ s.store with len := data.length / Element.byteLen E }⟩

/-- `new_from_slice_with_config` (src/store/level_cache.rs:219-243). -/
def newFromSliceWithConfig [FloatRows] (size branches : Nat) (data : Bytes) (config : StoreConfig) :
    M (LevelCache64 o E) := do
  let r ← M.ofRes (modP data.length (Element.byteLen E))
  mEnsure (r = 0) "data size must be a multiple of byte_len"
  let s : LevelCache64 o E ← newWithConfig size branches config
  if s.store.loadedFromDisk then pure s
  else do
    storeCopyFromSlice s 0 data
    pure ⟨{ s.store with len := data.length / Element.byteLen E }⟩

/-- `store_read_range_internal` (src/store/level_cache.rs:757-776). -/
def storeReadRangeInternal (fs : FS) (s : LevelCache64 o E) (start stop : Nat) : Res Bytes := do
  let n ← sub o stop start
  let n ← allocLen n
  checkBounds s start "out of bounds"
  fs.readExactAt s.store.file start n

/-- `read_range_internal` (src/store/level_cache.rs:778-795). -/
def readRangeInternal (fs : FS) (s : LevelCache64 o E) (start stop : Nat) : Res (List E) := do
  let (start, stop) ← elementsRange64 E o start stop
  checkRange s start stop
  let bs ← storeReadRangeInternal fs s start stop
  decodeAll bs

/-- `read_at_internal` (src/store/level_cache.rs:797-810). -/
def readAtInternal (fs : FS) (s : LevelCache64 o E) (index : Nat) : Res E := do
  let (start, stop) ← elementRange64 E o index
  checkRange s start stop
  let bs ← storeReadRangeInternal fs s start stop
  Element.fromSlice bs

/-- `process_layer` (src/store/level_cache.rs:455-513). -/
def processLayer (A : Alg E) (branches : Nat) (σ : Sched) (s : LevelCache64 o E)
    (width level readStart writeStart : Nat) : M (LevelCache64 o E) :=
  mapLayer64 o readRangeInternal (fun s => s.store.file) A branches σ s width level readStart writeStart

/-- `front_truncate` (src/store/level_cache.rs:604-632). -/
def frontTruncate (s : LevelCache64 o E) (config : StoreConfig) (len : Nat) :
    M (LevelCache64 o E) := do
  let storeSize ← M.get fun fs => fs.fileLen s.store.file
  let len ← M.ofRes (mul o len (Element.byteLen E))
  mEnsure (storeSize ≥ len) "Invalid truncation length"
  FS.openFile config.file
  let written ← DiskStore.copyWithin config.file len 0
  mEnsure (written = storeSize - len) "Failed to copy all data"
  FS.setLen config.file written
  pure ⟨{ s.store with file := config.file }⟩

/-- Where a layer is read and written (src/store/level_cache.rs:550-560). -/
def layerStarts (o : Overflow) (cacheIndexStart level levelNodeIndex width storeLen : Nat) :
    Res (Nat × Nat) :=
  if level = 0 then .ok (0, storeLen)
  else if levelNodeIndex < cacheIndexStart then .ok (0, width)
  else do
    let r ← sub o levelNodeIndex cacheIndexStart
    let w ← add o levelNodeIndex width
    let w ← sub o w cacheIndexStart
    .ok (r, w)

/-- The `while width > 1` loop of `build` (src/store/level_cache.rs:545-576). -/
def buildLoop (A : Alg E) (branches : Nat) (σ : Sched) (config : StoreConfig)
    (cacheIndexStart : Nat) :
    Nat → (width level levelNodeIndex : Nat) → LevelCache64 o E → M (LevelCache64 o E × Nat)
  | 0, _, _, _, _ => M.throw .diverge
  | f + 1, width, level, levelNodeIndex, s =>
    if width > 1 then do
      let rw ← M.ofRes (layerStarts o cacheIndexStart level levelNodeIndex width s.store.len)
      let s ← processLayer A branches σ s width level rw.1 rw.2
      let s ← (if levelNodeIndex < cacheIndexStart then frontTruncate s config width else pure s)
      let levelNodeIndex ← M.ofRes (add o levelNodeIndex width)
      let level ← M.ofRes (add o level 1)
      let width ← M.ofRes (shr o width (trailingZeros branches))
      buildLoop A branches σ config cacheIndexStart f width level levelNodeIndex
        ⟨{ s.store with len := levelNodeIndex }⟩
    else pure (s, level)

/-- `build` (src/store/level_cache.rs:516-595). -/
def build [FloatRows] (A : Alg E) (branches : Nat) (σ : Sched) (s : LevelCache64 o E)
    (leafs rowCount : Nat) (config : Option StoreConfig) : M (E × LevelCache64 o E) := do
  let p ← M.ofRes (npow2 o branches)
  mEnsure (p = branches) "branches MUST be a power of 2"
  mEnsure (s.store.len = leafs) "Inconsistent data"
  mEnsure (leafs % 2 = 0) "Leafs must be a power of two"
  match config with
  | none => M.throw (.err "LevelCacheStore build requires a valid config")
  | some config => do
    let cacheSize ← M.ofRes (merkleTreeCacheSize64 o leafs branches config.rowsToDiscard)
    let n ← M.ofRes (merkleTreeLen64 o leafs branches)
    let cacheIndexStart ← M.ofRes (sub o n cacheSize)
    let (s, level) ← buildLoop A branches σ config cacheIndexStart (leafs + 1) leafs 0 0 s
    let len ← M.ofRes (add o s.store.len 1)
    let s : LevelCache64 o E := ⟨{ s.store with len := len }⟩
    let n ← M.ofRes (merkleTreeLen64 o leafs branches)
    mEnsure (s.store.len = n) "Invalid merkle tree length"
    let rows ← M.ofRes (add o level 1)
    mEnsure (rowCount = rows) "Invalid tree row_count"
    let i ← M.ofRes (sub o s.store.len cacheIndexStart)
    let i ← M.ofRes (sub o i 1)
    let root ← M.get fun fs => readAtInternal fs s i
    pure (root, s)

/-- `impl Store for LevelCacheStore` (src/store/level_cache.rs:154-596). -/
instance [FloatRows] : Store (LevelCache64 o E) E where
  new := new
  newWithConfig := newWithConfig
  newFromSlice := newFromSlice
  newFromSliceWithConfig := newFromSliceWithConfig
  newFromDisk := newFromDisk
  build := build
  compact s _ _ _ fs := (.error (.err "Cannot compact this type of Store"), s, fs)
  delete c := FS.remove c.file

end LevelCache64

/-! ### Populating a store with leaves -/
section populate
variable {S E : Type} [Element E] [StoreOps S E]

/-- The `for item in iter` loop of `populate_data` (src/merkle.rs:2029-2044). -/
def populateLoop64 (o : Overflow) (A : Alg E) : List (Res E) → A.σ → Bytes → S → M (Bytes × S)
  | [], _, buf, s => pure (buf, s)
  | item :: items, a, buf, s => do
    let item ← M.ofRes item
    let a := A.reset a
    let (h, a) := A.leaf a item
    let buf := buf ++ Element.toBytes h
    let block ← M.ofRes (mul o buildDataBlockSize (Element.byteLen E))
    if buf.length ≥ block then do
      let s ← copyFromSlice s buf (len (E := E) s)
      populateLoop64 o A items a [] s
    else populateLoop64 o A items a buf s

/-- `populate_data` (src/merkle.rs:2013-2050). -/
def populateData64 (o : Overflow) (A : Alg E) (s : S) (items : List (Res E)) : M S :=
  if isEmpty (E := E) s = false then pure s
  else do
    let cap ← M.ofRes (mul o buildDataBlockSize (Element.byteLen E))
    let _ ← M.ofRes (allocLen cap)
    let (buf, s) ← populateLoop64 o A items A.init [] s
    copyFromSlice s buf (len (E := E) s)

/-- The tasks of `populate_data_par` (src/merkle.rs:2069-2080) in the given order. -/
def populateTasks64 (o : Overflow) (A : Alg E) (cs : List (List E)) : List Nat → S → M S
  | [], s => pure s
  | t :: ts, s => do
    let cap ← M.ofRes (mul o buildDataBlockSize (Element.byteLen E))
    let _ ← M.ofRes (allocLen cap)
    let i ← M.ofRes (mul o buildDataBlockSize t)
    let s ← copyFromSlice s (leafChunkBytes A (cs.getD t []) A.init) i
    populateTasks64 o A cs ts s

/-- `populate_data_par` (src/merkle.rs:2052-2087). -/
def populateDataPar64 (o : Overflow) (A : Alg E) (π : ParOrder) (s : S) (items : List E) : M S :=
  if isEmpty (E := E) s = false then pure s
  else
    let cs := chunks buildDataBlockSize items
    populateTasks64 o A cs (π cs.length) s

end populate

/-! ### Constructors of base trees -/
namespace BaseTree
variable {S E : Type} [Element E] [Store S E] [FloatRows]

/-- The checks shared by the constructors from leaves (src/merkle.rs:1727-1736). -/
def sizes64 (o : Overflow) (b leafs : Nat) : Res (Nat × Nat) := do
  ensure (leafs > 1) "not enough leaves"
  let p ← npow2 o leafs
  ensure (p = leafs) "size MUST be a power of 2"
  let q ← npow2 o b
  ensure (q = b) "branches MUST be a power of 2"
  let size ← merkleTreeLen64 o leafs b
  let rows ← merkleTreeRowCount64 o leafs b
  .ok (size, rows)

/-- `try_from_iter` (src/merkle.rs:1722-1755). -/
def tryFromIter64 (o : Overflow) (A : Alg E) (b : Nat) (σ : Sched) (hint : Option Nat)
    (items : List (Res E)) : M (BaseTree S E) :=
  match hint with
  | none => M.throw (.err "could not get size hint from iterator")
  | some leafs => do
    let (size, rowCount) ← M.ofRes (sizes64 o b leafs)
    let s : S ← Store.new size
    let s ← populateData64 o A s items
    let (root, s) ← Store.build A b σ s leafs rowCount none
    pure ⟨s, leafs, size, rowCount, root⟩

/-- `try_from_iter_with_config` (src/merkle.rs:1760-1817). -/
def tryFromIterWithConfig64 (o : Overflow) (A : Alg E) (b : Nat) (σ : Sched) (hint : Option Nat)
    (items : List (Res E)) (config : StoreConfig) : M (BaseTree S E) :=
  match hint with
  | none => M.throw (.err "could not get size hint from iterator")
  | some leafs => do
    let (size, rowCount) ← M.ofRes (sizes64 o b leafs)
    let s : S ← Store.newWithConfig size b config
    if loadedFromDisk (E := E) s then do
      let root ← M.get fun fs => StoreOps.last64 o fs s
      pure ⟨s, leafs, size, rowCount, root⟩
    else do
      let s ← M.expect "failed to populate data" (populateData64 o A s items)
      let (root, s) ← Store.build A b σ s leafs rowCount (some config)
      pure ⟨s, leafs, size, rowCount, root⟩

/-- `from_par_iter` (src/merkle.rs:1611-1647). -/
def fromParIter64 (o : Overflow) (A : Alg E) (b : Nat) (σ : Sched) (π : ParOrder) (items : List E) :
    M (BaseTree S E) := do
  let leafs := items.length
  let (size, rowCount) ← M.ofRes (sizes64 o b leafs)
  let s : S ← M.expect "failed to create data store" (Store.new size)
  let s ← populateDataPar64 o A π s items
  let (root, s) ← Store.build A b σ s leafs rowCount none
  pure ⟨s, leafs, size, rowCount, root⟩

/-- `from_par_iter_with_config` (src/merkle.rs:1650-1707). -/
def fromParIterWithConfig64 (o : Overflow) (A : Alg E) (b : Nat) (σ : Sched) (π : ParOrder)
    (items : List E) (config : StoreConfig) : M (BaseTree S E) := do
  let leafs := items.length
  let (size, rowCount) ← M.ofRes (sizes64 o b leafs)
  let s : S ← Store.newWithConfig size b config
  if loadedFromDisk (E := E) s then do
    let root ← M.get fun fs => StoreOps.last64 o fs s
    pure ⟨s, leafs, size, rowCount, root⟩
  else do
    let s ← populateDataPar64 o A π s items
    let (root, s) ← Store.build A b σ s leafs rowCount (some config)
    pure ⟨s, leafs, size, rowCount, root⟩

/-- `from_byte_slice` (src/merkle.rs:1541-1580). -/
def fromByteSlice64 (o : Overflow) (A : Alg E) (b : Nat) (σ : Sched) (bytes : Bytes) :
    M (BaseTree S E) := do
  let leafs ← M.ofRes (sliceLeafs E bytes)
  let (size, rowCount) ← M.ofRes (sizes64 o b leafs)
  let s : S ← Store.newFromSlice size bytes
  let (root, s) ← Store.build A b σ s leafs rowCount none
  pure ⟨s, leafs, size, rowCount, root⟩

/-- `from_byte_slice_with_config` (src/merkle.rs:1499-1538). -/
def fromByteSliceWithConfig64 (o : Overflow) (A : Alg E) (b : Nat) (σ : Sched) (bytes : Bytes)
    (config : StoreConfig) : M (BaseTree S E) := do
  let leafs ← M.ofRes (sliceLeafs E bytes)
  let (size, rowCount) ← M.ofRes (sizes64 o b leafs)
  let s : S ← Store.newFromSliceWithConfig size b bytes config
  let (root, s) ← Store.build A b σ s leafs rowCount (some config)
  pure ⟨s, leafs, size, rowCount, root⟩

/-- `from_data_store` (src/merkle.rs:379-422). -/
def fromDataStore64 (o : Overflow) (b sub top : Nat) (s : S) (leafs : Nat) (fs : FS) :
    Res (BaseTree S E) := do
  ensure (sub = 0) "Data stores must not have sub-tree layers"
  ensure (top = 0) "Data stores must not have a top layer"
  let p ← npow2 o leafs
  ensure (p = leafs) "leafs MUST be a power of 2"
  let q ← npow2 o b
  ensure (q = b) "branches MUST be a power of 2"
  let treeLen ← merkleTreeLen64 o leafs b
  ensure (treeLen = StoreOps.len (E := E) s) "Inconsistent tree data"
  let v ← isMerkleTreeSizeValid64 o leafs b
  ensure (v = true) "MerkleTree size is invalid given the arity"
  let rows ← merkleTreeRowCount64 o leafs b
  let root ← StoreOps.last64 o fs s
  .ok ⟨s, leafs, treeLen, rows, root⟩

/-- The checks of `from_tree_slice` (src/merkle.rs:429-455). -/
def treeSliceLen64 (E : Type) [Element E] (o : Overflow) (b sub top : Nat) (data : Bytes)
    (leafs : Nat) : Res (Nat × Nat) := do
  ensure (sub = 0) "Data slice must not have sub-tree layers"
  ensure (top = 0) "Data slice must not have a top layer"
  let rows ← merkleTreeRowCount64 o leafs b
  let treeLen ← merkleTreeLen64 o leafs b
  let n ← divP data.length (Element.byteLen E)
  ensure (treeLen = n) "Inconsistent tree data"
  let v ← isMerkleTreeSizeValid64 o leafs b
  ensure (v = true) "MerkleTree size is invalid given the arity"
  .ok (treeLen, rows)

/-- `from_tree_slice` (src/merkle.rs:425-465). -/
def fromTreeSlice64 (o : Overflow) (b sub top : Nat) (data : Bytes) (leafs : Nat) :
    M (BaseTree S E) := do
  let (treeLen, rows) ← M.ofRes (treeSliceLen64 E o b sub top data leafs)
  let s : S ← Store.newFromSlice treeLen data
  let root ← M.get fun fs => StoreOps.last64 o fs s
  pure ⟨s, leafs, treeLen, rows, root⟩

/-- `from_tree_slice_with_config` (src/merkle.rs:468-511). -/
def fromTreeSliceWithConfig64 (o : Overflow) (b sub top : Nat) (data : Bytes) (leafs : Nat)
    (config : StoreConfig) : M (BaseTree S E) := do
  let (treeLen, rows) ← M.ofRes (treeSliceLen64 E o b sub top data leafs)
  let s : S ← Store.newFromSliceWithConfig treeLen b data config
  let root ← M.get fun fs => StoreOps.last64 o fs s
  pure ⟨s, leafs, treeLen, rows, root⟩

end BaseTree
end Verif
