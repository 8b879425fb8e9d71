import Verif.Model.Store
import Verif.Model.DiskStore
import Verif.Lemmas.Res
/-
`LevelCacheStore` (src/store/level_cache.rs): only the upper rows of the tree in the file, the
leaves read from elsewhere.
-/
namespace Verif

/-- `struct ReplicaConfig` (src/store/mod.rs:96-118). -/
structure ReplicaConfig where
  path : String
  offsets : List Nat
  deriving DecidableEq, Repr

/-- `struct ExternalReader<R>` (src/store/mod.rs:42-47).  `readFn` is the function pointer together
with the source it reads: it gets the absolute byte range and the buffer and returns the new
buffer.  (The number of bytes it also returns is ignored by the library.) -/
structure ExternalReader where
  offset : Nat
  readFn : FS → (start stop : Nat) → Bytes → Res Bytes
  /-- a `&mut [u8]` cannot change length -/
  length_eq : ∀ fs a b buf r, readFn fs a b buf = .ok r → r.length = buf.length

namespace ExternalReader

/-- `ExternalReader::read` (src/store/mod.rs:49-51). -/
def read (r : ExternalReader) (fs : FS) (start stop : Nat) (buf : Bytes) : Res Bytes :=
  r.readFn fs (start + r.offset) (stop + r.offset) buf

/-- The `read_fn` of `new_from_config` (src/store/mod.rs:61-65): fill `buf[0..end - start]` from the
file; slicing panics if the buffer is too short. -/
def fileReadFn (f : FileId) (fs : FS) (start stop : Nat) (buf : Bytes) : Res Bytes := do
  let n ← subP stop start
  if n ≤ buf.length then do
    let bs ← fs.readExactAt f start n
    .ok (bs ++ buf.drop n)
  else .error (.panic "range end index out of range for slice")

theorem fileReadFn_length (f : FileId) (fs : FS) (a b : Nat) (buf r : Bytes)
    (h : fileReadFn f fs a b buf = .ok r) : r.length = buf.length := by
  unfold fileReadFn FS.readExactAt at h
  simp only [bind_ok_iff] at h
  obtain ⟨n, _, h⟩ := h
  split at h
  · simp only [bind_ok_iff, Except.ok.injEq] at h
    obtain ⟨bs, ⟨c, _, h2⟩, rfl⟩ := h
    split at h2
    · cases h2; simp [*]
    · split at h2
      · cases h2; simp [region]; omega
      · cases h2
  · cases h

/-- A reader of a file at an offset. -/
def ofFile (f : FileId) (offset : Nat) : ExternalReader where
  offset := offset
  readFn := fileReadFn f
  length_eq := fileReadFn_length f

/-- `ExternalReader::new_from_config` (src/store/mod.rs:55-67).  Indexing `offsets` panics when out
of bounds. -/
def newFromConfig (rc : ReplicaConfig) (index : Nat) : M ExternalReader := do
  FS.openFile (.named rc.path)
  let off ← M.ofRes (idxP rc.offsets index)
  pure (ofFile (.named rc.path) off)

/-- `ExternalReader::new_from_path` (src/store/mod.rs:69-71); `ReplicaConfig::from` a path gives the
single offset 0 (src/store/mod.rs:111-118). -/
def newFromPath (path : String) : M ExternalReader := newFromConfig ⟨path, [0]⟩ 0

end ExternalReader

/-- `struct LevelCacheStore<E, R>` (src/store/level_cache.rs:34-59).  `cacheIndexStart` is in bytes,
`dataWidth` in elements. -/
structure LevelCacheStore (E : Type) where
  len : Nat
  file : FileId
  dataWidth : Nat
  cacheIndexStart : Nat
  loadedFromDisk : Bool
  storeSize : Nat
  reader : Option ExternalReader

namespace LevelCacheStore
variable {E : Type} [Element E]

/-- The size checks shared by the constructors (src/store/level_cache.rs:106-121, 172-184,
285-299): number of leaves, cache size in bytes, start of the cache in bytes. -/
def plan (E : Type) [Element E] [FloatRows] (storeRange branches : Nat) (config : StoreConfig) :
    Res (Nat × Nat × Nat) := do
  let size ← merkleTreeLeafs storeRange branches
  ensure (size = nextPow2 size) "Inconsistent merkle tree row_count detected"
  let c ← merkleTreeCacheSize size branches config.rowsToDiscard
  let cacheSize := c * Element.byteLen E
  let cacheIndexStart ← subP (storeRange * Element.byteLen E) cacheSize
  .ok (size, cacheSize, cacheIndexStart)

/-- `new_from_disk_with_reader` (src/store/level_cache.rs:76-145). -/
def newFromDiskWithReader [FloatRows] (storeRange branches : Nat) (config : StoreConfig)
    (reader : ExternalReader) : M (LevelCacheStore E) := do
  let ex ← FS.pathExists config.file
  mEnsure (ex = true) "new_from_disk_with_reader can be used only for existing storages"
  let storeSize ← M.get fun fs => fs.fileLen config.file
  let (size, cacheSize, cacheIndexStart) ← M.ofRes (plan E storeRange branches config)
  mEnsure (storeSize = cacheSize) "Inconsistent store size detected with external reader"
  pure ⟨storeRange * Element.byteLen E / Element.byteLen E, config.file, size, cacheIndexStart,
    false, storeSize, some reader⟩

/-- `set_external_reader` (src/store/level_cache.rs:147-151). -/
def setExternalReader (s : LevelCacheStore E) (reader : ExternalReader) : LevelCacheStore E :=
  { s with reader := some reader }

/-- `new_from_disk` (src/store/level_cache.rs:260-326). -/
def newFromDisk [FloatRows] (storeRange branches : Nat) (config : StoreConfig) :
    M (LevelCacheStore E) := do
  let ex ← FS.pathExists config.file
  mEnsure (ex = true) "new_from_disk constructor can be used only for existing storages"
  let storeSize ← M.get fun fs => fs.fileLen config.file
  let (size, _, cacheIndexStart) ← M.ofRes (plan E storeRange branches config)
  pure ⟨storeRange * Element.byteLen E / Element.byteLen E, config.file, size, cacheIndexStart,
    true, storeSize, none⟩

/-- `new_with_config` (src/store/level_cache.rs:155-199).  The file is created before the sizes are
checked. -/
def newWithConfig [FloatRows] (size branches : Nat) (config : StoreConfig) :
    M (LevelCacheStore E) := do
  let ex ← FS.pathExists config.file
  if ex then newFromDisk size branches config
  else do
    FS.createNew config.file
    let storeSize := Element.byteLen E * size
    let (leafs, _, cacheIndexStart) ← M.ofRes (plan E size branches config)
    FS.setLen config.file storeSize
    pure ⟨0, config.file, leafs, cacheIndexStart, false, storeSize, none⟩

/-- `new` (src/store/level_cache.rs:201-217). -/
def new (size : Nat) : M (LevelCacheStore E) := do
  let storeSize := Element.byteLen E * size
  let f ← FS.createTemp
  FS.setLen f storeSize
  pure ⟨0, f, size, 0, false, storeSize, none⟩

/-- `store_copy_from_slice` (src/store/level_cache.rs:859-868). -/
def storeCopyFromSlice (s : LevelCacheStore E) (start : Nat) (slice : Bytes) : M Unit := do
  mEnsure (start + slice.length ≤ s.storeSize) "Requested slice too large"
  FS.writeAllAt s.file start slice

/-- `new_from_slice` (src/store/level_cache.rs:245-257). -/
def newFromSlice (size : Nat) (data : Bytes) : M (LevelCacheStore E) := do
  let r ← M.ofRes (modP data.length (Element.byteLen E))
  mEnsure (r = 0) "data size must be a multiple of byte_len"
  let s : LevelCacheStore E ← new size
  storeCopyFromSlice s 0 data
  pure { s with len := data.length / Element.byteLen E }

/-- `new_from_slice_with_config` (src/store/level_cache.rs:219-243). -/
def newFromSliceWithConfig [FloatRows] (size branches : Nat) (data : Bytes) (config : StoreConfig) :
    M (LevelCacheStore E) := do
  let r ← M.ofRes (modP data.length (Element.byteLen E))
  mEnsure (r = 0) "data size must be a multiple of byte_len"
  let s : LevelCacheStore E ← newWithConfig size branches config
  if s.loadedFromDisk then pure s
  else do
    storeCopyFromSlice s 0 data
    pure { s with len := data.length / Element.byteLen E }

/-- `write_at` (src/store/level_cache.rs:328-333). -/
def writeAt (s : LevelCacheStore E) (el : E) (index : Nat) : M (LevelCacheStore E) := do
  storeCopyFromSlice s (index * Element.byteLen E) (Element.toBytes el)
  pure { s with len := max s.len (index + 1) }

/-- `copy_from_slice` (src/store/level_cache.rs:335-345). -/
def copyFromSlice (s : LevelCacheStore E) (buf : Bytes) (start : Nat) : M (LevelCacheStore E) := do
  let r ← M.ofRes (modP buf.length (Element.byteLen E))
  mEnsure (r = 0) "buf size must be a multiple of elem_len"
  storeCopyFromSlice s (start * Element.byteLen E) buf
  pure { s with len := max s.len (start + buf.length / Element.byteLen E) }

/-- `start <= self.data_width * self.elem_len || start >= self.cache_index_start`. -/
def InBounds (s : LevelCacheStore E) (start : Nat) : Prop :=
  start ≤ s.dataWidth * Element.byteLen E ∨ start ≥ s.cacheIndexStart

instance (s : LevelCacheStore E) (start : Nat) : Decidable (s.InBounds start) := by
  unfold InBounds; infer_instance

/-- Range checks of the read methods (src/store/level_cache.rs:351-357). -/
def checkRange (s : LevelCacheStore E) (start stop : Nat) : Res Unit := do
  let len := s.len * Element.byteLen E
  ensure (start < len) "start out of range"
  ensure (stop ≤ len) "end out of range"
  ensure (s.InBounds start) "out of bounds"

/-- Where the file holds the byte the store calls `start`, when the reader is not used
(src/store/level_cache.rs:735-742 and 834-843). -/
def adjustedStart (s : LevelCacheStore E) (start : Nat) : Nat :=
  if start ≥ s.cacheIndexStart then
    if s.reader.isNone then start - s.cacheIndexStart + s.dataWidth * Element.byteLen E
    else start - s.cacheIndexStart
  else start

/-- `store_read_range` (src/store/level_cache.rs:706-754). -/
def storeReadRange (fs : FS) (s : LevelCacheStore E) (start stop : Nat) : Res Bytes := do
  let n ← subP stop start
  ensure (s.InBounds start) "out of bounds"
  match s.reader with
  | some r =>
    if start < s.dataWidth * Element.byteLen E then r.read fs start stop (List.replicate n 0)
    else fs.readExactAt s.file (s.adjustedStart start) n
  | none => fs.readExactAt s.file (s.adjustedStart start) n

/-- `store_read_into` (src/store/level_cache.rs:812-857). -/
def storeReadInto (fs : FS) (s : LevelCacheStore E) (start stop : Nat) (buf : Bytes) : Res Bytes := do
  ensure (s.InBounds start) "Invalid read start"
  match s.reader with
  | some r =>
    if start < s.dataWidth * Element.byteLen E then readContext start stop (r.read fs start stop buf)
    else readContext start stop (fs.readExactAt s.file (s.adjustedStart start) buf.length)
  | none => readContext start stop (fs.readExactAt s.file (s.adjustedStart start) buf.length)

/-- `store_read_range_internal` (src/store/level_cache.rs:757-776). -/
def storeReadRangeInternal (fs : FS) (s : LevelCacheStore E) (start stop : Nat) : Res Bytes := do
  let n ← subP stop start
  ensure (s.InBounds start) "out of bounds"
  fs.readExactAt s.file start n

/-- `read_at` (src/store/level_cache.rs:347-360). -/
def readAt (fs : FS) (s : LevelCacheStore E) (index : Nat) : Res E := do
  let start := index * Element.byteLen E
  let stop := start + Element.byteLen E
  checkRange s start stop
  let bs ← storeReadRange fs s start stop
  Element.fromSlice bs

/-- `read_into` (src/store/level_cache.rs:362-375). -/
def readInto (fs : FS) (s : LevelCacheStore E) (index : Nat) (buf : Bytes) : Res Bytes := do
  let start := index * Element.byteLen E
  let stop := start + Element.byteLen E
  checkRange s start stop
  storeReadInto fs s start stop buf

/-- `read_range_into` (src/store/level_cache.rs:377-390). -/
def readRangeInto (fs : FS) (s : LevelCacheStore E) (start stop : Nat) (buf : Bytes) : Res Bytes := do
  let start := start * Element.byteLen E
  let stop := stop * Element.byteLen E
  checkRange s start stop
  storeReadInto fs s start stop buf

/-- `read_range` (src/store/level_cache.rs:392-409). -/
def readRange (fs : FS) (s : LevelCacheStore E) (start stop : Nat) : Res (List E) := do
  let start := start * Element.byteLen E
  let stop := stop * Element.byteLen E
  checkRange s start stop
  let bs ← storeReadRange fs s start stop
  decodeAll bs

/-- `read_range_internal` (src/store/level_cache.rs:778-795). -/
def readRangeInternal (fs : FS) (s : LevelCacheStore E) (start stop : Nat) : Res (List E) := do
  let start := start * Element.byteLen E
  let stop := stop * Element.byteLen E
  checkRange s start stop
  let bs ← storeReadRangeInternal fs s start stop
  decodeAll bs

/-- `read_at_internal` (src/store/level_cache.rs:797-810). -/
def readAtInternal (fs : FS) (s : LevelCacheStore E) (index : Nat) : Res E := do
  let start := index * Element.byteLen E
  let stop := start + Element.byteLen E
  checkRange s start stop
  let bs ← storeReadRangeInternal fs s start stop
  Element.fromSlice bs

/-- `push` (src/store/level_cache.rs:437-448). -/
def push (s : LevelCacheStore E) (el : E) : M (LevelCacheStore E) := do
  mEnsure ((s.len + 1) * Element.byteLen E ≤ s.storeSize) "not enough space"
  writeAt s el s.len

/-- Basic operations of `LevelCacheStore`. -/
instance : StoreOps (LevelCacheStore E) E where
  len s := s.len
  isEmpty s := s.len == 0
  loadedFromDisk s := s.loadedFromDisk
  readAt := readAt
  readRange := readRange
  readInto := readInto
  readRangeInto := readRangeInto
  writeAt := writeAt
  copyFromSlice := copyFromSlice
  push := push

/-- Reading half of a `process_layer` task (src/store/level_cache.rs:482-507). -/
def layerRead (A : Alg E) (branches width level readStart : Nat) (t : Nat) (s : LevelCacheStore E)
    (fs : FS) : Res Bytes := do
  let chunkIndex := readStart + t * buildChunkNodes
  let chunkSize := min buildChunkNodes (readStart + width - chunkIndex)
  let nodes ← readRangeInternal fs s chunkIndex (chunkIndex + chunkSize)
  hashChunk A branches level chunkSize nodes

/-- `process_layer` (src/store/level_cache.rs:455-513). -/
def processLayer (A : Alg E) (branches : Nat) (σ : Sched) (s : LevelCacheStore E)
    (width level readStart writeStart : Nat) : M (LevelCacheStore E) := do
  FS.openFile s.file
  mEnsure (buildChunkNodes % branches = 0) "Invalid chunk size"
  runSteps (layerRead A branches width level readStart)
    (fun t bs s => do
      mmapTaskWrite E branches width writeStart s.file t bs
      pure s)
    (σ level (mmapTasks E branches width)) (fun _ => none) s

/-- `front_truncate` (src/store/level_cache.rs:604-632).  The size is taken from the open handle, the
data from the configured path. -/
def frontTruncate (s : LevelCacheStore E) (config : StoreConfig) (len : Nat) :
    M (LevelCacheStore E) := do
  let storeSize ← M.get fun fs => fs.fileLen s.file
  let len := len * Element.byteLen E
  mEnsure (storeSize ≥ len) "Invalid truncation length"
  FS.openFile config.file
  let written ← DiskStore.copyWithin config.file len 0
  mEnsure (written = storeSize - len) "Failed to copy all data"
  FS.setLen config.file written
  pure { s with file := config.file }

/-- The `while width > 1` loop of `build` (src/store/level_cache.rs:545-576). -/
def buildLoop (A : Alg E) (branches : Nat) (σ : Sched) (config : StoreConfig)
    (cacheIndexStart : Nat) :
    Nat → (width level levelNodeIndex : Nat) → LevelCacheStore E → M (LevelCacheStore E × Nat)
  | 0, _, _, _, _ => M.throw .diverge
  | f + 1, width, level, levelNodeIndex, s =>
    if width > 1 then
      let rw :=
        if level = 0 then (0, s.len)
        else if levelNodeIndex < cacheIndexStart then (0, width)
        else (levelNodeIndex - cacheIndexStart, levelNodeIndex + width - cacheIndexStart)
      do
        let s ← processLayer A branches σ s width level rw.1 rw.2
        let s ← (if levelNodeIndex < cacheIndexStart then frontTruncate s config width else pure s)
        buildLoop A branches σ config cacheIndexStart f (width >>> log2Pow2 branches) (level + 1)
          (levelNodeIndex + width) { s with len := levelNodeIndex + width }
    else pure (s, level)

/-- `build` (src/store/level_cache.rs:516-595). -/
def build [FloatRows] (A : Alg E) (branches : Nat) (σ : Sched) (s : LevelCacheStore E)
    (leafs rowCount : Nat) (config : Option StoreConfig) : M (E × LevelCacheStore E) := do
  mEnsure (nextPow2 branches = branches) "branches MUST be a power of 2"
  mEnsure (s.len = leafs) "Inconsistent data"
  mEnsure (leafs % 2 = 0) "Leafs must be a power of two"
  match config with
  | none => M.throw (.err "LevelCacheStore build requires a valid config")
  | some config => do
    let cacheSize ← M.ofRes (merkleTreeCacheSize leafs branches config.rowsToDiscard)
    let n ← M.ofRes (merkleTreeLen leafs branches)
    let cacheIndexStart ← M.ofRes (subP n cacheSize)
    let (s, level) ← buildLoop A branches σ config cacheIndexStart (leafs + 1) leafs 0 0 s
    let s := { s with len := s.len + 1 }
    let n ← M.ofRes (merkleTreeLen leafs branches)
    mEnsure (s.len = n) "Invalid merkle tree length"
    mEnsure (rowCount = level + 1) "Invalid tree row_count"
    let i ← M.ofRes (subP s.len cacheIndexStart)
    let i ← M.ofRes (subP i 1)
    let root ← M.get fun fs => readAtInternal fs s i
    pure (root, s)

/-- `impl Store for LevelCacheStore` (src/store/level_cache.rs:154-596). -/
instance [FloatRows] : Store (LevelCacheStore E) E where
  new := new
  newWithConfig := newWithConfig
  newFromSlice := newFromSlice
  newFromSliceWithConfig := newFromSliceWithConfig
  newFromDisk := newFromDisk
  build := build
  compact s _ _ _ fs := (.error (.err "Cannot compact this type of Store"), s, fs)
  delete c := FS.remove c.file

/-- `is_consistent_v1` (src/store/level_cache.rs:639-668). -/
def isConsistentV1 (E : Type) [Element E] [FloatRows] (fs : FS) (storeRange branches : Nat)
    (config : StoreConfig) : Res Bool := do
  let storeSize ← fs.fileLen config.file
  let size ← merkleTreeLeafs storeRange branches
  ensure (size = nextPow2 size) "Inconsistent merkle tree row_count detected"
  let c ← merkleTreeCacheSize size branches config.rowsToDiscard
  .ok (decide (storeSize = size * Element.byteLen E + c * Element.byteLen E))

/-- `is_consistent` (src/store/level_cache.rs:672-704). -/
def isConsistent (E : Type) [Element E] [FloatRows] (fs : FS) (storeRange branches : Nat)
    (config : StoreConfig) : Res Bool := do
  let storeSize ← fs.fileLen config.file
  let size ← merkleTreeLeafs storeRange branches
  ensure (size = nextPow2 size) "Inconsistent merkle tree row_count detected"
  let c ← merkleTreeCacheSize size branches config.rowsToDiscard
  .ok (decide (storeSize = c * Element.byteLen E))

end LevelCacheStore
end Verif
