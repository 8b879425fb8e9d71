import Verif.Model.Store
/-
`DiskStore` (src/store/disk.rs): the tree in a file.
-/
namespace Verif

/-- `struct DiskStore<E>` (src/store/disk.rs:29-45); `elem_len` is always `E::byte_len()`. -/
structure DiskStore (E : Type) where
  len : Nat
  file : FileId
  loadedFromDisk : Bool
  storeSize : Nat
  deriving DecidableEq, Repr

/-- `write_chunk_width` of the two memory-mapped `process_layer`s (src/store/disk.rs:338,
src/store/level_cache.rs:475). -/
def writeChunkWidth (E : Type) [Element E] (branches : Nat) : Nat :=
  (buildChunkNodes >>> log2Pow2 branches) * Element.byteLen E

/-- Number of tasks of the memory-mapped `process_layer`s: the read chunks zipped with the write
chunks of a map of `width * byte_len` bytes (src/store/disk.rs:341-343). -/
def mmapTasks (E : Type) [Element E] (branches width : Nat) : Nat :=
  let w := writeChunkWidth E branches
  min (numChunks width) ((width * Element.byteLen E + w - 1) / w)

/-- `write_mmap[0..len].copy_from_slice(..)` for task `t` (src/store/disk.rs:372): the piece of the
map that belongs to the task must be long enough. -/
def mmapTaskWrite (E : Type) [Element E] (branches width writeStart : Nat) (file : FileId) (t : Nat)
    (bs : Bytes) : M Unit :=
  let w := writeChunkWidth E branches
  if bs.length ≤ min w (width * Element.byteLen E - t * w) then
    FS.mmapWrite file (writeStart * Element.byteLen E + t * w) bs
  else M.throw (.panic "range end index out of range for slice")

namespace DiskStore
variable {E : Type} [Element E]

/-- `store_read_range` (src/store/disk.rs:508-524). -/
def storeReadRange (fs : FS) (s : DiskStore E) (start stop : Nat) : Res Bytes := do
  let n ← subP stop start
  fs.readExactAt s.file start n

/-- `store_read_into` (src/store/disk.rs:526-538): reads as many bytes as the buffer holds.
(`end` only appears in the error message.) -/
def storeReadInto (fs : FS) (s : DiskStore E) (start stop : Nat) (buf : Bytes) : Res Bytes :=
  readContext start stop (fs.readExactAt s.file start buf.length)

/-- `store_copy_from_slice` (src/store/disk.rs:540-549). -/
def storeCopyFromSlice (s : DiskStore E) (start : Nat) (slice : Bytes) : M Unit := do
  mEnsure (start + slice.length ≤ s.storeSize) "Requested slice too large"
  FS.writeAllAt s.file start slice

/-- The range checks shared by the read methods (src/store/disk.rs:157-159). -/
def checkRange (s : DiskStore E) (start stop : Nat) : Res Unit := do
  let len := s.len * Element.byteLen E
  ensure (start < len) "start out of range"
  ensure (stop ≤ len) "end out of range"

/-- `read_at` (src/store/disk.rs:153-162). -/
def readAt (fs : FS) (s : DiskStore E) (index : Nat) : Res E := do
  let start := index * Element.byteLen E
  let stop := start + Element.byteLen E
  checkRange s start stop
  let bs ← storeReadRange fs s start stop
  Element.fromSlice bs

/-- `read_into` (src/store/disk.rs:164-173). -/
def readInto (fs : FS) (s : DiskStore E) (index : Nat) (buf : Bytes) : Res Bytes := do
  let start := index * Element.byteLen E
  let stop := start + Element.byteLen E
  checkRange s start stop
  storeReadInto fs s start stop buf

/-- `read_range_into` (src/store/disk.rs:175-184). -/
def readRangeInto (fs : FS) (s : DiskStore E) (start stop : Nat) (buf : Bytes) : Res Bytes := do
  let start := start * Element.byteLen E
  let stop := stop * Element.byteLen E
  checkRange s start stop
  storeReadInto fs s start stop buf

/-- `read_range` (src/store/disk.rs:186-199). -/
def readRange (fs : FS) (s : DiskStore E) (start stop : Nat) : Res (List E) := do
  let start := start * Element.byteLen E
  let stop := stop * Element.byteLen E
  checkRange s start stop
  let bs ← storeReadRange fs s start stop
  decodeAll bs

/-- `write_at` (src/store/disk.rs:135-139). -/
def writeAt (s : DiskStore E) (el : E) (index : Nat) : M (DiskStore E) := do
  storeCopyFromSlice s (index * Element.byteLen E) (Element.toBytes el)
  pure { s with len := max s.len (index + 1) }

/-- `copy_from_slice` (src/store/disk.rs:141-151). -/
def copyFromSlice (s : DiskStore E) (buf : Bytes) (start : Nat) : M (DiskStore E) := do
  let r ← M.ofRes (modP buf.length (Element.byteLen E))
  mEnsure (r = 0) "buf size must be a multiple of elem_len"
  storeCopyFromSlice s (start * Element.byteLen E) buf
  pure { s with len := max s.len (start + buf.length / Element.byteLen E) }

/-- `push` (src/store/disk.rs:300-311). -/
def push (s : DiskStore E) (el : E) : M (DiskStore E) := do
  mEnsure ((s.len + 1) * Element.byteLen E ≤ s.storeSize) "not enough space"
  writeAt s el s.len

/-- Basic operations of `DiskStore`. -/
instance : StoreOps (DiskStore E) E where
  len s := s.len
  isEmpty s := s.len == 0
  loadedFromDisk s := s.loadedFromDisk
  readAt := readAt
  readRange := readRange
  readInto := readInto
  readRangeInto := readRangeInto
  writeAt := writeAt
  copyFromSlice := copyFromSlice
  push := push

/-- `new` (src/store/disk.rs:75-88). -/
def new (size : Nat) : M (DiskStore E) := do
  let storeSize := Element.byteLen E * size
  let f ← FS.createTemp
  FS.setLen f storeSize
  pure ⟨0, f, false, storeSize⟩

/-- `new_from_disk_with_path` (src/store/disk.rs:443-480).  Opening falls back to read-only when
permission is denied; permissions are not modelled. -/
def newFromDiskWithPath (size : Nat) (f : FileId) : M (DiskStore E) := do
  let ex ← FS.pathExists f
  mEnsure (ex = true) "[DiskStore] new_from_disk constructor can be used only for existing storages"
  FS.openFile f
  let storeSize ← M.get fun fs => fs.fileLen f
  mEnsure (storeSize = size * Element.byteLen E) "Invalid formatted file provided"
  pure ⟨size, f, true, storeSize⟩

/-- `new_from_disk` (src/store/disk.rs:130-133). -/
def newFromDisk (size _branches : Nat) (config : StoreConfig) : M (DiskStore E) :=
  newFromDiskWithPath size config.file

/-- `new_with_config` (src/store/disk.rs:47-73). -/
def newWithConfig (size branches : Nat) (config : StoreConfig) : M (DiskStore E) := do
  let ex ← FS.pathExists config.file
  if ex then newFromDisk size branches config
  else do
    FS.createNew config.file
    let storeSize := Element.byteLen E * size
    FS.setLen config.file storeSize
    pure ⟨0, config.file, false, storeSize⟩

/-- `new_from_slice` (src/store/disk.rs:116-128). -/
def newFromSlice (size : Nat) (data : Bytes) : M (DiskStore E) := do
  let r ← M.ofRes (modP data.length (Element.byteLen E))
  mEnsure (r = 0) "data size must be a multiple of byte_len"
  let s : DiskStore E ← new size
  storeCopyFromSlice s 0 data
  pure { s with len := data.length / Element.byteLen E }

/-- `new_from_slice_with_config` (src/store/disk.rs:90-114). -/
def newFromSliceWithConfig (size branches : Nat) (data : Bytes) (config : StoreConfig) :
    M (DiskStore E) := do
  let r ← M.ofRes (modP data.length (Element.byteLen E))
  mEnsure (r = 0) "data size must be a multiple of byte_len"
  let s : DiskStore E ← newWithConfig size branches config
  if s.loadedFromDisk then pure s
  else do
    storeCopyFromSlice s 0 data
    pure { s with len := data.length / Element.byteLen E }

/-- Reading half of a `process_layer` task (src/store/disk.rs:345-370). -/
def layerRead (A : Alg E) (branches width level readStart : Nat) (t : Nat) (s : DiskStore E)
    (fs : FS) : Res Bytes := do
  let chunkIndex := readStart + t * buildChunkNodes
  let chunkSize := min buildChunkNodes (readStart + width - chunkIndex)
  let nodes ← readRange fs s chunkIndex (chunkIndex + chunkSize)
  hashChunk A branches level chunkSize nodes

/-- `process_layer` (src/store/disk.rs:318-376).  Hashes go into the file through a memory map, so
the store itself does not change. -/
def processLayer (A : Alg E) (branches : Nat) (σ : Sched) (s : DiskStore E)
    (width level readStart writeStart : Nat) : M (DiskStore E) := do
  FS.openFile s.file
  mEnsure (buildChunkNodes % branches = 0) "Invalid chunk size"
  runSteps (layerRead A branches width level readStart)
    (fun t bs s => do
      mmapTaskWrite E branches width writeStart s.file t bs
      pure s)
    (σ level (mmapTasks E branches width)) (fun _ => none) s

/-- The `while width > 1` loop of `build` (src/store/disk.rs:403-425). -/
def buildLoop (A : Alg E) (branches : Nat) (σ : Sched) :
    Nat → (width level levelNodeIndex : Nat) → DiskStore E → M (DiskStore E × Nat)
  | 0, _, _, _, _ => M.throw .diverge
  | f + 1, width, level, levelNodeIndex, s =>
    if width > 1 then
      let rw := if level = 0 then (0, s.len) else (levelNodeIndex, levelNodeIndex + width)
      do
        let s ← processLayer A branches σ s width level rw.1 rw.2
        let width' := width >>> log2Pow2 branches
        buildLoop A branches σ f width' (level + 1) (levelNodeIndex + width)
          { s with len := s.len + width' }
    else pure (s, level)

/-- `build` (src/store/disk.rs:379-439). -/
def build (A : Alg E) (branches : Nat) (σ : Sched) (s : DiskStore E) (leafs rowCount : Nat)
    (_config : Option StoreConfig) : M (E × DiskStore E) := do
  mEnsure (nextPow2 branches = branches) "branches MUST be a power of 2"
  mEnsure (s.len = leafs) "Inconsistent data"
  mEnsure (leafs % 2 = 0) "Leafs must be a power of two"
  let (s, level) ← buildLoop A branches σ (leafs + 1) leafs 0 0 s
  let n ← M.ofRes (merkleTreeLen leafs branches)
  mEnsure (s.len = n) "Invalid merkle tree length"
  mEnsure (rowCount = level + 1) "Invalid tree row_count"
  let root ← M.get fun fs => StoreOps.last fs s
  pure (root, s)

/-- The checks and computations at the start of `compact` (src/store/disk.rs:218-243).  Returns
`data_width` (bytes), `cache_size` (bytes) and `cache_start`. -/
def compactPlan [FloatRows] (s : DiskStore E) (branches : Nat) (config : StoreConfig) :
    Res (Nat × Nat × Nat) := do
  let leafs ← merkleTreeLeafs s.len branches
  let dataWidth := leafs * Element.byteLen E
  let c ← merkleTreeCacheSize leafs branches config.rowsToDiscard
  let cacheSize := c * Element.byteLen E
  ensure (cacheSize < s.len * Element.byteLen E ∧ cacheSize ≠ 0)
    "Cannot compact with this configuration"
  let cacheStart ← subP s.storeSize cacheSize
  .ok (dataWidth, cacheSize, cacheStart)

/-- `io::copy` from position `src` of a file to position `dst` of the same file, up to the end of the
file (src/store/disk.rs:261, src/store/level_cache.rs:626).  Copying runs forwards.  With `dst ≤ src`
reading stays ahead of writing, so the bytes read are the original ones.  With `src < dst` every write
moves the end of the file on, `dst - src` bytes are always left to read, and the copy does not end. -/
def copyWithin (f : FileId) (src dst : Nat) : M Nat := do
  let bs ← M.get fun fs => fs.contents f
  let data := bs.drop src
  if src < dst ∧ data ≠ [] then M.throw .diverge
  else do
    FS.writeAllAt f dst data
    pure data.length

/-- The file part of `compact` (src/store/disk.rs:245-287), after the plan: returns the new `len`. -/
def compactFile (E : Type) [Element E] (f : FileId) (v1 : Bool)
    (dataWidth cacheSize cacheStart : Nat) : M Nat := do
  FS.openFile f
  let start := if v1 then dataWidth else 0
  let written ← copyWithin f cacheStart start
  mEnsure (written = cacheSize) "Failed to copy all data"
  let newSize := if v1 then dataWidth + cacheSize else cacheSize
  FS.setLen f newSize
  pure (newSize / Element.byteLen E)

/-- `compact` (src/store/disk.rs:212-289).  `store_size` is not updated by the code; the store's file
handle is replaced by one opened from the configuration before the copy. -/
def compact [FloatRows] (s : DiskStore E) (branches : Nat) (config : StoreConfig) (version : Nat)
    (fs : FS) : Res Bool × DiskStore E × FS :=
  match compactPlan s branches config with
  | .error e => (.error e, s, fs)
  | .ok (dataWidth, cacheSize, cacheStart) =>
    match fs.file config.file with
    | none => (.error (.err "No such file or directory"), s, fs)
    | some _ =>
      let s := { s with file := config.file }
      match compactFile E config.file (version == 1) dataWidth cacheSize cacheStart fs with
      | (.error e, fs) => (.error e, s, fs)
      | (.ok n, fs) =>
        let s := { s with len := n }
        match fs.fileLen s.file with
        | .error e => (.error e, s, fs)
        | .ok m =>
          if s.len * Element.byteLen E = m then (.ok true, s, fs)
          else (.error (.err "Inconsistent metadata detected"), s, fs)

/-- `delete` (src/store/disk.rs:291-294). -/
def delete (config : StoreConfig) : M Unit := FS.remove config.file

/-- `impl Store for DiskStore` (src/store/disk.rs:46-440). -/
instance [FloatRows] : Store (DiskStore E) E where
  new := new
  newWithConfig := newWithConfig
  newFromSlice := newFromSlice
  newFromSliceWithConfig := newFromSliceWithConfig
  newFromDisk := newFromDisk
  build := build
  compact := compact
  delete := delete

/-- `is_consistent` (src/store/disk.rs:490-502). -/
def isConsistent (E : Type) [Element E] (fs : FS) (storeRange _branches : Nat)
    (config : StoreConfig) : Res Bool := do
  let storeSize ← fs.fileLen config.file
  .ok (decide (storeSize = storeRange * Element.byteLen E))

end DiskStore
end Verif
