import Verif.Model.Merkle
/-
`DiskStore` and `LevelCacheStore` over a disk on which every operation may fail.

An `IoPlan` decides, from the operation and the state of the files, whether an operation fails, and what an
operation that changes files leaves behind when it does.  Every function here is the one of `Model/DiskStore` or
`Model/LevelCache` with a place to fail for each system call of the code.  Two kinds of failure are left out: a
write through a memory map that the kernel cannot carry out ends the process, and one that is lost when pages are
written back later is not noticed by the code.
-/
namespace Verif

/-- The system calls the file stores make. -/
inductive IoOp where
  /-- the `stat` behind `Path::exists` -/
  | probe (f : FileId)
  | open (f : FileId) (writable : Bool)
  | create (f : FileId)
  | temp
  | setLen (f : FileId) (n : Nat)
  | read (f : FileId) (off n : Nat)
  | write (f : FileId) (off : Nat) (data : Bytes)
  | size (f : FileId)
  | seek (f : FileId) (off : Nat)
  | copy (f : FileId) (src dst : Nat)
  | map (f : FileId) (off n : Nat)
  | sync (f : FileId)
  /-- a read by the function of an `ExternalReader` -/
  | ext (start stop : Nat)
  | remove (f : FileId)
  deriving DecidableEq

/-- Which operations fail, and the files after an operation that failed half way. -/
structure IoPlan where
  fails : IoOp → FS → Bool
  left : IoOp → FS → FS := fun _ fs => fs

namespace Flaky
variable {α : Type} (p : IoPlan)

/-- The `Err` of a failing operation. -/
def ioError : Res α := .error (.err "I/O error")

/-- Fail if the plan says so; for operations that change nothing. -/
def check (op : IoOp) : M Unit := fun fs => if p.fails op fs then (ioError, fs) else (.ok (), fs)

/-- Do `x`, or fail half way. -/
def io (op : IoOp) (x : M α) : M α := fun fs => if p.fails op fs then (ioError, p.left op fs) else x fs

/-- Read, or fail. -/
def rd (op : IoOp) (fs : FS) (x : Res α) : Res α := if p.fails op fs then ioError else x

/-- `Path::exists`, which says no when it cannot tell. -/
def pathExists (f : FileId) : M Bool := M.get fun fs =>
  if p.fails (.probe f) fs then .ok false else .ok (fs.file f).isSome

/-- Opening for reading and writing, and if this fails for reading only (src/store/disk.rs:446-459,
src/store/level_cache.rs:86-97 and 265-276). -/
def checkOpen (f : FileId) : M Unit := fun fs =>
  if p.fails (.open f true) fs && p.fails (.open f false) fs then (ioError, fs) else (.ok (), fs)

/-- `file.metadata()?.len()`. -/
def fileLen (fs : FS) (f : FileId) : Res Nat := rd p (.size f) fs (fs.fileLen f)

/-- `read_exact_at`. -/
def readExactAt (fs : FS) (f : FileId) (off n : Nat) : Res Bytes :=
  rd p (.read f off n) fs (fs.readExactAt f off n)

/-- `write_all_at`. -/
def writeAllAt (f : FileId) (off : Nat) (data : Bytes) : M Unit :=
  io p (.write f off data) (FS.writeAllAt f off data)

/-- `set_len`. -/
def setLen (f : FileId) (n : Nat) : M Unit := io p (.setLen f n) (FS.setLen f n)

/-- `io::copy` of the tail of a file within the file. -/
def copyWithin (f : FileId) (src dst : Nat) : M Nat := io p (.copy f src dst) (DiskStore.copyWithin f src dst)

/-! ### `DiskStore` -/
namespace Disk
variable {E : Type} [Element E]

/-- `store_read_range` (src/store/disk.rs:508-524). -/
def storeReadRange (fs : FS) (s : DiskStore E) (start stop : Nat) : Res Bytes := do
  let n ← subP stop start
  readExactAt p fs s.file start n

/-- `store_read_into` (src/store/disk.rs:526-538). -/
def storeReadInto (fs : FS) (s : DiskStore E) (start stop : Nat) (buf : Bytes) : Res Bytes :=
  readContext start stop (readExactAt p fs s.file start buf.length)

/-- `store_copy_from_slice` (src/store/disk.rs:540-549). -/
def storeCopyFromSlice (s : DiskStore E) (start : Nat) (slice : Bytes) : M Unit := do
  mEnsure (start + slice.length ≤ s.storeSize) "Requested slice too large"
  writeAllAt p s.file start slice

/-- `read_at` (src/store/disk.rs:153-162). -/
def readAt (fs : FS) (s : DiskStore E) (index : Nat) : Res E := do
  let start := index * Element.byteLen E
  let stop := start + Element.byteLen E
  s.checkRange start stop
  let bs ← storeReadRange p fs s start stop
  Element.fromSlice bs

/-- `read_into` (src/store/disk.rs:164-173). -/
def readInto (fs : FS) (s : DiskStore E) (index : Nat) (buf : Bytes) : Res Bytes := do
  let start := index * Element.byteLen E
  let stop := start + Element.byteLen E
  s.checkRange start stop
  storeReadInto p fs s start stop buf

/-- `read_range_into` (src/store/disk.rs:175-184). -/
def readRangeInto (fs : FS) (s : DiskStore E) (start stop : Nat) (buf : Bytes) : Res Bytes := do
  let start := start * Element.byteLen E
  let stop := stop * Element.byteLen E
  s.checkRange start stop
  storeReadInto p fs s start stop buf

/-- `read_range` (src/store/disk.rs:186-199). -/
def readRange (fs : FS) (s : DiskStore E) (start stop : Nat) : Res (List E) := do
  let start := start * Element.byteLen E
  let stop := stop * Element.byteLen E
  s.checkRange start stop
  let bs ← storeReadRange p fs s start stop
  decodeAll bs

/-- `write_at` (src/store/disk.rs:135-139). -/
def writeAt (s : DiskStore E) (el : E) (index : Nat) : M (DiskStore E) := do
  storeCopyFromSlice p s (index * Element.byteLen E) (Element.toBytes el)
  pure { s with len := max s.len (index + 1) }

/-- `copy_from_slice` (src/store/disk.rs:141-151). -/
def copyFromSlice (s : DiskStore E) (buf : Bytes) (start : Nat) : M (DiskStore E) := do
  let r ← M.ofRes (modP buf.length (Element.byteLen E))
  mEnsure (r = 0) "buf size must be a multiple of elem_len"
  storeCopyFromSlice p s (start * Element.byteLen E) buf
  pure { s with len := max s.len (start + buf.length / Element.byteLen E) }

/-- `push` (src/store/disk.rs:300-311). -/
def push (s : DiskStore E) (el : E) : M (DiskStore E) := do
  mEnsure ((s.len + 1) * Element.byteLen E ≤ s.storeSize) "not enough space"
  writeAt p s el s.len

/-- `Store::last` (src/store/mod.rs:250-252). -/
def last (fs : FS) (s : DiskStore E) : Res E := do
  let i ← subP s.len 1
  readAt p fs s i

/-- `new` (src/store/disk.rs:75-88). -/
def new (size : Nat) : M (DiskStore E) := do
  let storeSize := Element.byteLen E * size
  let f ← io p .temp FS.createTemp
  setLen p f storeSize
  pure ⟨0, f, false, storeSize⟩

/-- `new_from_disk_with_path` (src/store/disk.rs:443-480). -/
def newFromDiskWithPath (size : Nat) (f : FileId) : M (DiskStore E) := do
  let ex ← pathExists p f
  mEnsure (ex = true) "[DiskStore] new_from_disk constructor can be used only for existing storages"
  checkOpen p f
  FS.openFile f
  let storeSize ← M.get fun fs => fileLen p fs f
  mEnsure (storeSize = size * Element.byteLen E) "Invalid formatted file provided"
  pure ⟨size, f, true, storeSize⟩

/-- `new_from_disk` (src/store/disk.rs:130-133). -/
def newFromDisk (size _branches : Nat) (config : StoreConfig) : M (DiskStore E) :=
  newFromDiskWithPath p size config.file

/-- `new_with_config` (src/store/disk.rs:47-73). -/
def newWithConfig (size branches : Nat) (config : StoreConfig) : M (DiskStore E) := do
  let ex ← pathExists p config.file
  if ex then newFromDisk p size branches config
  else do
    io p (.create config.file) (FS.createNew config.file)
    let storeSize := Element.byteLen E * size
    setLen p config.file storeSize
    pure ⟨0, config.file, false, storeSize⟩

/-- `new_from_slice` (src/store/disk.rs:116-128). -/
def newFromSlice (size : Nat) (data : Bytes) : M (DiskStore E) := do
  let r ← M.ofRes (modP data.length (Element.byteLen E))
  mEnsure (r = 0) "data size must be a multiple of byte_len"
  let s : DiskStore E ← new p size
  storeCopyFromSlice p s 0 data
  pure { s with len := data.length / Element.byteLen E }

/-- `new_from_slice_with_config` (src/store/disk.rs:90-114). -/
def newFromSliceWithConfig (size branches : Nat) (data : Bytes) (config : StoreConfig) :
    M (DiskStore E) := do
  let r ← M.ofRes (modP data.length (Element.byteLen E))
  mEnsure (r = 0) "data size must be a multiple of byte_len"
  let s : DiskStore E ← newWithConfig p size branches config
  if s.loadedFromDisk then pure s
  else do
    storeCopyFromSlice p s 0 data
    pure { s with len := data.length / Element.byteLen E }

/-- Reading half of a `process_layer` task (src/store/disk.rs:345-370). -/
def layerRead (A : Alg E) (branches width level readStart : Nat) (t : Nat) (s : DiskStore E)
    (fs : FS) : Res Bytes := do
  let chunkIndex := readStart + t * buildChunkNodes
  let chunkSize := min buildChunkNodes (readStart + width - chunkIndex)
  let nodes ← readRange p fs s chunkIndex (chunkIndex + chunkSize)
  hashChunk A branches level chunkSize nodes

/-- `process_layer` (src/store/disk.rs:318-376). -/
def processLayer (A : Alg E) (branches : Nat) (σ : Sched) (s : DiskStore E)
    (width level readStart writeStart : Nat) : M (DiskStore E) := do
  check p (.map s.file (writeStart * Element.byteLen E) (width * Element.byteLen E))
  FS.openFile s.file
  mEnsure (buildChunkNodes % branches = 0) "Invalid chunk size"
  runSteps (layerRead p A branches width level readStart)
    (fun t bs s => do
      mmapTaskWrite E branches width writeStart s.file t bs
      pure s)
    (σ level (mmapTasks E branches width)) (fun _ => none) s

/-- The `while width > 1` loop of `build` (src/store/disk.rs:403-425). -/
def buildLoop (A : Alg E) (branches : Nat) (σ : Sched) :
    Nat → (width level levelNodeIndex : Nat) → DiskStore E → M (DiskStore E × Nat)
  | 0, _, _, _, _ => M.throw .diverge
  | f + 1, width, level, levelNodeIndex, s =>
    if width > 1 then
      let rw := if level = 0 then (0, s.len) else (levelNodeIndex, levelNodeIndex + width)
      do
        let s ← processLayer p A branches σ s width level rw.1 rw.2
        let width' := width >>> log2Pow2 branches
        buildLoop A branches σ f width' (level + 1) (levelNodeIndex + width)
          { s with len := s.len + width' }
    else pure (s, level)

/-- `build` (src/store/disk.rs:379-439). -/
def build (A : Alg E) (branches : Nat) (σ : Sched) (s : DiskStore E) (leafs rowCount : Nat)
    (_config : Option StoreConfig) : M (E × DiskStore E) := do
  mEnsure (nextPow2 branches = branches) "branches MUST be a power of 2"
  mEnsure (s.len = leafs) "Inconsistent data"
  mEnsure (leafs % 2 = 0) "Leafs must be a power of two"
  let (s, level) ← buildLoop p A branches σ (leafs + 1) leafs 0 0 s
  let n ← M.ofRes (merkleTreeLen leafs branches)
  mEnsure (s.len = n) "Invalid merkle tree length"
  mEnsure (rowCount = level + 1) "Invalid tree row_count"
  let root ← M.get fun fs => last p fs s
  pure (root, s)

/-- The file part of `compact` (src/store/disk.rs:257-275): the writer is set to its position, the cached rows are
copied and the file is cut. -/
def compactFile (E : Type) [Element E] (f : FileId) (v1 : Bool)
    (dataWidth cacheSize cacheStart : Nat) : M Nat := do
  let start := if v1 then dataWidth else 0
  check p (.seek f start)
  FS.openFile f
  let written ← copyWithin p f cacheStart start
  mEnsure (written = cacheSize) "Failed to copy all data"
  let newSize := if v1 then dataWidth + cacheSize else cacheSize
  setLen p f newSize
  pure (newSize / Element.byteLen E)

/-- `compact` (src/store/disk.rs:212-289).  Until the file has been opened for writing the store keeps its handle; the
new length is recorded before `sync`. -/
def compact [FloatRows] (s : DiskStore E) (branches : Nat) (config : StoreConfig) (version : Nat)
    (fs : FS) : Res Bool × DiskStore E × FS :=
  match s.compactPlan branches config with
  | .error e => (.error e, s, fs)
  | .ok (dataWidth, cacheSize, cacheStart) =>
    match (do
      check p (.open config.file false)
      check p (.seek config.file cacheStart)
      check p (.open config.file true) : M Unit) fs with
    | (.error e, fs) => (.error e, s, fs)
    | (.ok _, fs) =>
      match fs.file config.file with
      | none => (.error (.err "No such file or directory"), s, fs)
      | some _ =>
        let s := { s with file := config.file }
        match compactFile p E config.file (version == 1) dataWidth cacheSize cacheStart fs with
        | (.error e, fs) => (.error e, s, fs)
        | (.ok n, fs) =>
          let s := { s with len := n }
          match (do
            let _ ← rd p (.sync s.file) fs (.ok ())
            fileLen p fs s.file : Res Nat) with
          | .error e => (.error e, s, fs)
          | .ok m =>
            if s.len * Element.byteLen E = m then (.ok true, s, fs)
            else (.error (.err "Inconsistent metadata detected"), s, fs)

/-- `delete` (src/store/disk.rs:291-294). -/
def delete (config : StoreConfig) : M Unit := io p (.remove config.file) (FS.remove config.file)

/-- `is_consistent` (src/store/disk.rs:490-502). -/
def isConsistent (E : Type) [Element E] (fs : FS) (storeRange _branches : Nat)
    (config : StoreConfig) : Res Bool := do
  let _ ← rd p (.open config.file false) fs (.ok ())
  let storeSize ← fileLen p fs config.file
  .ok (decide (storeSize = storeRange * Element.byteLen E))

end Disk

/-! ### `LevelCacheStore` -/
namespace Cache
variable {E : Type} [Element E]

/-- `new_from_disk_with_reader` (src/store/level_cache.rs:76-145). -/
def newFromDiskWithReader [FloatRows] (storeRange branches : Nat) (config : StoreConfig)
    (reader : ExternalReader) : M (LevelCacheStore E) := do
  let ex ← pathExists p config.file
  mEnsure (ex = true) "new_from_disk_with_reader can be used only for existing storages"
  checkOpen p config.file
  let storeSize ← M.get fun fs => fileLen p fs config.file
  let (size, cacheSize, cacheIndexStart) ← M.ofRes (LevelCacheStore.plan E storeRange branches config)
  mEnsure (storeSize = cacheSize) "Inconsistent store size detected with external reader"
  pure ⟨storeRange * Element.byteLen E / Element.byteLen E, config.file, size, cacheIndexStart,
    false, storeSize, some reader⟩

/-- `new_from_disk` (src/store/level_cache.rs:260-326). -/
def newFromDisk [FloatRows] (storeRange branches : Nat) (config : StoreConfig) :
    M (LevelCacheStore E) := do
  let ex ← pathExists p config.file
  mEnsure (ex = true) "new_from_disk constructor can be used only for existing storages"
  checkOpen p config.file
  let storeSize ← M.get fun fs => fileLen p fs config.file
  let (size, _, cacheIndexStart) ← M.ofRes (LevelCacheStore.plan E storeRange branches config)
  pure ⟨storeRange * Element.byteLen E / Element.byteLen E, config.file, size, cacheIndexStart,
    true, storeSize, none⟩

/-- `new_with_config` (src/store/level_cache.rs:155-199). -/
def newWithConfig [FloatRows] (size branches : Nat) (config : StoreConfig) :
    M (LevelCacheStore E) := do
  let ex ← pathExists p config.file
  if ex then newFromDisk p size branches config
  else do
    io p (.create config.file) (FS.createNew config.file)
    let storeSize := Element.byteLen E * size
    let (leafs, _, cacheIndexStart) ← M.ofRes (LevelCacheStore.plan E size branches config)
    setLen p config.file storeSize
    pure ⟨0, config.file, leafs, cacheIndexStart, false, storeSize, none⟩

/-- `new` (src/store/level_cache.rs:201-217). -/
def new (size : Nat) : M (LevelCacheStore E) := do
  let storeSize := Element.byteLen E * size
  let f ← io p .temp FS.createTemp
  setLen p f storeSize
  pure ⟨0, f, size, 0, false, storeSize, none⟩

/-- `store_copy_from_slice` (src/store/level_cache.rs:859-868). -/
def storeCopyFromSlice (s : LevelCacheStore E) (start : Nat) (slice : Bytes) : M Unit := do
  mEnsure (start + slice.length ≤ s.storeSize) "Requested slice too large"
  writeAllAt p s.file start slice

/-- `new_from_slice` (src/store/level_cache.rs:245-257). -/
def newFromSlice (size : Nat) (data : Bytes) : M (LevelCacheStore E) := do
  let r ← M.ofRes (modP data.length (Element.byteLen E))
  mEnsure (r = 0) "data size must be a multiple of byte_len"
  let s : LevelCacheStore E ← new p size
  storeCopyFromSlice p s 0 data
  pure { s with len := data.length / Element.byteLen E }

/-- `new_from_slice_with_config` (src/store/level_cache.rs:219-243). -/
def newFromSliceWithConfig [FloatRows] (size branches : Nat) (data : Bytes) (config : StoreConfig) :
    M (LevelCacheStore E) := do
  let r ← M.ofRes (modP data.length (Element.byteLen E))
  mEnsure (r = 0) "data size must be a multiple of byte_len"
  let s : LevelCacheStore E ← newWithConfig p size branches config
  if s.loadedFromDisk then pure s
  else do
    storeCopyFromSlice p s 0 data
    pure { s with len := data.length / Element.byteLen E }

/-- `write_at` (src/store/level_cache.rs:328-333). -/
def writeAt (s : LevelCacheStore E) (el : E) (index : Nat) : M (LevelCacheStore E) := do
  storeCopyFromSlice p s (index * Element.byteLen E) (Element.toBytes el)
  pure { s with len := max s.len (index + 1) }

/-- `copy_from_slice` (src/store/level_cache.rs:335-345). -/
def copyFromSlice (s : LevelCacheStore E) (buf : Bytes) (start : Nat) : M (LevelCacheStore E) := do
  let r ← M.ofRes (modP buf.length (Element.byteLen E))
  mEnsure (r = 0) "buf size must be a multiple of elem_len"
  storeCopyFromSlice p s (start * Element.byteLen E) buf
  pure { s with len := max s.len (start + buf.length / Element.byteLen E) }

/-- `store_read_range` (src/store/level_cache.rs:706-754). -/
def storeReadRange (fs : FS) (s : LevelCacheStore E) (start stop : Nat) : Res Bytes := do
  let n ← subP stop start
  ensure (s.InBounds start) "out of bounds"
  match s.reader with
  | some r =>
    if start < s.dataWidth * Element.byteLen E then
      rd p (.ext start stop) fs (r.read fs start stop (List.replicate n 0))
    else readExactAt p fs s.file (s.adjustedStart start) n
  | none => readExactAt p fs s.file (s.adjustedStart start) n

/-- `store_read_into` (src/store/level_cache.rs:812-857). -/
def storeReadInto (fs : FS) (s : LevelCacheStore E) (start stop : Nat) (buf : Bytes) : Res Bytes := do
  ensure (s.InBounds start) "Invalid read start"
  match s.reader with
  | some r =>
    if start < s.dataWidth * Element.byteLen E then
      readContext start stop (rd p (.ext start stop) fs (r.read fs start stop buf))
    else readContext start stop (readExactAt p fs s.file (s.adjustedStart start) buf.length)
  | none => readContext start stop (readExactAt p fs s.file (s.adjustedStart start) buf.length)

/-- `store_read_range_internal` (src/store/level_cache.rs:757-776). -/
def storeReadRangeInternal (fs : FS) (s : LevelCacheStore E) (start stop : Nat) : Res Bytes := do
  let n ← subP stop start
  ensure (s.InBounds start) "out of bounds"
  readExactAt p fs s.file start n

/-- `read_at` (src/store/level_cache.rs:347-360). -/
def readAt (fs : FS) (s : LevelCacheStore E) (index : Nat) : Res E := do
  let start := index * Element.byteLen E
  let stop := start + Element.byteLen E
  s.checkRange start stop
  let bs ← storeReadRange p fs s start stop
  Element.fromSlice bs

/-- `read_into` (src/store/level_cache.rs:362-375). -/
def readInto (fs : FS) (s : LevelCacheStore E) (index : Nat) (buf : Bytes) : Res Bytes := do
  let start := index * Element.byteLen E
  let stop := start + Element.byteLen E
  s.checkRange start stop
  storeReadInto p fs s start stop buf

/-- `read_range_into` (src/store/level_cache.rs:377-390). -/
def readRangeInto (fs : FS) (s : LevelCacheStore E) (start stop : Nat) (buf : Bytes) : Res Bytes := do
  let start := start * Element.byteLen E
  let stop := stop * Element.byteLen E
  s.checkRange start stop
  storeReadInto p fs s start stop buf

/-- `read_range` (src/store/level_cache.rs:392-409). -/
def readRange (fs : FS) (s : LevelCacheStore E) (start stop : Nat) : Res (List E) := do
  let start := start * Element.byteLen E
  let stop := stop * Element.byteLen E
  s.checkRange start stop
  let bs ← storeReadRange p fs s start stop
  decodeAll bs

/-- `read_range_internal` (src/store/level_cache.rs:778-795). -/
def readRangeInternal (fs : FS) (s : LevelCacheStore E) (start stop : Nat) : Res (List E) := do
  let start := start * Element.byteLen E
  let stop := stop * Element.byteLen E
  s.checkRange start stop
  let bs ← storeReadRangeInternal p fs s start stop
  decodeAll bs

/-- `read_at_internal` (src/store/level_cache.rs:797-810). -/
def readAtInternal (fs : FS) (s : LevelCacheStore E) (index : Nat) : Res E := do
  let start := index * Element.byteLen E
  let stop := start + Element.byteLen E
  s.checkRange start stop
  let bs ← storeReadRangeInternal p fs s start stop
  Element.fromSlice bs

/-- `push` (src/store/level_cache.rs:437-448). -/
def push (s : LevelCacheStore E) (el : E) : M (LevelCacheStore E) := do
  mEnsure ((s.len + 1) * Element.byteLen E ≤ s.storeSize) "not enough space"
  writeAt p s el s.len

/-- Reading half of a `process_layer` task (src/store/level_cache.rs:482-507). -/
def layerRead (A : Alg E) (branches width level readStart : Nat) (t : Nat) (s : LevelCacheStore E)
    (fs : FS) : Res Bytes := do
  let chunkIndex := readStart + t * buildChunkNodes
  let chunkSize := min buildChunkNodes (readStart + width - chunkIndex)
  let nodes ← readRangeInternal p fs s chunkIndex (chunkIndex + chunkSize)
  hashChunk A branches level chunkSize nodes

/-- `process_layer` (src/store/level_cache.rs:455-513). -/
def processLayer (A : Alg E) (branches : Nat) (σ : Sched) (s : LevelCacheStore E)
    (width level readStart writeStart : Nat) : M (LevelCacheStore E) := do
  check p (.map s.file (writeStart * Element.byteLen E) (width * Element.byteLen E))
  FS.openFile s.file
  mEnsure (buildChunkNodes % branches = 0) "Invalid chunk size"
  runSteps (layerRead p A branches width level readStart)
    (fun t bs s => do
      mmapTaskWrite E branches width writeStart s.file t bs
      pure s)
    (σ level (mmapTasks E branches width)) (fun _ => none) s

/-- `front_truncate` (src/store/level_cache.rs:604-632). -/
def frontTruncate (s : LevelCacheStore E) (config : StoreConfig) (len : Nat) :
    M (LevelCacheStore E) := do
  let storeSize ← M.get fun fs => fileLen p fs s.file
  let len := len * Element.byteLen E
  mEnsure (storeSize ≥ len) "Invalid truncation length"
  check p (.open config.file false)
  check p (.seek config.file len)
  check p (.open config.file true)
  FS.openFile config.file
  check p (.seek config.file 0)
  let written ← copyWithin p config.file len 0
  mEnsure (written = storeSize - len) "Failed to copy all data"
  setLen p config.file written
  pure { s with file := config.file }

/-- The `while width > 1` loop of `build` (src/store/level_cache.rs:545-576). -/
def buildLoop (A : Alg E) (branches : Nat) (σ : Sched) (config : StoreConfig)
    (cacheIndexStart : Nat) :
    Nat → (width level levelNodeIndex : Nat) → LevelCacheStore E → M (LevelCacheStore E × Nat)
  | 0, _, _, _, _ => M.throw .diverge
  | f + 1, width, level, levelNodeIndex, s =>
    if width > 1 then
      let rw :=
        if level = 0 then (0, s.len)
        else if levelNodeIndex < cacheIndexStart then (0, width)
        else (levelNodeIndex - cacheIndexStart, levelNodeIndex + width - cacheIndexStart)
      do
        let s ← processLayer p A branches σ s width level rw.1 rw.2
        let s ← (if levelNodeIndex < cacheIndexStart then frontTruncate p s config width else pure s)
        buildLoop A branches σ config cacheIndexStart f (width >>> log2Pow2 branches) (level + 1)
          (levelNodeIndex + width) { s with len := levelNodeIndex + width }
    else pure (s, level)

/-- `build` (src/store/level_cache.rs:516-595). -/
def build [FloatRows] (A : Alg E) (branches : Nat) (σ : Sched) (s : LevelCacheStore E)
    (leafs rowCount : Nat) (config : Option StoreConfig) : M (E × LevelCacheStore E) := do
  mEnsure (nextPow2 branches = branches) "branches MUST be a power of 2"
  mEnsure (s.len = leafs) "Inconsistent data"
  mEnsure (leafs % 2 = 0) "Leafs must be a power of two"
  match config with
  | none => M.throw (.err "LevelCacheStore build requires a valid config")
  | some config => do
    let cacheSize ← M.ofRes (merkleTreeCacheSize leafs branches config.rowsToDiscard)
    let n ← M.ofRes (merkleTreeLen leafs branches)
    let cacheIndexStart ← M.ofRes (subP n cacheSize)
    let (s, level) ← buildLoop p A branches σ config cacheIndexStart (leafs + 1) leafs 0 0 s
    let s := { s with len := s.len + 1 }
    let n ← M.ofRes (merkleTreeLen leafs branches)
    mEnsure (s.len = n) "Invalid merkle tree length"
    mEnsure (rowCount = level + 1) "Invalid tree row_count"
    let i ← M.ofRes (subP s.len cacheIndexStart)
    let i ← M.ofRes (subP i 1)
    let root ← M.get fun fs => readAtInternal p fs s i
    pure (root, s)

/-- `is_consistent_v1` (src/store/level_cache.rs:639-668). -/
def isConsistentV1 (E : Type) [Element E] [FloatRows] (fs : FS) (storeRange branches : Nat)
    (config : StoreConfig) : Res Bool := do
  let _ ← rd p (.open config.file false) fs (.ok ())
  let storeSize ← fileLen p fs config.file
  let size ← merkleTreeLeafs storeRange branches
  ensure (size = nextPow2 size) "Inconsistent merkle tree row_count detected"
  let c ← merkleTreeCacheSize size branches config.rowsToDiscard
  .ok (decide (storeSize = size * Element.byteLen E + c * Element.byteLen E))

/-- `is_consistent` (src/store/level_cache.rs:672-704). -/
def isConsistent (E : Type) [Element E] [FloatRows] (fs : FS) (storeRange branches : Nat)
    (config : StoreConfig) : Res Bool := do
  let _ ← rd p (.open config.file false) fs (.ok ())
  let storeSize ← fileLen p fs config.file
  let size ← merkleTreeLeafs storeRange branches
  ensure (size = nextPow2 size) "Inconsistent merkle tree row_count detected"
  let c ← merkleTreeCacheSize size branches config.rowsToDiscard
  .ok (decide (storeSize = c * Element.byteLen E))

end Cache

/-! ### The stores -/

/-- The store `S` over a disk that fails according to `p`. -/
structure On (p : IoPlan) (S : Type) where
  inner : S

/-- Wrap the store a function returns. -/
def wrap {p : IoPlan} {S : Type} (x : M S) : M (On p S) := do
  let s ← x
  pure ⟨s⟩

/-- Wrap the store `build` returns. -/
def wrapBuild {p : IoPlan} {S E : Type} (x : M (E × S)) : M (E × On p S) := do
  let r ← x
  pure (r.1, ⟨r.2⟩)

section instances
variable {p} {E : Type} [Element E]

/-- Basic operations of `DiskStore`. -/
instance : StoreOps (On p (DiskStore E)) E where
  len s := s.inner.len
  isEmpty s := s.inner.len == 0
  loadedFromDisk s := s.inner.loadedFromDisk
  readAt fs s := Disk.readAt p fs s.inner
  readRange fs s := Disk.readRange p fs s.inner
  readInto fs s := Disk.readInto p fs s.inner
  readRangeInto fs s := Disk.readRangeInto p fs s.inner
  writeAt s e i := wrap (Disk.writeAt p s.inner e i)
  copyFromSlice s buf i := wrap (Disk.copyFromSlice p s.inner buf i)
  push s e := wrap (Disk.push p s.inner e)

/-- `impl Store for DiskStore` (src/store/disk.rs:46-440). -/
instance [FloatRows] : Store (On p (DiskStore E)) E where
  new n := wrap (Disk.new p n)
  newWithConfig n b c := wrap (Disk.newWithConfig p n b c)
  newFromSlice n bs := wrap (Disk.newFromSlice p n bs)
  newFromSliceWithConfig n b bs c := wrap (Disk.newFromSliceWithConfig p n b bs c)
  newFromDisk n b c := wrap (Disk.newFromDisk p n b c)
  build A b σ s n rows c := wrapBuild (Disk.build p A b σ s.inner n rows c)
  compact s b c v fs :=
    let r := Disk.compact p s.inner b c v fs
    (r.1, ⟨r.2.1⟩, r.2.2)
  delete c := Disk.delete p c

/-- Basic operations of `LevelCacheStore`. -/
instance : StoreOps (On p (LevelCacheStore E)) E where
  len s := s.inner.len
  isEmpty s := s.inner.len == 0
  loadedFromDisk s := s.inner.loadedFromDisk
  readAt fs s := Cache.readAt p fs s.inner
  readRange fs s := Cache.readRange p fs s.inner
  readInto fs s := Cache.readInto p fs s.inner
  readRangeInto fs s := Cache.readRangeInto p fs s.inner
  writeAt s e i := wrap (Cache.writeAt p s.inner e i)
  copyFromSlice s buf i := wrap (Cache.copyFromSlice p s.inner buf i)
  push s e := wrap (Cache.push p s.inner e)

/-- `impl Store for LevelCacheStore` (src/store/level_cache.rs:154-596). -/
instance [FloatRows] : Store (On p (LevelCacheStore E)) E where
  new n := wrap (Cache.new p n)
  newWithConfig n b c := wrap (Cache.newWithConfig p n b c)
  newFromSlice n bs := wrap (Cache.newFromSlice p n bs)
  newFromSliceWithConfig n b bs c := wrap (Cache.newFromSliceWithConfig p n b bs c)
  newFromDisk n b c := wrap (Cache.newFromDisk p n b c)
  build A b σ s n rows c := wrapBuild (Cache.build p A b σ s.inner n rows c)
  compact s _ _ _ fs := (.error (.err "Cannot compact this type of Store"), s, fs)
  delete c := io p (.remove c.file) (FS.remove c.file)

end instances

/-! ### Replicas -/
section replica
variable {E : Type} [Element E] [FloatRows]

/-- `ExternalReader::new_from_config` (src/store/mod.rs:55-67). -/
def newReader (rc : ReplicaConfig) (index : Nat) : M ExternalReader := do
  check p (.open (.named rc.path) false)
  ExternalReader.newFromConfig rc index

/-- `from_store_configs_and_replica` (src/merkle.rs:230-266). -/
def fromStoreConfigsAndReplica (A : Alg E) (b sub leafs : Nat) (configs : List StoreConfig)
    (rc : ReplicaConfig) : M (Node (BaseTree (On p (LevelCacheStore E)) E) E) := do
  mEnsure (configs.length = rc.offsets.length) "Config and Replica offset lists lengths are invalid"
  let ts ← collectM (fun (c : StoreConfig × Nat) => do
    let n ← M.ofRes (merkleTreeLen leafs b)
    let r ← newReader p rc c.2
    let s : On p (LevelCacheStore E) ← wrap (Cache.newFromDiskWithReader p n b c.1 r)
    M.get (BaseTree.fromDataStore b 0 0 s leafs)) configs.zipIdx
  M.ofRes (fromTrees A sub ts)

/-- `from_sub_tree_store_configs_and_replica` (src/merkle.rs:275-321). -/
def fromSubTreeStoreConfigsAndReplica (A : Alg E) (b sub top leafs : Nat)
    (configs : List StoreConfig) (rc : ReplicaConfig) :
    M (Node (Tree1 (On p (LevelCacheStore E)) E) E) := do
  mEnsure (configs.length = rc.offsets.length) "Config and Replica offset lists lengths are invalid"
  let per ← M.ofRes (divP configs.length top)
  let ts ← collectM (fun (g : List StoreConfig × List Nat) => do
    let t ← fromStoreConfigsAndReplica p A b sub leafs g.1 ⟨rc.path, g.2⟩
    pure (Tree1.sub t)) ((configGroups per top configs).zip (configGroups per top rc.offsets))
  M.ofRes (fromSubTrees A top ts)

end replica
end Flaky
end Verif
