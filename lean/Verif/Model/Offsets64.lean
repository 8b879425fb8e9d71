import Verif.Model.Sizing64
import Verif.Model.Proof64
import Verif.Model.MmapStore
import Verif.Model.Merkle
/-
Byte offsets of the stores, and `gen_proof`, on 64-bit words (src/store/{disk,mmap,level_cache}.rs,
src/merkle.rs:932-998).

As in `Sizing64`, arithmetic that overflows panics or wraps around, depending on how the crate was
compiled.  The operations are those of `DiskStore`, `MmapStore` and `LevelCacheStore` with every sum,
difference and product taken on words.  A store is used as one or the other by its type.
-/
namespace Verif
open Word

/-- The byte range of element `index` (src/store/disk.rs:154-155). -/
def elementRange64 (E : Type) [Element E] (o : Overflow) (index : Nat) : Res (Nat × Nat) := do
  let start ← mul o index (Element.byteLen E)
  let stop ← add o start (Element.byteLen E)
  .ok (start, stop)

/-- The byte range of the elements `start..stop` (src/store/disk.rs:176-177). -/
def elementsRange64 (E : Type) [Element E] (o : Overflow) (start stop : Nat) : Res (Nat × Nat) := do
  let a ← mul o start (Element.byteLen E)
  let b ← mul o stop (Element.byteLen E)
  .ok (a, b)

/-- `.with_context(|| format!(.., end - start, start))` on a read (src/store/disk.rs:529-535): the
difference is only computed when the read fails, and can then overflow itself. -/
def withReadContext (o : Overflow) (start stop : Nat) (r : Res Bytes) : Res Bytes :=
  match r with
  | .error (.err m) => do
    let _ ← sub o stop start
    .error (.err m)
  | r => r

/-- `write_all_at` on words: the system takes the offset as a signed number and refuses to write at
offset 2^63 or beyond (`EINVAL`).  A read there is refused as well, which is `Err` like a read past the end
of the file. -/
def writeAllAt64 (f : FileId) (off : Nat) (data : Bytes) : M Unit := do
  mEnsure (data = [] ∨ off < 2 ^ 63) "Invalid argument"
  FS.writeAllAt f off data

/-! ### `DiskStore` -/

/-- `DiskStore` on 64-bit words. -/
structure Disk64 (o : Overflow) (E : Type) where
  store : DiskStore E

namespace Disk64
variable {o : Overflow} {E : Type} [Element E]

/-- The range checks shared by the read methods (src/store/disk.rs:157-159). -/
def checkRange (s : Disk64 o E) (start stop : Nat) : Res Unit := do
  let len ← mul o s.store.len (Element.byteLen E)
  ensure (start < len) "start out of range"
  ensure (stop ≤ len) "end out of range"

/-- `store_read_range` (src/store/disk.rs:508-524). -/
def storeReadRange (fs : FS) (s : Disk64 o E) (start stop : Nat) : Res Bytes := do
  let n ← sub o stop start
  let n ← allocLen n
  fs.readExactAt s.store.file start n

/-- `read_at` (src/store/disk.rs:153-162). -/
def readAt (fs : FS) (s : Disk64 o E) (index : Nat) : Res E := do
  let (start, stop) ← elementRange64 E o index
  checkRange s start stop
  let bs ← storeReadRange fs s start stop
  Element.fromSlice bs

/-- `read_into` (src/store/disk.rs:164-173). -/
def readInto (fs : FS) (s : Disk64 o E) (index : Nat) (buf : Bytes) : Res Bytes := do
  let (start, stop) ← elementRange64 E o index
  checkRange s start stop
  withReadContext o start stop (fs.readExactAt s.store.file start buf.length)

/-- `read_range_into` (src/store/disk.rs:175-184). -/
def readRangeInto (fs : FS) (s : Disk64 o E) (start stop : Nat) (buf : Bytes) : Res Bytes := do
  let (start, stop) ← elementsRange64 E o start stop
  checkRange s start stop
  withReadContext o start stop (fs.readExactAt s.store.file start buf.length)

/-- `read_range` (src/store/disk.rs:186-199). -/
def readRange (fs : FS) (s : Disk64 o E) (start stop : Nat) : Res (List E) := do
  let (start, stop) ← elementsRange64 E o start stop
  checkRange s start stop
  let bs ← storeReadRange fs s start stop
  decodeAll bs

/-- `store_copy_from_slice` (src/store/disk.rs:540-549). -/
def storeCopyFromSlice (s : Disk64 o E) (start : Nat) (slice : Bytes) : M Unit := do
  let stop ← M.ofRes (add o start slice.length)
  mEnsure (stop ≤ s.store.storeSize) "Requested slice too large"
  writeAllAt64 s.store.file start slice

/-- `write_at` (src/store/disk.rs:135-139). -/
def writeAt (s : Disk64 o E) (el : E) (index : Nat) : M (Disk64 o E) := do
  let start ← M.ofRes (mul o index (Element.byteLen E))
  storeCopyFromSlice s start (Element.toBytes el)
  let next ← M.ofRes (add o index 1)
  pure ⟨{ s.store with len := max s.store.len next }⟩

/-- `copy_from_slice` (src/store/disk.rs:141-151). -/
def copyFromSlice (s : Disk64 o E) (buf : Bytes) (start : Nat) : M (Disk64 o E) := do
  let r ← M.ofRes (modP buf.length (Element.byteLen E))
  mEnsure (r = 0) "buf size must be a multiple of elem_len"
  let a ← M.ofRes (mul o start (Element.byteLen E))
  storeCopyFromSlice s a buf
  let next ← M.ofRes (add o start (buf.length / Element.byteLen E))
  pure ⟨{ s.store with len := max s.store.len next }⟩

/-- `push` (src/store/disk.rs:300-311). -/
def push (s : Disk64 o E) (el : E) : M (Disk64 o E) := do
  let next ← M.ofRes (add o s.store.len 1)
  let need ← M.ofRes (mul o next (Element.byteLen E))
  mEnsure (need ≤ s.store.storeSize) "not enough space"
  writeAt s el s.store.len

/-- Basic operations. -/
instance : StoreOps (Disk64 o E) E where
  len s := s.store.len
  isEmpty s := s.store.len == 0
  loadedFromDisk s := s.store.loadedFromDisk
  readAt := readAt
  readRange := readRange
  readInto := readInto
  readRangeInto := readRangeInto
  writeAt := writeAt
  copyFromSlice := copyFromSlice
  push := push

end Disk64

/-! ### `MmapStore` -/

/-- `MmapStore` on 64-bit words. -/
structure Mmap64 (o : Overflow) (E : Type) where
  store : MmapStore E

namespace Mmap64
variable {o : Overflow} {E : Type} [Element E]

/-- The range checks of the read methods (src/store/mmap.rs:204-207). -/
def checkRange (s : Mmap64 o E) (start stop : Nat) : Res Unit := do
  let len ← mul o s.store.len (Element.byteLen E)
  ensure (start < len) "start out of range"
  ensure (stop ≤ len) "end out of range"

/-- `read_at` (src/store/mmap.rs:201-214). -/
def readAt (fs : FS) (s : Mmap64 o E) (index : Nat) : Res E := do
  let (start, stop) ← elementRange64 E o index
  checkRange s start stop
  let bs ← s.store.mapRead fs start stop
  Element.fromSlice bs

/-- `read_into` (src/store/mmap.rs:216-231). -/
def readInto (fs : FS) (s : Mmap64 o E) (index : Nat) (buf : Bytes) : Res Bytes := do
  let (start, stop) ← elementRange64 E o index
  checkRange s start stop
  let bs ← s.store.mapRead fs start stop
  if bs.length = buf.length then .ok bs
  else .error (.panic "source slice length does not match destination slice length")

/-- `read_range` (src/store/mmap.rs:237-253). -/
def readRange (fs : FS) (s : Mmap64 o E) (start stop : Nat) : Res (List E) := do
  let (start, stop) ← elementsRange64 E o start stop
  checkRange s start stop
  let bs ← s.store.mapRead fs start stop
  decodeAll bs

/-- `self.map.as_mut().unwrap()[start..end].copy_from_slice(data)` (src/store/mmap.rs:123, 144): the
range must lie in the map, and the lengths must agree. -/
def mapWrite (s : MmapStore E) (start stop : Nat) (data : Bytes) : M Unit :=
  match s.map with
  | none => M.throw (.panic "called `Option::unwrap()` on a `None` value")
  | some n =>
    if start ≤ stop ∧ stop ≤ n then
      if stop - start = data.length then FS.mmapWrite s.file start data
      else M.throw (.panic "source slice length does not match destination slice length")
    else M.throw (.panic "range end index out of range for slice")

/-- `write_at` (src/store/mmap.rs:114-127). -/
def writeAt (s : Mmap64 o E) (el : E) (index : Nat) : M (Mmap64 o E) := do
  let (start, stop) ← M.ofRes (elementRange64 E o index)
  let m ← s.store.ensureMap
  mapWrite m start stop (Element.toBytes el)
  let next ← M.ofRes (add o index 1)
  pure ⟨{ m with len := max m.len next }⟩

/-- `copy_from_slice` (src/store/mmap.rs:129-148). -/
def copyFromSlice (s : Mmap64 o E) (buf : Bytes) (start : Nat) : M (Mmap64 o E) := do
  let r ← M.ofRes (modP buf.length (Element.byteLen E))
  mEnsure (r = 0) "buf size must be a multiple of byte_len"
  let a ← M.ofRes (mul o start (Element.byteLen E))
  let b ← M.ofRes (add o a buf.length)
  let m ← s.store.ensureMap
  mapWrite m a b buf
  let next ← M.ofRes (add o start (buf.length / Element.byteLen E))
  pure ⟨{ m with len := max m.len next }⟩

/-- `push` (src/store/mmap.rs:290-304). -/
def push (s : Mmap64 o E) (el : E) : M (Mmap64 o E) := do
  let m ← s.store.ensureMap
  let next ← M.ofRes (add o s.store.len 1)
  let need ← M.ofRes (mul o next (Element.byteLen E))
  mEnsure (need ≤ m.map.getD 0) "not enough space"
  writeAt ⟨m⟩ el s.store.len

/-- Basic operations. -/
instance : StoreOps (Mmap64 o E) E where
  len s := s.store.len
  isEmpty s := s.store.len == 0
  loadedFromDisk _ := false
  readAt := readAt
  readRange := readRange
  readInto := readInto
  readRangeInto _ _ _ _ _ := .error (.panic "not implemented: Not required here")
  writeAt := writeAt
  copyFromSlice := copyFromSlice
  push := push

end Mmap64

/-! ### `LevelCacheStore` -/

/-- `LevelCacheStore` on 64-bit words. -/
structure LevelCache64 (o : Overflow) (E : Type) where
  store : LevelCacheStore E

namespace LevelCache64
variable {o : Overflow} {E : Type} [Element E]

/-- `ensure!(start <= self.data_width * self.elem_len || start >= self.cache_index_start)`
(src/store/level_cache.rs:354-357). -/
def checkBounds (s : LevelCache64 o E) (start : Nat) (msg : String) : Res Unit := do
  let width ← mul o s.store.dataWidth (Element.byteLen E)
  ensure (start ≤ width ∨ start ≥ s.store.cacheIndexStart) msg

/-- Range checks of the read methods (src/store/level_cache.rs:351-357). -/
def checkRange (s : LevelCache64 o E) (start stop : Nat) : Res Unit := do
  let len ← mul o s.store.len (Element.byteLen E)
  ensure (start < len) "start out of range"
  ensure (stop ≤ len) "end out of range"
  checkBounds s start "out of bounds"

/-- `ExternalReader::read` (src/store/mod.rs:49-51). -/
def readerRead (o : Overflow) (r : ExternalReader) (fs : FS) (start stop : Nat) (buf : Bytes) : Res Bytes := do
  let a ← add o start r.offset
  let b ← add o stop r.offset
  r.readFn fs a b buf

/-- Where the file holds the byte the store calls `start` (src/store/level_cache.rs:735-742 and
834-843). -/
def adjustedStart (s : LevelCache64 o E) (start : Nat) : Res Nat :=
  if start ≥ s.store.cacheIndexStart then
    if s.store.reader.isNone then do
      let d ← sub o start s.store.cacheIndexStart
      let width ← mul o s.store.dataWidth (Element.byteLen E)
      add o d width
    else sub o start s.store.cacheIndexStart
  else .ok start

/-- `store_read_range` (src/store/level_cache.rs:706-754). -/
def storeReadRange (fs : FS) (s : LevelCache64 o E) (start stop : Nat) : Res Bytes := do
  let n ← sub o stop start
  let n ← allocLen n
  checkBounds s start "out of bounds"
  let width ← mul o s.store.dataWidth (Element.byteLen E)
  match s.store.reader with
  | some r =>
    if start < width then
      withReadContext o start stop (readerRead o r fs start stop (List.replicate n 0))
    else do
      let a ← adjustedStart s start
      fs.readExactAt s.store.file a n
  | none => do
    let a ← adjustedStart s start
    fs.readExactAt s.store.file a n

/-- `store_read_into` (src/store/level_cache.rs:812-857). -/
def storeReadInto (fs : FS) (s : LevelCache64 o E) (start stop : Nat) (buf : Bytes) : Res Bytes := do
  checkBounds s start "Invalid read start"
  let width ← mul o s.store.dataWidth (Element.byteLen E)
  match s.store.reader with
  | some r =>
    if start < width then withReadContext o start stop (readerRead o r fs start stop buf)
    else do
      let a ← adjustedStart s start
      withReadContext o start stop (fs.readExactAt s.store.file a buf.length)
  | none => do
    let a ← adjustedStart s start
    withReadContext o start stop (fs.readExactAt s.store.file a buf.length)

/-- `read_at` (src/store/level_cache.rs:347-360). -/
def readAt (fs : FS) (s : LevelCache64 o E) (index : Nat) : Res E := do
  let (start, stop) ← elementRange64 E o index
  checkRange s start stop
  let bs ← storeReadRange fs s start stop
  Element.fromSlice bs

/-- `read_into` (src/store/level_cache.rs:362-375). -/
def readInto (fs : FS) (s : LevelCache64 o E) (index : Nat) (buf : Bytes) : Res Bytes := do
  let (start, stop) ← elementRange64 E o index
  checkRange s start stop
  storeReadInto fs s start stop buf

/-- `read_range_into` (src/store/level_cache.rs:377-390). -/
def readRangeInto (fs : FS) (s : LevelCache64 o E) (start stop : Nat) (buf : Bytes) : Res Bytes := do
  let (start, stop) ← elementsRange64 E o start stop
  checkRange s start stop
  storeReadInto fs s start stop buf

/-- `read_range` (src/store/level_cache.rs:392-409). -/
def readRange (fs : FS) (s : LevelCache64 o E) (start stop : Nat) : Res (List E) := do
  let (start, stop) ← elementsRange64 E o start stop
  checkRange s start stop
  let bs ← storeReadRange fs s start stop
  decodeAll bs

/-- `store_copy_from_slice` (src/store/level_cache.rs:859-868). -/
def storeCopyFromSlice (s : LevelCache64 o E) (start : Nat) (slice : Bytes) : M Unit := do
  let stop ← M.ofRes (add o start slice.length)
  mEnsure (stop ≤ s.store.storeSize) "Requested slice too large"
  writeAllAt64 s.store.file start slice

/-- `write_at` (src/store/level_cache.rs:328-333). -/
def writeAt (s : LevelCache64 o E) (el : E) (index : Nat) : M (LevelCache64 o E) := do
  let start ← M.ofRes (mul o index (Element.byteLen E))
  storeCopyFromSlice s start (Element.toBytes el)
  let next ← M.ofRes (add o index 1)
  pure ⟨{ s.store with len := max s.store.len next }⟩

/-- `copy_from_slice` (src/store/level_cache.rs:335-345). -/
def copyFromSlice (s : LevelCache64 o E) (buf : Bytes) (start : Nat) : M (LevelCache64 o E) := do
  let r ← M.ofRes (modP buf.length (Element.byteLen E))
  mEnsure (r = 0) "buf size must be a multiple of elem_len"
  let a ← M.ofRes (mul o start (Element.byteLen E))
  storeCopyFromSlice s a buf
  let next ← M.ofRes (add o start (buf.length / Element.byteLen E))
  pure ⟨{ s.store with len := max s.store.len next }⟩

/-- `push` (src/store/level_cache.rs:437-448). -/
def push (s : LevelCache64 o E) (el : E) : M (LevelCache64 o E) := do
  let next ← M.ofRes (add o s.store.len 1)
  let need ← M.ofRes (mul o next (Element.byteLen E))
  mEnsure (need ≤ s.store.storeSize) "not enough space"
  writeAt s el s.store.len

/-- Basic operations. -/
instance : StoreOps (LevelCache64 o E) E where
  len s := s.store.len
  isEmpty s := s.store.len == 0
  loadedFromDisk s := s.store.loadedFromDisk
  readAt := readAt
  readRange := readRange
  readInto := readInto
  readRangeInto := readRangeInto
  writeAt := writeAt
  copyFromSlice := copyFromSlice
  push := push

end LevelCache64

/-! ### `gen_proof` -/
namespace BaseTree
variable {S E : Type} [Element E] [StoreOps S E]

/-- The inner `for k in hash_index..hash_index + branches` loop of `gen_proof` (src/merkle.rs:970-974):
`read_at(base + k)` for every `k` except `j`.  The range does not overflow once its end does not. -/
def siblings64 (o : Overflow) (rd : Nat → Res E) (base j : Nat) : (n k : Nat) → Res (List E)
  | 0, _ => .ok []
  | n + 1, k =>
    if k ≠ j then do
      let p ← add o base k
      let e ← rd p
      let es ← siblings64 o rd base j n (k + 1)
      .ok (e :: es)
    else siblings64 o rd base j n (k + 1)

/-- The `while base + 1 < self.len()` loop of `gen_proof` (src/merkle.rs:968-981). -/
def proofLoop64 (o : Overflow) (rd : Nat → Res E) (b total : Nat) :
    Nat → (base width j : Nat) → Res (List E × List Nat)
  | 0, _, _, _ => .error .diverge
  | f + 1, base, width, j => do
    let next ← add o base 1
    if next < total then do
      let q ← divP j b
      let hashIndex ← mul o q b
      let stop ← add o hashIndex b
      let sibs ← siblings64 o rd base j (stop - hashIndex) hashIndex
      let r ← modP j b
      let shift := trailingZeros b
      let base ← add o base width
      let width ← shr o width shift
      let j ← shr o j shift
      let (l, p) ← proofLoop64 o rd b total f base width j
      .ok (sibs ++ l, r :: p)
    else .ok ([], [])

/-- `gen_proof` of a base tree on words (src/merkle.rs:932-998). -/
def genProof64 (o : Overflow) (b sub top : Nat) (fs : FS) (t : BaseTree S E) (i : Nat) : Res (Proof E) := do
  ensure (i < t.leafs) "out of bounds"
  let p ← npow2 o t.leafs
  ensure (t.leafs = p) "Must be a power of 2 tree"
  let q ← npow2 o b
  ensure (b = q) "branches must be a power of 2"
  let lemmaLen ← merkleProofLemmaLen64 o t.rowCount b
  let pathLen ← Word.sub o t.rowCount 1
  ensure (sub = 0) "Data slice must not have sub-tree layers"
  ensure (top = 0) "Data slice must not have a top layer"
  let item ← t.readAt fs i
  let (sibs, path) ← proofLoop64 o (t.readAt fs) b t.length (t.length + t.leafs + 2) 0 t.leafs i
  let lem := item :: sibs ++ [t.root]
  ensure (lem.length = lemmaLen) "Invalid proof lemma length"
  ensure (path.length = pathLen) "Invalid proof path length"
  Proof.new64 o b 0 0 none lem path

end BaseTree
end Verif
