import Verif.Model.Store
import Verif.Model.DiskStore
/-
`MmapStore` (src/store/mmap.rs): a file accessed through a memory map.
-/
namespace Verif

/-- `struct MmapStore<E>` (src/store/mmap.rs:15-20).  `map` is the length of the mapping, if there
is one; its contents are the file's (a shared mapping). -/
structure MmapStore (E : Type) where
  map : Option Nat
  file : FileId
  len : Nat
  deriving DecidableEq, Repr

namespace MmapStore
variable {E : Type} [Element E]

/-- `reinit` (src/store/mmap.rs:275-280): maps the whole file. -/
def reinit (s : MmapStore E) : M (MmapStore E) := do
  let n ← M.get fun fs => fs.fileLen s.file
  pure { s with map := some n }

/-- `if self.map.is_none() { self.reinit()? }`. -/
def ensureMap (s : MmapStore E) : M (MmapStore E) :=
  match s.map with
  | none => reinit s
  | some _ => pure s

/-- `self.map.as_mut().unwrap()[a..a + data.len()].copy_from_slice(data)`: panics past the end of
the map. -/
def mapWrite (s : MmapStore E) (a : Nat) (data : Bytes) : M Unit :=
  match s.map with
  | none => M.throw (.panic "called `Option::unwrap()` on a `None` value")
  | some n =>
    if a + data.length ≤ n then FS.mmapWrite s.file a data
    else M.throw (.panic "range end index out of range for slice")

/-- `data[a..b]` on the map: panics past its end; reading a part of the map that the file no longer
has faults. -/
def mapRead (fs : FS) (s : MmapStore E) (a b : Nat) : Res Bytes :=
  match s.map with
  | none => .error (.err "Internal map needs to be initialized")
  | some n =>
    if a ≤ b ∧ b ≤ n then do
      let bs ← fs.contents s.file
      if b ≤ bs.length then .ok (region bs a (b - a)) else .error (.panic "SIGBUS")
    else .error (.panic "range end index out of range for slice")

/-- `Deref` (src/store/mmap.rs:22-28): the bytes of the whole map. -/
def deref (fs : FS) (s : MmapStore E) : Res Bytes :=
  match s.map with
  | none => .error (.panic "couldn't dereference")
  | some n => mapRead fs s 0 n

/-- `write_at` (src/store/mmap.rs:114-127). -/
def writeAt (s : MmapStore E) (el : E) (index : Nat) : M (MmapStore E) := do
  let s ← ensureMap s
  if (Element.toBytes el).length = Element.byteLen E then do
    mapWrite s (index * Element.byteLen E) (Element.toBytes el)
    pure { s with len := max s.len (index + 1) }
  else M.throw (.panic "source slice length does not match destination slice length")

/-- `copy_from_slice` (src/store/mmap.rs:129-148). -/
def copyFromSlice (s : MmapStore E) (buf : Bytes) (start : Nat) : M (MmapStore E) := do
  let r ← M.ofRes (modP buf.length (Element.byteLen E))
  mEnsure (r = 0) "buf size must be a multiple of byte_len"
  let s ← ensureMap s
  mapWrite s (start * Element.byteLen E) buf
  pure { s with len := max s.len (start + buf.length / Element.byteLen E) }

/-- The range checks of the read methods (src/store/mmap.rs:206-207). -/
def checkRange (s : MmapStore E) (start stop : Nat) : Res Unit := do
  let len := s.len * Element.byteLen E
  ensure (start < len) "start out of range"
  ensure (stop ≤ len) "end out of range"

/-- `read_at` (src/store/mmap.rs:201-214). -/
def readAt (fs : FS) (s : MmapStore E) (index : Nat) : Res E := do
  let start := index * Element.byteLen E
  let stop := start + Element.byteLen E
  checkRange s start stop
  let bs ← mapRead fs s start stop
  Element.fromSlice bs

/-- `read_into` (src/store/mmap.rs:216-231): `copy_from_slice` panics if the buffer's length is not
the element's. -/
def readInto (fs : FS) (s : MmapStore E) (index : Nat) (buf : Bytes) : Res Bytes := do
  let start := index * Element.byteLen E
  let stop := start + Element.byteLen E
  checkRange s start stop
  let bs ← mapRead fs s start stop
  if bs.length = buf.length then .ok bs
  else .error (.panic "source slice length does not match destination slice length")

/-- `read_range` (src/store/mmap.rs:237-253). -/
def readRange (fs : FS) (s : MmapStore E) (start stop : Nat) : Res (List E) := do
  let start := start * Element.byteLen E
  let stop := stop * Element.byteLen E
  checkRange s start stop
  let bs ← mapRead fs s start stop
  decodeAll bs

/-- `push` (src/store/mmap.rs:290-304). -/
def push (s : MmapStore E) (el : E) : M (MmapStore E) := do
  let s ← ensureMap s
  mEnsure ((s.len + 1) * Element.byteLen E ≤ s.map.getD 0) "not enough space"
  writeAt s el s.len

/-- Basic operations of `MmapStore`. -/
instance : StoreOps (MmapStore E) E where
  len s := s.len
  isEmpty s := s.len == 0
  loadedFromDisk _ := false
  readAt := readAt
  readRange := readRange
  readInto := readInto
  readRangeInto _ _ _ _ _ := .error (.panic "not implemented: Not required here")
  writeAt := writeAt
  copyFromSlice := copyFromSlice
  push := push

/-- `new` (src/store/mmap.rs:61-75). -/
def new (size : Nat) : M (MmapStore E) := do
  let storeSize := Element.byteLen E * size
  let f ← FS.createTemp
  FS.setLen f storeSize
  pure ⟨some storeSize, f, 0⟩

/-- `new_from_disk` (src/store/mmap.rs:78-112). -/
def newFromDisk (size _branches : Nat) (config : StoreConfig) : M (MmapStore E) := do
  let ex ← FS.pathExists config.file
  mEnsure (ex = true) "[MmapStore] new_from_disk constructor can be used only for existing storages"
  let storeSize ← M.get fun fs => fs.fileLen config.file
  mEnsure (storeSize = size * Element.byteLen E) "Invalid formatted file provided"
  pure ⟨some storeSize, config.file, size⟩

/-- `new_with_config` (src/store/mmap.rs:32-58). -/
def newWithConfig (size branches : Nat) (config : StoreConfig) : M (MmapStore E) := do
  let ex ← FS.pathExists config.file
  if ex then newFromDisk size branches config
  else do
    FS.createNew config.file
    let storeSize := Element.byteLen E * size
    FS.setLen config.file storeSize
    pure ⟨some storeSize, config.file, 0⟩

/-- `new_from_slice` (src/store/mmap.rs:183-199). -/
def newFromSlice (size : Nat) (data : Bytes) : M (MmapStore E) := do
  let r ← M.ofRes (modP data.length (Element.byteLen E))
  mEnsure (r = 0) "data size must be a multiple of byte_len"
  let s : MmapStore E ← new size
  mapWrite s 0 data
  pure { s with len := data.length / Element.byteLen E }

/-- `new_from_slice_with_config` (src/store/mmap.rs:150-181).  `loaded_from_disk` is always false,
so an existing file is overwritten. -/
def newFromSliceWithConfig (size branches : Nat) (data : Bytes) (config : StoreConfig) :
    M (MmapStore E) := do
  let r ← M.ofRes (modP data.length (Element.byteLen E))
  mEnsure (r = 0) "data size must be a multiple of byte_len"
  let s : MmapStore E ← newWithConfig size branches config
  let s ← ensureMap s
  mapWrite s 0 data
  pure { s with len := data.length / Element.byteLen E }

/-- `impl Store for MmapStore` (src/store/mmap.rs:30-305); `build` is the default one. -/
instance : Store (MmapStore E) E where
  new := new
  newWithConfig := newWithConfig
  newFromSlice := newFromSlice
  newFromSliceWithConfig := newFromSliceWithConfig
  newFromDisk := newFromDisk
  build := defaultBuild
  compact s _ _ _ fs := (.ok s.map.isSome, { s with map := none }, fs)
  reinit := reinit
  delete _ := pure ()

end MmapStore
end Verif
