import Verif.Model.Flaky
import Verif.Model.MmapStore
/-
`MmapStore` (src/store/mmap.rs) over a disk that fails.  Once the file is mapped, reads and writes are memory accesses
and make no system calls.
-/
namespace Verif
namespace Flaky
variable (p : IoPlan)

namespace Mmap
variable {E : Type} [Element E]

/-- `MmapMut::map_mut(&file)`: the size of the file is read and that many bytes are mapped. -/
def mapFile (f : FileId) (n : Nat) : M Unit := check p (.map f 0 n)

/-- Opening for reading and writing; when this fails the function panics (src/store/mmap.rs:82-91). -/
def openOrPanic (f : FileId) : M Unit := fun fs =>
  if p.fails (.open f true) fs then (.error (.panic "I/O error"), fs) else (.ok (), fs)

/-- `reinit` (src/store/mmap.rs:275-280). -/
def reinit (s : MmapStore E) : M (MmapStore E) := do
  let n ← M.get fun fs => fileLen p fs s.file
  mapFile p s.file n
  pure { s with map := some n }

/-- `if self.map.is_none() { self.reinit()? }`. -/
def ensureMap (s : MmapStore E) : M (MmapStore E) :=
  match s.map with
  | none => reinit p s
  | some _ => pure s

/-- `write_at` (src/store/mmap.rs:114-127). -/
def writeAt (s : MmapStore E) (el : E) (index : Nat) : M (MmapStore E) := do
  let s ← ensureMap p s
  if (Element.toBytes el).length = Element.byteLen E then do
    s.mapWrite (index * Element.byteLen E) (Element.toBytes el)
    pure { s with len := max s.len (index + 1) }
  else M.throw (.panic "source slice length does not match destination slice length")

/-- `copy_from_slice` (src/store/mmap.rs:129-148). -/
def copyFromSlice (s : MmapStore E) (buf : Bytes) (start : Nat) : M (MmapStore E) := do
  let r ← M.ofRes (modP buf.length (Element.byteLen E))
  mEnsure (r = 0) "buf size must be a multiple of byte_len"
  let s ← ensureMap p s
  s.mapWrite (start * Element.byteLen E) buf
  pure { s with len := max s.len (start + buf.length / Element.byteLen E) }

/-- `push` (src/store/mmap.rs:290-304). -/
def push (s : MmapStore E) (el : E) : M (MmapStore E) := do
  let s ← ensureMap p s
  mEnsure ((s.len + 1) * Element.byteLen E ≤ s.map.getD 0) "not enough space"
  writeAt p s el s.len

/-- `new` (src/store/mmap.rs:61-75). -/
def new (size : Nat) : M (MmapStore E) := do
  let storeSize := Element.byteLen E * size
  let f ← io p .temp FS.createTemp
  setLen p f storeSize
  mapFile p f storeSize
  pure ⟨some storeSize, f, 0⟩

/-- `new_from_disk` (src/store/mmap.rs:78-112). -/
def newFromDisk (size _branches : Nat) (config : StoreConfig) : M (MmapStore E) := do
  let ex ← pathExists p config.file
  mEnsure (ex = true) "[MmapStore] new_from_disk constructor can be used only for existing storages"
  openOrPanic p config.file
  let storeSize ← M.get fun fs => fileLen p fs config.file
  mEnsure (storeSize = size * Element.byteLen E) "Invalid formatted file provided"
  mapFile p config.file storeSize
  pure ⟨some storeSize, config.file, size⟩

/-- `new_with_config` (src/store/mmap.rs:32-58). -/
def newWithConfig (size branches : Nat) (config : StoreConfig) : M (MmapStore E) := do
  let ex ← pathExists p config.file
  if ex then newFromDisk p size branches config
  else do
    io p (.create config.file) (FS.createNew config.file)
    let storeSize := Element.byteLen E * size
    setLen p config.file storeSize
    mapFile p config.file storeSize
    pure ⟨some storeSize, config.file, 0⟩

/-- `new_from_slice` (src/store/mmap.rs:183-199). -/
def newFromSlice (size : Nat) (data : Bytes) : M (MmapStore E) := do
  let r ← M.ofRes (modP data.length (Element.byteLen E))
  mEnsure (r = 0) "data size must be a multiple of byte_len"
  let s : MmapStore E ← new p size
  s.mapWrite 0 data
  pure { s with len := data.length / Element.byteLen E }

/-- `new_from_slice_with_config` (src/store/mmap.rs:150-181). -/
def newFromSliceWithConfig (size branches : Nat) (data : Bytes) (config : StoreConfig) :
    M (MmapStore E) := do
  let r ← M.ofRes (modP data.length (Element.byteLen E))
  mEnsure (r = 0) "data size must be a multiple of byte_len"
  let s : MmapStore E ← newWithConfig p size branches config
  let s ← ensureMap p s
  s.mapWrite 0 data
  pure { s with len := data.length / Element.byteLen E }

end Mmap

section instances
variable {p} {E : Type} [Element E]

/-- Basic operations of `MmapStore`; the reads make no system calls. -/
instance : StoreOps (On p (MmapStore E)) E where
  len s := s.inner.len
  isEmpty s := s.inner.len == 0
  loadedFromDisk _ := false
  readAt fs s := s.inner.readAt fs
  readRange fs s := s.inner.readRange fs
  readInto fs s := s.inner.readInto fs
  readRangeInto _ _ _ _ _ := .error (.panic "not implemented: Not required here")
  writeAt s e i := wrap (Mmap.writeAt p s.inner e i)
  copyFromSlice s buf i := wrap (Mmap.copyFromSlice p s.inner buf i)
  push s e := wrap (Mmap.push p s.inner e)

/-- `impl Store for MmapStore` (src/store/mmap.rs:30-305). -/
instance : Store (On p (MmapStore E)) E where
  new n := wrap (Mmap.new p n)
  newWithConfig n b c := wrap (Mmap.newWithConfig p n b c)
  newFromSlice n bs := wrap (Mmap.newFromSlice p n bs)
  newFromSliceWithConfig n b bs c := wrap (Mmap.newFromSliceWithConfig p n b bs c)
  newFromDisk n b c := wrap (Mmap.newFromDisk p n b c)
  build := defaultBuild
  compact s _ _ _ fs := (.ok s.inner.map.isSome, ⟨{ s.inner with map := none }⟩, fs)
  reinit s := wrap (Mmap.reinit p s.inner)
  delete _ := pure ()

end instances
end Flaky
end Verif
