import Verif.Model.Store
/-
`VecStore` (src/store/vec.rs): the tree in memory.
-/
namespace Verif

/-- `struct VecStore<E>(Vec<E>)` (src/store/vec.rs:9). -/
structure VecStore (E : Type) where
  els : List E
  deriving DecidableEq, Repr

/-- `Element::copy_to_slice`: fills the buffer; panics if its length is not the element's. -/
def Element.copyToSlice {E : Type} [Element E] (e : E) (buf : Bytes) : Res Bytes :=
  if buf.length = Element.byteLen E then .ok (Element.toBytes e)
  else .error (.panic "source slice length does not match destination slice length")

/-- `Vec::resize(n, default)`. -/
def resize {α : Type} (xs : List α) (n : Nat) (d : α) : List α :=
  xs.take n ++ List.replicate (n - xs.length) d

/-- `bytes.chunks_exact(n)`: the pieces of full length; a shorter rest is dropped. -/
def chunksExact {α : Type} (n : Nat) (xs : List α) : List (List α) :=
  chunks n (xs.take (xs.length / n * n))

namespace VecStore
variable {E : Type} [Element E]

/-- `write_at` (src/store/vec.rs:28-35). -/
def writeAt (s : VecStore E) (el : E) (index : Nat) : M (VecStore E) :=
  let els := if s.els.length ≤ index then resize s.els (index + 1) Element.default else s.els
  pure ⟨els.set index el⟩

/-- `copy_from_slice` (src/store/vec.rs:42-59).  `splice` replaces the range by the decoded
elements. -/
def copyFromSlice (s : VecStore E) (buf : Bytes) (start : Nat) : M (VecStore E) := do
  let L := Element.byteLen E
  let r ← M.ofRes (modP buf.length L)
  mEnsure (r = 0) "buf size must be a multiple of byte_len"
  let numElem := buf.length / L
  let els := if s.els.length < start + numElem then resize s.els (start + numElem) Element.default
    else s.els
  let new : List E ← M.ofRes ((chunksExact L buf).mapM Element.fromSlice)
  pure ⟨els.take start ++ new ++ els.drop (start + numElem)⟩

/-- `new_from_slice` (src/store/vec.rs:70-79).  `size - v.len()` is the only use of `size`.
`chunks_exact(0)` panics. -/
def newFromSlice (size : Nat) (data : Bytes) : M (VecStore E) := M.ofRes do
  let _ ← (if Element.byteLen E = 0 then .error (.panic "chunk size must be non-zero") else .ok ())
  let v ← (chunksExact (Element.byteLen E) data).mapM Element.fromSlice
  let _ ← subP size v.length
  .ok ⟨v⟩

/-- `read_range` (src/store/vec.rs:98-100): slice indexing panics when out of range. -/
def readRange (s : VecStore E) (a b : Nat) : Res (List E) :=
  if a ≤ b ∧ b ≤ s.els.length then .ok ((s.els.drop a).take (b - a))
  else .error (.panic "range out of bounds")

/-- `read_into` (src/store/vec.rs:89-92). -/
def readInto (s : VecStore E) (index : Nat) (buf : Bytes) : Res Bytes := do
  let e ← idxP s.els index
  Element.copyToSlice e buf

/-- `Deref` (src/store/vec.rs:11-17): the elements. -/
def deref (s : VecStore E) : List E := s.els

/-- Basic operations of `VecStore` (src/store/vec.rs:19-133). -/
instance : StoreOps (VecStore E) E where
  len s := s.els.length
  isEmpty s := s.els.isEmpty
  loadedFromDisk _ := false
  readAt _ s i := idxP s.els i
  readRange _ s a b := readRange s a b
  readInto _ s i buf := readInto s i buf
  readRangeInto _ _ _ _ _ := .error (.panic "not implemented: Not required here")
  writeAt := writeAt
  copyFromSlice := copyFromSlice
  push s e := pure ⟨s.els ++ [e]⟩

/-- `impl Store for VecStore` (src/store/vec.rs:19-133).  `build` and `reinit` are the trait's
defaults. -/
instance : Store (VecStore E) E where
  new _ := pure ⟨[]⟩
  newWithConfig _ _ _ := pure ⟨[]⟩
  newFromSlice := newFromSlice
  newFromSliceWithConfig size _ data _ := newFromSlice size data
  newFromDisk _ _ _ := M.throw (.panic "not implemented: Cannot load a VecStore from disk")
  build := defaultBuild
  compact s _ _ _ fs := (.ok true, s, fs)
  delete _ := pure ()

end VecStore
end Verif
