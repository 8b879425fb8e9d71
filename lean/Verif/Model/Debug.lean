import Verif.Model.Merkle
import Verif.Model.LevelCache
/-
The handwritten `Debug` instances: what they say about a value, as a list of field names and values.
How `fmt::Formatter` lays the fields out is not modelled.
-/
namespace Verif

/-- What a field of a `debug_struct` shows. -/
inductive DebugValue (E : Type) where
  | nat (n : Nat)
  | bool (b : Bool)
  | elem (e : E)
  /-- a `debug_struct` without fields, by its name -/
  | name (s : String)
  deriving DecidableEq, Repr

/-- The name given to `debug_struct` and the fields, in the order of the `.field` calls. -/
structure DebugStruct (E : Type) where
  name : String
  fields : List (String × DebugValue E)
  deriving DecidableEq, Repr

/-- What is shown under a field name. -/
def DebugStruct.get {E : Type} (d : DebugStruct E) (field : String) : Option (DebugValue E) :=
  (d.fields.find? fun p => p.1 = field).map Prod.snd

/-- `fmt` of `Debug for LevelCacheStore` (src/store/level_cache.rs:61-72).  `elem_len` shows `self.len`. -/
def LevelCacheStore.debug {E : Type} (s : LevelCacheStore E) : DebugStruct E :=
  ⟨"LevelCacheStore", [("len", .nat s.len), ("elem_len", .nat s.len), ("data_width", .nat s.dataWidth),
    ("loaded_from_disk", .bool s.loadedFromDisk), ("cache_index_start", .nat s.cacheIndexStart),
    ("store_size", .nat s.storeSize)]⟩

/-- `fmt` of `Debug for ExternalReader` (src/store/mod.rs:74-85): two constants. -/
def ExternalReader.debug (E : Type) (_ : ExternalReader) : DebugStruct E :=
  ⟨"ExternalReader", [("source: Read + Send + Sync", .nat 1),
    ("read_fn: callback(start: usize, end: usize, buf: &mut [u8])", .nat 2)]⟩

/-- `fmt` of `Debug for Data` (src/merkle.rs:128-135): the same for all three kinds of tree. -/
def dataDebug (E : Type) : DebugValue E := .name "enum Data"

/-- `fmt` of `Debug for MerkleTree` (src/merkle.rs:171-190), from the fields of the struct. -/
def treeDebug {E : Type} (leafs len rowCount : Nat) (root : E) : DebugStruct E :=
  ⟨"MerkleTree", [("data", dataDebug E), ("leafs", .nat leafs), ("len", .nat len),
    ("row_count", .nat rowCount), ("root", .elem root)]⟩

/-- `Debug` of a base tree (src/merkle.rs:171-190): the fields, not the accessors. -/
def BaseTree.debug {S E : Type} (t : BaseTree S E) : DebugStruct E :=
  treeDebug t.leafs t.len t.rowCount t.root
/-- `Debug` of a compound tree (src/merkle.rs:171-190). -/
def Node.debug {C E : Type} (t : Node C E) : DebugStruct E :=
  treeDebug t.leafs t.len t.rowCount t.root
/-- `Debug` of `MerkleTree<E, A, S, B, Sub>` (src/merkle.rs:171-190). -/
def Tree1.debug {S E : Type} : Tree1 S E → DebugStruct E
  | .base t => t.debug
  | .sub t => t.debug
/-- `Debug` of `MerkleTree<E, A, S, B, Sub, Top>` (src/merkle.rs:171-190). -/
def Tree2.debug {S E : Type} : Tree2 S E → DebugStruct E
  | .base t => t.debug
  | .sub t => t.debug
  | .top t => t.debug

end Verif
