import Verif.Tests.Common
import Verif.Model.MmapStore
/-
tests/test_base_constructors.rs, tests/test_compound_constructors.rs and
tests/test_compound_compound_constructors.rs on the model.
-/
namespace Verif.Tests
open Verif
attribute [local instance] idealRows

def cfg : StoreConfig := StoreConfig.new "dir" "id" 0
def order : ParOrder := List.range

section
variable (S : Type) [Store S Item]

/-! `test_iterable` (tests/test_base_constructors.rs:185-292): every constructor from elements. -/
def iterable (A : Alg Item) (root : List UInt8) : Bool :=
  let ok := baseOk (S := S) A 8 (item root) 64
  let es := elements 64
  run (BaseTree.new A 8 .sequential es) ok &&
  run (BaseTree.tryFromIter A 8 .sequential (some 64) (es.map .ok)) ok &&
  run (BaseTree.fromParIter A 8 .sequential order es) ok &&
  run (BaseTree.newWithConfig A 8 .sequential es cfg) ok &&
  run (BaseTree.tryFromIterWithConfig A 8 .sequential (some 64) (es.map .ok) cfg) ok &&
  run (BaseTree.fromParIterWithConfig A 8 .sequential order es cfg) ok

/-! `test_iterable_hashable_and_serialization` (tests/test_base_constructors.rs:295-406). -/
def hashable (A : Alg Item) (root : List UInt8) : Bool :=
  let ok := baseOk (S := S) A 8 (item root) 64
  let data : M (BaseTree S Item) := BaseTree.fromData A 8 .sequential (usizes A 64)
  let serialized : M Bytes := do
    let t ← data
    M.get fun fs => serialize fs t
  run data ok &&
  run (BaseTree.fromDataWithConfig A 8 .sequential (usizes A 64) cfg) ok &&
  run (do
    let bs ← serialized
    let s ← Store.newFromSlice bs.length bs
    M.get (BaseTree.fromDataStore 8 0 0 s 64)) ok &&
  run (do
    let bs ← serialized
    BaseTree.fromTreeSlice 8 0 0 bs 64) ok &&
  run (BaseTree.fromByteSlice A 8 .sequential (byteSlice A 64)) ok &&
  run (BaseTree.fromByteSliceWithConfig A 8 .sequential (byteSlice A 64) cfg) ok &&
  run (do
    let bs ← serialized
    BaseTree.fromTreeSliceWithConfig 8 0 0 bs 64 cfg) ok

def bases (A : Alg Item) (n : Nat) : M (List (BaseTree S Item)) :=
  times n fun _ => BaseTree.new A 8 .sequential (elements 64)

/-- `get_vector_of_base_trees_as_slices` (tests/common.rs:348-361). -/
def slices (A : Alg Item) (n : Nat) : M (List Bytes) := do
  let ts ← bases S A n
  collectM (fun t => M.get fun fs => serialize fs t) ts

/-- `instantiate_ctree_from_slices_with_configs` (tests/test_compound_constructors.rs:75-99): eight
times the default configuration, whose path and id are empty. -/
def fromSlicesDefault (A : Alg Item) : M (Node (BaseTree S Item) Item) := do
  let ds ← slices S A 8
  fromSlicesWithConfigs A 8 8 ds 64 (List.replicate 8 (StoreConfig.new "" "" 0))

/-! `test_compound_constructors` (tests/test_compound_constructors.rs:179-231), the constructors
working in memory. -/
def compound (A : Alg Item) (root : List UInt8) : Bool :=
  let ok := subOk (S := S) A 8 8 (item root) 64
  run (do
    let ts ← bases S A 8
    M.ofRes (fromTrees A 8 ts)) ok &&
  run (do
    let ds ← slices S A 8
    let ss ← collectM (fun d => Store.newFromSlice d.length d) ds
    fromStores A 8 8 64 ss) ok &&
  run (do
    let ds ← slices S A 8
    fromSlices A 8 8 ds 64) ok &&
  run (fromSlicesDefault S A) ok

/-- Builds and drops `n` trees, each bound to its own configuration
(tests/test_compound_constructors.rs:118-140). -/
def persist (A : Alg Item) (n discard : Nat) : M (List StoreConfig) :=
  times n fun i => do
    let c := StoreConfig.new "dir" s!"tree-{i}" discard
    let _ : BaseTree S Item ← BaseTree.newWithConfig A 8 .sequential (elements 64) c
    pure c

/-! The rest of `test_compound_constructors` (233-268): from configurations naming stored trees. -/
def compoundConfigs (A : Alg Item) (root : List UInt8) : Bool :=
  run (do
    let cs ← persist S A 8 (defaultRowsToDiscard 64 8)
    fromStoreConfigs A 8 8 64 cs) (subOk (S := S) A 8 8 (item root) 64)

/-! `test_compound_compound_constructors` (tests/test_compound_compound_constructors.rs:190-280). -/
def compound2 (A : Alg Item) (root : List UInt8) : Bool :=
  let ok := topOk (S := S) A 8 8 2 (item root) 64
  run (do
    let ts ← times 2 fun _ => do
      let ts ← bases S A 8
      let t ← M.ofRes (fromTrees A 8 ts)
      pure (Tree1.sub t)
    M.ofRes (fromSubTrees A 2 ts)) ok &&
  run (do
    let ts ← bases S A 16
    M.ofRes (fromSubTreesAsTrees A 8 2 ts)) ok

def compound2Configs (A : Alg Item) (root : List UInt8) : Bool :=
  run (do
    let cs ← persist S A 16 0
    fromSubTreeStoreConfigs A 8 8 2 64 cs) (topOk (S := S) A 8 8 2 (item root) 64)

end

def xorIter : List UInt8 := [65, 0, 64, 0, 64, 0, 64, 0, 64, 0, 64, 0, 64, 0, 64, 0]
def shaIter : List UInt8 :=
  [252, 61, 163, 229, 140, 223, 198, 165, 200, 137, 59, 43, 83, 136, 197, 63]
def xorData : List UInt8 := [1, 0, 0, 0, 19, 0, 0, 0, 0, 0, 0, 0, 0, 0, 0, 0]
def shaData : List UInt8 :=
  [98, 103, 202, 101, 121, 179, 6, 237, 133, 39, 253, 169, 173, 63, 89, 188]
def xorCompound : List UInt8 := [1, 0, 0, 0, 0, 0, 0, 0, 0, 0, 0, 0, 0, 0, 0, 0]
def shaSub : List UInt8 :=
  [32, 129, 168, 134, 58, 233, 155, 225, 88, 230, 247, 63, 18, 38, 194, 230]
def shaTop : List UInt8 :=
  [52, 152, 123, 224, 174, 42, 152, 12, 199, 4, 105, 245, 176, 59, 230, 86]

#guard iterable (VecStore Item) xor128 xorIter
#guard iterable (DiskStore Item) xor128 xorIter
#guard iterable (MmapStore Item) xor128 xorIter
#guard iterable (VecStore Item) sha shaIter
#guard iterable (DiskStore Item) sha shaIter
#guard iterable (MmapStore Item) sha shaIter

#guard hashable (VecStore Item) xor128 xorData
#guard hashable (DiskStore Item) xor128 xorData
#guard hashable (MmapStore Item) xor128 xorData
#guard hashable (VecStore Item) sha shaData
#guard hashable (DiskStore Item) sha shaData
#guard hashable (MmapStore Item) sha shaData

#guard compound (VecStore Item) xor128 xorCompound
#guard compound (VecStore Item) sha shaSub
#guard compoundConfigs (DiskStore Item) xor128 xorCompound
#guard compoundConfigs (DiskStore Item) sha shaSub
#guard compoundConfigs (MmapStore Item) xor128 xorCompound
#guard compoundConfigs (MmapStore Item) sha shaSub

/-
The same test is commented out for `DiskStore` and `MmapStore`, with the remark "TODO: investigate why
these tests fail" (tests/test_compound_constructors.rs:221-231).  The model shows why: the default
configuration names one file, `sc-02-data-.dat`, which the test with the first hasher leaves behind,
and the test with the second hasher takes that file for its own data.  In an empty directory the test
passes; run after the other one it gives a wrong root and no error.
-/
#guard compound (DiskStore Item) xor128 xorCompound
#guard compound (DiskStore Item) sha shaSub
#guard run (fromSlicesDefault (DiskStore Item) xor128) fun _ fs =>
  match (fromSlicesDefault (DiskStore Item) sha fs).1 with
  | .ok t => t.root ≠ item shaSub
  | .error _ => false

#guard compound2 (VecStore Item) xor128 xorCompound
#guard compound2 (VecStore Item) sha shaTop
#guard compound2Configs (DiskStore Item) xor128 xorCompound
#guard compound2Configs (DiskStore Item) sha shaTop
#guard compound2Configs (MmapStore Item) xor128 xorCompound
#guard compound2Configs (MmapStore Item) sha shaTop

end Verif.Tests
