import Verif.Tests.Common
/-
tests/test_levelcache_trees.rs on the model, and the sizes of `test_get_merkle_tree_methods`
(src/merkle.rs:2095-2207).
-/
namespace Verif.Tests
open Verif
attribute [local instance] idealRows

/-- What `test_levelcache_tree_functionality` (tests/common.rs:254-287) asserts: as `checks`, with
`gen_cached_proof`. -/
def cachedChecks (A : Alg Item) (b leafs len : Nat) (root : Item) (gen : Nat → M (Proof Item))
    (expectLeafs expectLen : Nat) (expectRoot : Item) (fs : FS) : Bool :=
  leafs = expectLeafs && len = expectLen && root = expectRoot &&
    (List.range leafs).all fun i =>
      match (gen i fs).1 with
      | .ok p => (match p.validate A b with | .ok true => true | _ => false)
      | .error _ => false

abbrev LC := LevelCacheStore Item

def lcBaseOk (A : Alg Item) (root : List UInt8) (t : BaseTree LC Item) (fs : FS) : Bool :=
  match merkleTreeLenGeneric 8 0 0 64 with
  | .ok n => cachedChecks A 8 t.leafs t.length t.root
      (fun i => t.genCachedProof A 8 0 0 .sequential i (some 0)) 64 n (item root) fs
  | .error _ => false

def lcSubOk (A : Alg Item) (root : List UInt8) (t : Node (BaseTree LC Item) Item) (fs : FS) : Bool :=
  let t := Tree1.sub t
  match merkleTreeLenGeneric 8 8 0 64 with
  | .ok n => cachedChecks A 8 t.leafs t.length t.root
      (fun i => t.genCachedProof A 8 8 .sequential i (some 0)) (64 * 8) n (item root) fs
  | .error _ => false

def lcTopOk (A : Alg Item) (root : List UInt8) (t : Node (Tree1 LC Item) Item) (fs : FS) : Bool :=
  let t := Tree2.top t
  match merkleTreeLenGeneric 8 8 2 64 with
  | .ok n => cachedChecks A 8 t.leafs t.length t.root
      (fun i => t.genCachedProof A 8 8 2 .sequential i (some 0)) (64 * 8 * 2) n (item root) fs
  | .error _ => false

def replicaPath : String := dataPath "dir" "replica_path"

/-- `dump_tree_data_to_replica` (tests/common.rs:329-346): appends the leaves of a stored tree to the
replica file. -/
def dump (leaves len : Nat) (c : StoreConfig) : M Unit := do
  let s : DiskStore Item ← Store.newWithConfig len 8 c
  let es ← M.get fun fs => StoreOps.readRange fs s 0 leaves
  let off ← M.get fun fs => FS.fileLen fs (.named replicaPath)
  FS.writeAllAt (.named replicaPath) off (encodeAll es)

/-- The shape of every constructor in the file: a `DiskStore` tree, its leaves dumped into the
replica, then the same tree in a `LevelCacheStore`, bound to the replica. -/
def lcTree (i : Nat) (disk : StoreConfig → M (BaseTree (DiskStore Item) Item))
    (cached : StoreConfig → M (BaseTree LC Item)) : M (StoreConfig × BaseTree LC Item) := do
  let c := StoreConfig.new "dir" s!"config_id{i}" 0
  let t ← disk c
  dump t.leafs t.length c
  let lc := StoreConfig.fromConfig c s!"lc_config_id{i}" (some t.length)
  let u ← cached lc
  let u ← u.setExternalReaderPath replicaPath
  pure (lc, u)

def withReplica {α : Type} (x : M α) : M α := do
  FS.createNew (.named replicaPath)
  x

/-! `test_base_levelcache_trees_iterable` (tests/test_levelcache_trees.rs:362-425) -/
def lcIterable (A : Alg Item) (root : List UInt8) : Bool :=
  let ok := fun (t : StoreConfig × BaseTree LC Item) => lcBaseOk A root t.2
  let es := elements 64
  run (withReplica (lcTree 0 (BaseTree.newWithConfig A 8 .sequential es)
    (BaseTree.newWithConfig A 8 .sequential es))) ok &&
  run (withReplica (lcTree 0 (BaseTree.tryFromIterWithConfig A 8 .sequential (some 64) (es.map .ok))
    (BaseTree.tryFromIterWithConfig A 8 .sequential (some 64) (es.map .ok)))) ok &&
  run (withReplica (lcTree 0 (BaseTree.fromParIterWithConfig A 8 .sequential List.range es)
    (BaseTree.fromParIterWithConfig A 8 .sequential List.range es))) ok

/-! `test_base_levelcache_trees_iterable_hashable_and_serialization` (428-487) -/
def lcHashable (A : Alg Item) (root : List UInt8) : Bool :=
  let ok := fun (t : StoreConfig × BaseTree LC Item) => lcBaseOk A root t.2
  run (withReplica (lcTree 0 (BaseTree.fromDataWithConfig A 8 .sequential (usizes A 64))
    (BaseTree.fromDataWithConfig A 8 .sequential (usizes A 64)))) ok &&
  run (withReplica (lcTree 0 (BaseTree.fromByteSliceWithConfig A 8 .sequential (byteSlice A 64))
    (BaseTree.fromByteSliceWithConfig A 8 .sequential (byteSlice A 64)))) ok

/-- The test of `from_tree_slice_with_config`, commented out in the repository with "TODO
investigate, why this test fails" (454-466).  It fails on the model too: all rows are written into a
file that, once a reader is set, is taken to hold the cached rows only (see
`C40_level_cache_with_config_refuted`). -/
def lcTreeSlice (A : Alg Item) (root : List UInt8) : Bool :=
  run (do
    let t : BaseTree (VecStore Item) Item ← BaseTree.fromData A 8 .sequential (usizes A 64)
    let bs ← M.get fun fs => serialize fs t
    withReplica (lcTree 0 (BaseTree.fromTreeSliceWithConfig 8 0 0 bs 64)
      (BaseTree.fromTreeSliceWithConfig 8 0 0 bs 64)))
    fun t fs => t.2.root = item root && !lcBaseOk A root t.2 fs

def persistCached (A : Alg Item) (n : Nat) : M (List StoreConfig) :=
  withReplica (times n fun i => do
    let (c, _) ← lcTree i (BaseTree.newWithConfig A 8 .sequential (elements 64))
      (BaseTree.newWithConfig A 8 .sequential (elements 64))
    pure c)

/-! `test_compound_levelcache_trees` (560-598) -/
def lcCompound (A : Alg Item) (root : List UInt8) : Bool :=
  run (do
    let cs ← persistCached A 8
    fromStoreConfigsAndReplica A 8 8 64 cs ⟨replicaPath, (List.range 8).map (· * 16 * 64)⟩)
    (lcSubOk A root)

/-! `test_compound_compound_levelcache_trees` (737-774) -/
def lcCompound2 (A : Alg Item) (root : List UInt8) : Bool :=
  run (do
    let cs ← persistCached A 16
    fromSubTreeStoreConfigsAndReplica A 8 8 2 64 cs ⟨replicaPath, (List.range 16).map (· * 16 * 64)⟩)
    (lcTopOk A root)

#guard lcIterable xor128 [65, 0, 64, 0, 64, 0, 64, 0, 64, 0, 64, 0, 64, 0, 64, 0]
#guard lcIterable sha [252, 61, 163, 229, 140, 223, 198, 165, 200, 137, 59, 43, 83, 136, 197, 63]
#guard lcHashable xor128 [1, 0, 0, 0, 19, 0, 0, 0, 0, 0, 0, 0, 0, 0, 0, 0]
#guard lcHashable sha [98, 103, 202, 101, 121, 179, 6, 237, 133, 39, 253, 169, 173, 63, 89, 188]
#guard lcTreeSlice sha [98, 103, 202, 101, 121, 179, 6, 237, 133, 39, 253, 169, 173, 63, 89, 188]
#guard lcCompound xor128 [1, 0, 0, 0, 0, 0, 0, 0, 0, 0, 0, 0, 0, 0, 0, 0]
#guard lcCompound sha [32, 129, 168, 134, 58, 233, 155, 225, 88, 230, 247, 63, 18, 38, 194, 230]
#guard lcCompound2 xor128 [1, 0, 0, 0, 0, 0, 0, 0, 0, 0, 0, 0, 0, 0, 0, 0]
#guard lcCompound2 sha [52, 152, 123, 224, 174, 42, 152, 12, 199, 4, 105, 245, 176, 59, 230, 86]

/-! `test_get_merkle_tree_methods` (src/merkle.rs:2095-2207), every assertion. -/
def isOk {α : Type} : Res α → Bool
  | .ok _ => true
  | .error _ => false
/-- `is_err()`: an `Err`, not a panic. -/
def isErr {α : Type} : Res α → Bool
  | .error (.err _) => true
  | _ => false
def isVal (n : Nat) : Res Nat → Bool
  | .ok m => m = n
  | .error _ => false

#guard isOk (merkleTreeLen 16 4) && isOk (merkleTreeLen 3 1)
#guard isErr (merkleTreeLen 0 0) && isErr (merkleTreeLen 1 0) && isErr (merkleTreeLen 1 2) &&
  isErr (merkleTreeLen 4 16) && isErr (merkleTreeLen 1024 11)
#guard isOk (merkleTreeLenGeneric 4 0 0 16) && isOk (merkleTreeLenGeneric 1 0 0 3)
#guard isErr (merkleTreeLenGeneric 0 0 0 0) && isErr (merkleTreeLenGeneric 0 0 0 1) &&
  isErr (merkleTreeLenGeneric 2 0 0 1) && isErr (merkleTreeLenGeneric 16 0 0 4) &&
  isErr (merkleTreeLenGeneric 11 0 0 1024)
#guard isVal (16 + 8 + 4 + 2 + 1) (merkleTreeLenGeneric 2 0 0 16)
#guard isVal ((16 + 8 + 4 + 2 + 1) * 4 + 1) (merkleTreeLenGeneric 2 4 0 16)
#guard isVal (((16 + 8 + 4 + 2 + 1) * 4 + 1) * 2 + 1) (merkleTreeLenGeneric 2 4 2 16)
#guard isOk (merkleTreeLeafs 31 2) && isOk (merkleTreeLeafs 15 2) && isOk (merkleTreeLeafs 127 2) &&
  isOk (merkleTreeLeafs 1398101 4) && isOk (merkleTreeLeafs 299593 8)
#guard isErr (merkleTreeLeafs 32 2) && isErr (merkleTreeLeafs 16 2) && isErr (merkleTreeLeafs 128 2) &&
  isErr (merkleTreeLeafs 32 8) && isErr (merkleTreeLeafs 16 8) && isErr (merkleTreeLeafs 128 8) &&
  isErr (merkleTreeLeafs 1398102 4) && isErr (merkleTreeLeafs 299594 8)

def octree (leafs len cache : Nat) : Bool :=
  isVal len (merkleTreeLen leafs 8) && defaultRowsToDiscard leafs 8 = 2 &&
    isVal cache (merkleTreeCacheSize leafs 8 (defaultRowsToDiscard leafs 8))

#guard octree 1073741824 1227133513 2396745
#guard octree 134217728 153391689 299593
#guard octree 16777216 19173961 37449

end Verif.Tests
