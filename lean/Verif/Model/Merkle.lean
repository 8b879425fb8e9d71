import Verif.Model.Store
import Verif.Model.VecStore
import Verif.Model.LevelCache
import Verif.Model.Proof
/-
Merkle trees: src/merkle.rs.

The Rust type `MerkleTree<E, A, S, B, Sub, Top>` has one struct for all shapes; here there is one
type per shape.  `BaseTree` is a tree whose data is a store (`Data::BaseTree`), `Node C` one whose
data is a list of trees of type `C` (`Data::SubTree`, `Data::TopTree`).
* `BaseTree S E`  models `MerkleTree<E, A, S, B>`            (only `Data::BaseTree` is constructible),
* `Tree1 S E`     models `MerkleTree<E, A, S, B, Sub>`       (`Data::BaseTree` or `Data::SubTree`),
* `Tree2 S E`     models `MerkleTree<E, A, S, B, Sub, Top>`  (all three).
The arities are type-level numbers in Rust and ordinary arguments here.
-/
namespace Verif

/-- `BUILD_DATA_BLOCK_SIZE` (src/merkle.rs:19). -/
def buildDataBlockSize : Nat := 64 * buildChunkNodes

/-- `MerkleTree` (src/merkle.rs:138-169) with `Data::BaseTree`. -/
structure BaseTree (S E : Type) where
  store : S
  leafs : Nat
  len : Nat
  rowCount : Nat
  root : E

/-- `MerkleTree` (src/merkle.rs:138-169) with `Data::SubTree` or `Data::TopTree`. -/
structure Node (C E : Type) where
  children : List C
  leafs : Nat
  len : Nat
  rowCount : Nat
  root : E

/-- `MerkleTree<E, A, S, B, Sub>`. -/
inductive Tree1 (S E : Type) where
  | base (t : BaseTree S E)
  | sub (t : Node (BaseTree S E) E)

/-- `MerkleTree<E, A, S, B, Sub, Top>`. -/
inductive Tree2 (S E : Type) where
  | base (t : BaseTree S E)
  | sub (t : Node (BaseTree S E) E)
  | top (t : Node (Tree1 S E) E)

section accessors
variable {S E : Type} [StoreOps S E]

/-- `len` (src/merkle.rs:1363-1369): for a base tree the store's length. -/
def BaseTree.length (t : BaseTree S E) : Nat := StoreOps.len (E := E) t.store

/-- `leafs` (src/merkle.rs:1416-1418). -/
def Tree1.leafs : Tree1 S E → Nat
  | .base t => t.leafs
  | .sub t => t.leafs
/-- `len` (src/merkle.rs:1363-1369). -/
def Tree1.length : Tree1 S E → Nat
  | .base t => t.length
  | .sub t => t.len
/-- `row_count` (src/merkle.rs:1410-1412). -/
def Tree1.rowCount : Tree1 S E → Nat
  | .base t => t.rowCount
  | .sub t => t.rowCount
/-- `root` (src/merkle.rs:1357-1359). -/
def Tree1.root : Tree1 S E → E
  | .base t => t.root
  | .sub t => t.root

/-- `leafs` (src/merkle.rs:1416-1418). -/
def Tree2.leafs : Tree2 S E → Nat
  | .base t => t.leafs
  | .sub t => t.leafs
  | .top t => t.leafs
/-- `len` (src/merkle.rs:1363-1369). -/
def Tree2.length : Tree2 S E → Nat
  | .base t => t.length
  | .sub t => t.len
  | .top t => t.len
/-- `row_count` (src/merkle.rs:1410-1412). -/
def Tree2.rowCount : Tree2 S E → Nat
  | .base t => t.rowCount
  | .sub t => t.rowCount
  | .top t => t.rowCount
/-- `root` (src/merkle.rs:1357-1359). -/
def Tree2.root : Tree2 S E → E
  | .base t => t.root
  | .sub t => t.root
  | .top t => t.root

/-- `is_empty` (src/merkle.rs:1400-1406). -/
def BaseTree.isEmpty (t : BaseTree S E) : Bool := StoreOps.isEmpty (E := E) t.store
/-- `is_empty` (src/merkle.rs:1400-1406): `true` for compound trees. -/
def Tree1.isEmpty : Tree1 S E → Bool
  | .base t => t.isEmpty
  | .sub _ => true
/-- `is_empty` (src/merkle.rs:1400-1406): `true` for compound trees. -/
def Tree2.isEmpty : Tree2 S E → Bool
  | .base t => t.isEmpty
  | .sub _ => true
  | .top _ => true

end accessors

/-! ### Populating a store with leaves -/
section populate
variable {S E : Type} [Element E] [StoreOps S E]
open StoreOps

/-- The `for item in iter` loop of `populate_data` (src/merkle.rs:2029-2044).  An iterator is the list
of results it yields.  Returns the unflushed buffer and the store. -/
def populateLoop (A : Alg E) : List (Res E) → A.σ → Bytes → S → M (Bytes × S)
  | [], _, buf, s => pure (buf, s)
  | item :: items, a, buf, s => do
    let item ← M.ofRes item
    let a := A.reset a
    let (h, a) := A.leaf a item
    let buf := buf ++ Element.toBytes h
    if buf.length ≥ buildDataBlockSize * Element.byteLen E then do
      let s ← copyFromSlice s buf (len (E := E) s)
      populateLoop A items a [] s
    else populateLoop A items a buf s

/-- `populate_data` (src/merkle.rs:2013-2050).  `sync` has no effect in the model. -/
def populateData (A : Alg E) (s : S) (items : List (Res E)) : M S :=
  if isEmpty (E := E) s = false then pure s
  else do
    let (buf, s) ← populateLoop A items A.init [] s
    copyFromSlice s buf (len (E := E) s)

/-- The bytes one `populate_data_par` task writes (src/merkle.rs:2069-2075). -/
def leafChunkBytes (A : Alg E) : List E → A.σ → Bytes
  | [], _ => []
  | e :: es, a =>
    let (h, a) := A.leaf (A.reset a) e
    Element.toBytes h ++ leafChunkBytes A es a

/-- Order in which the tasks of `populate_data_par` take the lock, given their number. -/
def ParOrder := Nat → List Nat

/-- Every task runs exactly once. -/
def ParOrder.Valid (π : ParOrder) : Prop := ∀ n, (π n).Perm (List.range n)

/-- The tasks of `populate_data_par` in the given order. -/
def populateTasks (A : Alg E) (cs : List (List E)) : List Nat → S → M S
  | [], s => pure s
  | t :: ts, s => do
    let s ← copyFromSlice s (leafChunkBytes A (cs.getD t []) A.init) (buildDataBlockSize * t)
    populateTasks A cs ts s

/-- `populate_data_par` (src/merkle.rs:2052-2087). -/
def populateDataPar (A : Alg E) (π : ParOrder) (s : S) (items : List E) : M S :=
  if isEmpty (E := E) s = false then pure s
  else
    let cs := chunks buildDataBlockSize items
    populateTasks A cs (π cs.length) s

end populate

/-- `x.expect(msg)` on a `Result`: an error becomes a panic. -/
def M.expect {α : Type} (msg : String) (x : M α) : M α := fun fs =>
  match x fs with
  | (.error (.err _), fs) => (.error (.panic msg), fs)
  | r => r

/-! ### Constructors of base trees -/
namespace BaseTree
variable {S E : Type} [Element E] [Store S E] [FloatRows]
open StoreOps Store

/-- The checks shared by the constructors from leaves (src/merkle.rs:1727-1736): number of nodes and
of rows. -/
def sizes (b leafs : Nat) : Res (Nat × Nat) := do
  ensure (leafs > 1) "not enough leaves"
  ensure (nextPow2 leafs = leafs) "size MUST be a power of 2"
  ensure (nextPow2 b = b) "branches MUST be a power of 2"
  let size ← merkleTreeLen leafs b
  .ok (size, merkleTreeRowCount leafs b)

/-- `try_from_iter` (src/merkle.rs:1722-1755).  `hint` is the upper bound of the iterator's size hint,
`items` what it yields. -/
def tryFromIter (A : Alg E) (b : Nat) (σ : Sched) (hint : Option Nat) (items : List (Res E)) :
    M (BaseTree S E) :=
  match hint with
  | none => M.throw (.err "could not get size hint from iterator")
  | some leafs => do
    let (size, rowCount) ← M.ofRes (sizes b leafs)
    let s : S ← Store.new size
    let s ← populateData A s items
    let (root, s) ← Store.build A b σ s leafs rowCount none
    pure ⟨s, leafs, size, rowCount, root⟩

/-- `try_from_iter_with_config` (src/merkle.rs:1760-1817). -/
def tryFromIterWithConfig (A : Alg E) (b : Nat) (σ : Sched) (hint : Option Nat)
    (items : List (Res E)) (config : StoreConfig) : M (BaseTree S E) :=
  match hint with
  | none => M.throw (.err "could not get size hint from iterator")
  | some leafs => do
    let (size, rowCount) ← M.ofRes (sizes b leafs)
    let s : S ← Store.newWithConfig size b config
    if loadedFromDisk (E := E) s then do
      let root ← M.get fun fs => StoreOps.last fs s
      pure ⟨s, leafs, size, rowCount, root⟩
    else do
      let s ← M.expect "failed to populate data" (populateData A s items)
      let (root, s) ← Store.build A b σ s leafs rowCount (some config)
      pure ⟨s, leafs, size, rowCount, root⟩

/-- `new` (src/merkle.rs:334-338), for an iterator whose size hint is exact. -/
def new (A : Alg E) (b : Nat) (σ : Sched) (data : List E) : M (BaseTree S E) :=
  tryFromIter A b σ (some data.length) (data.map .ok)

/-- `new_with_config` (src/merkle.rs:341-346). -/
def newWithConfig (A : Alg E) (b : Nat) (σ : Sched) (data : List E) (config : StoreConfig) :
    M (BaseTree S E) :=
  tryFromIterWithConfig A b σ (some data.length) (data.map .ok) config

/-- The elements `from_data` feeds to `try_from_iter` (src/merkle.rs:352-357): one hasher, reset
before each datum. -/
def dataItems (A : Alg E) : List (HashableVal A) → A.σ → List E
  | [], _ => []
  | x :: xs, a =>
    let (h, a) := A.hash (x (A.reset a))
    h :: dataItems A xs a

/-- `from_data` (src/merkle.rs:349-358). -/
def fromData (A : Alg E) (b : Nat) (σ : Sched) (data : List (HashableVal A)) : M (BaseTree S E) :=
  tryFromIter A b σ (some data.length) ((dataItems A data A.init).map .ok)

/-- `from_data_with_config` (src/merkle.rs:361-374). -/
def fromDataWithConfig (A : Alg E) (b : Nat) (σ : Sched) (data : List (HashableVal A))
    (config : StoreConfig) : M (BaseTree S E) :=
  tryFromIterWithConfig A b σ (some data.length) ((dataItems A data A.init).map .ok) config

/-- `from_par_iter` (src/merkle.rs:1611-1647). -/
def fromParIter (A : Alg E) (b : Nat) (σ : Sched) (π : ParOrder) (items : List E) :
    M (BaseTree S E) := do
  let leafs := items.length
  let (size, rowCount) ← M.ofRes (sizes b leafs)
  let s : S ← M.expect "failed to create data store" (Store.new size)
  let s ← populateDataPar A π s items
  let (root, s) ← Store.build A b σ s leafs rowCount none
  pure ⟨s, leafs, size, rowCount, root⟩

/-- `from_par_iter_with_config` (src/merkle.rs:1650-1707). -/
def fromParIterWithConfig (A : Alg E) (b : Nat) (σ : Sched) (π : ParOrder) (items : List E)
    (config : StoreConfig) : M (BaseTree S E) := do
  let leafs := items.length
  let (size, rowCount) ← M.ofRes (sizes b leafs)
  let s : S ← Store.newWithConfig size b config
  if loadedFromDisk (E := E) s then do
    let root ← M.get fun fs => StoreOps.last fs s
    pure ⟨s, leafs, size, rowCount, root⟩
  else do
    let s ← populateDataPar A π s items
    let (root, s) ← Store.build A b σ s leafs rowCount (some config)
    pure ⟨s, leafs, size, rowCount, root⟩

/-- The check and count of `from_byte_slice` (src/merkle.rs:1542-1550). -/
def sliceLeafs (E : Type) [Element E] (bytes : Bytes) : Res Nat := do
  let r ← modP bytes.length (Element.byteLen E)
  ensure (r = 0) "not a multiple of byte_len"
  .ok (bytes.length / Element.byteLen E)

/-- `from_byte_slice` (src/merkle.rs:1541-1580).  The bytes are taken as leaf hashes as they are. -/
def fromByteSlice (A : Alg E) (b : Nat) (σ : Sched) (bytes : Bytes) : M (BaseTree S E) := do
  let leafs ← M.ofRes (sliceLeafs E bytes)
  let (size, rowCount) ← M.ofRes (sizes b leafs)
  let s : S ← Store.newFromSlice size bytes
  let (root, s) ← Store.build A b σ s leafs rowCount none
  pure ⟨s, leafs, size, rowCount, root⟩

/-- `from_byte_slice_with_config` (src/merkle.rs:1499-1538). -/
def fromByteSliceWithConfig (A : Alg E) (b : Nat) (σ : Sched) (bytes : Bytes)
    (config : StoreConfig) : M (BaseTree S E) := do
  let leafs ← M.ofRes (sliceLeafs E bytes)
  let (size, rowCount) ← M.ofRes (sizes b leafs)
  let s : S ← Store.newFromSliceWithConfig size b bytes config
  let (root, s) ← Store.build A b σ s leafs rowCount (some config)
  pure ⟨s, leafs, size, rowCount, root⟩

/-- `from_data_store` (src/merkle.rs:379-422). -/
def fromDataStore (b sub top : Nat) (s : S) (leafs : Nat) (fs : FS) : Res (BaseTree S E) := do
  ensure (sub = 0) "Data stores must not have sub-tree layers"
  ensure (top = 0) "Data stores must not have a top layer"
  ensure (nextPow2 leafs = leafs) "leafs MUST be a power of 2"
  ensure (nextPow2 b = b) "branches MUST be a power of 2"
  let treeLen ← merkleTreeLen leafs b
  ensure (treeLen = StoreOps.len (E := E) s) "Inconsistent tree data"
  let v ← isMerkleTreeSizeValid leafs b
  ensure (v = true) "MerkleTree size is invalid given the arity"
  let root ← StoreOps.last fs s
  .ok ⟨s, leafs, treeLen, merkleTreeRowCount leafs b, root⟩

/-- The checks of `from_tree_slice` (src/merkle.rs:429-453). -/
def treeSliceLen (E : Type) [Element E] (b sub top : Nat) (data : Bytes) (leafs : Nat) :
    Res Nat := do
  ensure (sub = 0) "Data slice must not have sub-tree layers"
  ensure (top = 0) "Data slice must not have a top layer"
  let treeLen ← merkleTreeLen leafs b
  let n ← divP data.length (Element.byteLen E)
  ensure (treeLen = n) "Inconsistent tree data"
  let v ← isMerkleTreeSizeValid leafs b
  ensure (v = true) "MerkleTree size is invalid given the arity"
  .ok treeLen

/-- `from_tree_slice` (src/merkle.rs:425-465). -/
def fromTreeSlice (b sub top : Nat) (data : Bytes) (leafs : Nat) : M (BaseTree S E) := do
  let treeLen ← M.ofRes (treeSliceLen E b sub top data leafs)
  let s : S ← Store.newFromSlice treeLen data
  let root ← M.get fun fs => StoreOps.last fs s
  pure ⟨s, leafs, treeLen, merkleTreeRowCount leafs b, root⟩

/-- `from_tree_slice_with_config` (src/merkle.rs:468-511). -/
def fromTreeSliceWithConfig (b sub top : Nat) (data : Bytes) (leafs : Nat) (config : StoreConfig) :
    M (BaseTree S E) := do
  let treeLen ← M.ofRes (treeSliceLen E b sub top data leafs)
  let s : S ← Store.newFromSliceWithConfig treeLen b data config
  let root ← M.get fun fs => StoreOps.last fs s
  pure ⟨s, leafs, treeLen, merkleTreeRowCount leafs b, root⟩

end BaseTree

/-! ### Reading and proofs of base trees -/
namespace BaseTree
variable {S E : Type} [Element E] [StoreOps S E]
open StoreOps

/-- `read_at` (src/merkle.rs:1464-1467). -/
def readAt (fs : FS) (t : BaseTree S E) (i : Nat) : Res E := StoreOps.readAt fs t.store i

/-- `read_range` (src/merkle.rs:1471-1478). -/
def readRange (fs : FS) (t : BaseTree S E) (start stop : Nat) : Res (List E) := do
  ensure (start < stop) "start must be less than end"
  StoreOps.readRange fs t.store start stop

/-- `read_range_into` (src/merkle.rs:1480-1487). -/
def readRangeInto (fs : FS) (t : BaseTree S E) (start stop : Nat) (buf : Bytes) : Res Bytes := do
  ensure (start < stop) "start must be less than end"
  StoreOps.readRangeInto (E := E) fs t.store start stop buf

/-- `read_into` (src/merkle.rs:1490-1496). -/
def readInto (fs : FS) (t : BaseTree S E) (pos : Nat) (buf : Bytes) : Res Bytes :=
  StoreOps.readInto (E := E) fs t.store pos buf

/-- The inner `for k in hash_index..hash_index + branches` loop of the proof functions
(src/merkle.rs:970-974): reads every position except `j`. -/
def siblings (rd : Nat → Res E) (j : Nat) : (n k : Nat) → Res (List E)
  | 0, _ => .ok []
  | n + 1, k =>
    if k ≠ j then do
      let e ← rd k
      let es ← siblings rd j n (k + 1)
      .ok (e :: es)
    else siblings rd j n (k + 1)

/-- The `while base + 1 < self.len()` loop of `gen_proof` (src/merkle.rs:968-981).  Returns what is
pushed on `lemma` and on `path`. -/
def proofLoop (rd : Nat → Res E) (b total : Nat) :
    Nat → (base width j : Nat) → Res (List E × List Nat)
  | 0, _, _, _ => .error .diverge
  | f + 1, base, width, j =>
    if base + 1 < total then do
      let hashIndex := j / b * b
      let sibs ← siblings (fun k => rd (base + k)) j b hashIndex
      let shift := log2Pow2 b
      let (l, p) ← proofLoop rd b total f (base + width) (width >>> shift) (j >>> shift)
      .ok (sibs ++ l, j % b :: p)
    else .ok ([], [])

/-- `gen_proof` of a base tree (src/merkle.rs:932-998).  Every iteration either advances `base` or
halves `j`, so the fuel exceeds the length of every terminating run. -/
def genProof (b sub top : Nat) (fs : FS) (t : BaseTree S E) (i : Nat) : Res (Proof E) := do
  ensure (i < t.leafs) "out of bounds"
  ensure (t.leafs = nextPow2 t.leafs) "Must be a power of 2 tree"
  ensure (b = nextPow2 b) "branches must be a power of 2"
  let lemmaLen ← merkleProofLemmaLen t.rowCount b
  let pathLen ← subP t.rowCount 1
  ensure (sub = 0) "Data slice must not have sub-tree layers"
  ensure (top = 0) "Data slice must not have a top layer"
  let item ← t.readAt fs i
  let (sibs, path) ← proofLoop (t.readAt fs) b t.length (t.length + t.leafs + 2) 0 t.leafs i
  let lem := item :: sibs ++ [t.root]
  ensure (lem.length = lemmaLen) "Invalid proof lemma length"
  ensure (path.length = pathLen) "Invalid proof path length"
  Proof.new b 0 0 none lem path

/-- The loop of `gen_proof_with_partial_tree` (src/merkle.rs:1309-1336). -/
def cachedProofLoop (rd prd : Nat → Res E) (b total dataWidth cacheIndexStart : Nat) :
    Nat → (base width partialBase segmentWidth segmentShift j : Nat) → Res (List E × List Nat)
  | 0, _, _, _, _, _, _ => .error .diverge
  | f + 1, base, width, partialBase, segmentWidth, segmentShift, j =>
    if base + 1 < total then do
      let hashIndex := j / b * b
      let sibs ← siblings (fun k =>
          if base + k < dataWidth ∨ base + k ≥ cacheIndexStart then rd (base + k)
          else do
            let p ← subP (partialBase + k) segmentShift
            prd p) j b hashIndex
      let shift := log2Pow2 b
      let (l, p) ← cachedProofLoop rd prd b total dataWidth cacheIndexStart f (base + width)
        (width >>> shift) (partialBase + segmentWidth) (segmentWidth >>> shift)
        (segmentShift >>> shift) (j >>> shift)
      .ok (sibs ++ l, j % b :: p)
    else .ok ([], [])

/-- `gen_proof_with_partial_tree` (src/merkle.rs:1229-1353). -/
def genProofWithPartialTree [FloatRows] (b sub top : Nat) (fs : FS) (t : BaseTree S E)
    (i rowsToDiscard : Nat) (pt : BaseTree (VecStore E) E) : Res (Proof E) := do
  ensure (i < t.leafs) "out of bounds"
  ensure (t.leafs = nextPow2 t.leafs) "Must be a power of 2 tree"
  ensure (b = nextPow2 b) "branches must be a power of 2"
  let dataWidth := t.leafs
  let totalSize ← merkleTreeLen dataWidth b
  let cacheSize ← merkleTreeCacheSize t.leafs b rowsToDiscard
  let cacheIndexStart ← subP totalSize cacheSize
  let cachedLeafs ← merkleTreeLeafs cacheSize b
  ensure (cachedLeafs = nextPow2 cachedLeafs) "Cached leafs size must be a power of 2"
  let segmentWidth ← divP t.leafs cachedLeafs
  let q ← divP i segmentWidth
  let segmentStart := q * segmentWidth
  let lemmaLen ← merkleProofLemmaLen t.rowCount b
  let pathLen ← subP t.rowCount 1
  ensure (sub = 0) "Data slice must not have sub-tree layers"
  ensure (top = 0) "Data slice must not have a top layer"
  let item ← t.readAt fs i
  let (sibs, path) ← cachedProofLoop (t.readAt fs) (pt.readAt fs) b t.length dataWidth
    cacheIndexStart (t.length + t.leafs + 2) 0 t.leafs 0 segmentWidth segmentStart i
  let lem := item :: sibs ++ [t.root]
  ensure (lem.length = lemmaLen) "Invalid proof lemma length"
  ensure (path.length = pathLen) "Invalid proof path length"
  Proof.new b 0 0 none lem path

/-- `build_partial_tree` (src/merkle.rs:828-856). -/
def buildPartialTree [FloatRows] (A : Alg E) (b : Nat) (σ : Sched) (s : VecStore E)
    (leafs rowCount : Nat) : M (BaseTree (VecStore E) E) := do
  let (root, s) ← Store.build A b σ s leafs rowCount none
  let treeLen ← M.ofRes (merkleTreeLen leafs b)
  mEnsure (treeLen = s.els.length) "Inconsistent tree data"
  let v ← M.ofRes (isMerkleTreeSizeValid leafs b)
  mEnsure (v = true) "MerkleTree size is invalid given the arity"
  pure ⟨s, leafs, treeLen, rowCount, root⟩

omit [Element E] [StoreOps S E] in
/-- The number of rows `gen_cached_proof` takes as discarded (src/merkle.rs:1140-1147). -/
def effectiveDiscard [FloatRows] (leafs b : Nat) : Option Nat → Nat
  | some r => min r (defaultRowsToDiscard leafs b)
  | none => defaultRowsToDiscard leafs b

/-- `gen_cached_proof` of a base tree (src/merkle.rs:1119-1223).  The temporary tree lives in memory;
`σ` schedules its build. -/
def genCachedProof [FloatRows] (A : Alg E) (b sub top : Nat) (σ : Sched) (t : BaseTree S E)
    (i : Nat) (rowsToDiscard : Option Nat) : M (Proof E) := do
  mEnsure (i < t.leafs) "out of bounds"
  mEnsure (t.leafs = nextPow2 t.leafs) "The size of the data layer must be a power of 2"
  let totalSize ← M.ofRes (merkleTreeLen t.leafs b)
  let rows := effectiveDiscard t.leafs b rowsToDiscard
  let cacheSize ← M.ofRes (merkleTreeCacheSize t.leafs b rows)
  mEnsure (cacheSize < totalSize) "Generate a partial proof with all data available?"
  let cachedLeafs ← M.ofRes (merkleTreeLeafs cacheSize b)
  mEnsure (cachedLeafs = nextPow2 cachedLeafs) "The size of the cached leafs must be a power of 2"
  let cacheRowCount := merkleTreeRowCount cachedLeafs b
  let d ← M.ofRes (subP t.rowCount cacheRowCount)
  let partialRowCount := d + 1
  let segmentWidth ← M.ofRes (divP t.leafs cachedLeafs)
  let q ← M.ofRes (divP i segmentWidth)
  let segmentStart := q * segmentWidth
  let segmentEnd := segmentStart + segmentWidth
  let data ← M.get fun fs => StoreOps.readRangeInto (E := E) fs t.store segmentStart segmentEnd
    (List.replicate (segmentWidth * Element.byteLen E) 0)
  let ps : VecStore E ← Store.newFromSlice segmentWidth data
  mEnsure (ps.els.length = segmentWidth) "Inconsistent store length"
  let _ ← M.ofRes (merkleTreeLen segmentWidth b)
  let pt ← buildPartialTree A b σ ps segmentWidth partialRowCount
  mEnsure (partialRowCount = pt.rowCount) "Inconsistent partial tree row_count"
  M.get fun fs => genProofWithPartialTree b sub top fs t i rows pt

omit [StoreOps S E] in
/-- `compact` (src/merkle.rs:1374-1381). -/
def compact [Store S E] (b : Nat) (t : BaseTree S E) (config : StoreConfig) (version : Nat)
    (fs : FS) : Res Bool × BaseTree S E × FS :=
  let (r, s, fs) := Store.compact t.store b config version fs
  (r, { t with store := s }, fs)

omit [StoreOps S E] in
/-- `reinit` (src/merkle.rs:1384-1390). -/
def reinit [Store S E] (t : BaseTree S E) : M (BaseTree S E) := do
  let s ← Store.reinit t.store
  pure { t with store := s }

omit [StoreOps S E] in
/-- `delete` (src/merkle.rs:1394-1396): the tree itself is not looked at. -/
def delete [Store S E] (_t : BaseTree S E) (config : StoreConfig) : M Unit :=
  Store.delete (S := S) config

end BaseTree

/-! ### Compound trees -/
namespace Node
variable {C E : Type}

/-- `tree_index` and the tree there (src/merkle.rs:871-884, 1440-1445). -/
def locate (leafsOf : C → Nat) (t : Node C E) (arity i : Nat) : Res (Nat × C × Nat) := do
  let per ← divP t.leafs arity
  let ti ← divP i per
  let c ← idxP t.children ti
  let li ← modP i (leafsOf c)
  .ok (ti, c, li)

/-- `read_at` of a compound tree (src/merkle.rs:1434-1463). -/
def readAt (leafsOf : C → Nat) (rd : C → Nat → Res E) (t : Node C E) (arity i : Nat) : Res E := do
  ensure (arity = t.children.length) "tree shape mis-match"
  let (_, c, li) ← locate leafsOf t arity i
  rd c li

/-- `lemma` of a compound layer (src/merkle.rs:900-918): the roots of the other trees, then the
compound root. -/
def layerLemma (rootOf : C → E) (t : Node C E) (ti : Nat) : (n i : Nat) → Res (List E)
  | 0, _ => .ok [t.root]
  | n + 1, i =>
    if i ≠ ti then do
      let c ← idxP t.children i
      let l ← layerLemma rootOf t ti n (i + 1)
      .ok (rootOf c :: l)
    else layerLemma rootOf t ti n (i + 1)

/-- `gen_sub_tree_proof` (src/merkle.rs:862-924).  `gen` is the children's `gen_proof`; `pTop` and
`pSub` are the arities given to `Proof::new`. -/
def genSubTreeProof (leafsOf : C → Nat) (rootOf : C → E) (gen : C → Nat → Res (Proof E))
    (b pTop pSub : Nat) (t : Node C E) (arity i : Nat) : Res (Proof E) := do
  ensure (arity ≠ 0) "Invalid sub-tree arity"
  let per ← divP t.leafs arity
  let ti ← divP i per
  ensure (arity = t.children.length) "layer shape mis-match"
  let c ← idxP t.children ti
  let li ← modP i (leafsOf c)
  let sp ← gen c li
  let lem ← layerLemma rootOf t ti arity 0
  Proof.new b pTop pSub (some sp) lem [ti]

/-- `gen_cached_top_tree_proof` and `gen_cached_sub_tree_proof` (src/merkle.rs:1004-1100). -/
def genCachedLayerProof (leafsOf : C → Nat) (rootOf : C → E) (gen : C → Nat → M (Proof E))
    (b pTop pSub : Nat) (t : Node C E) (arity i : Nat) : M (Proof E) := do
  mEnsure (arity ≠ 0) "Invalid tree arity"
  mEnsure (i < t.leafs) "out of bounds"
  let (ti, c, li) ← M.ofRes (locate leafsOf t arity i)
  let sp ← gen c li
  let lem ← M.ofRes (layerLemma rootOf t ti arity 0)
  M.ofRes (Proof.new b pTop pSub (some sp) lem [ti])

/-- The part `from_trees` and `from_sub_trees` share (src/merkle.rs:524-562, 590-621). -/
def assemble (A : Alg E) (leafsOf lenOf rowsOf : C → Nat) (rootOf : C → E) (arity : Nat)
    (cs : List C) : Res (Node C E) := do
  ensure (arity > 0) "Cannot use this constructor if not constructing a structure with sub-trees"
  ensure (∀ c ∈ cs, some (rowsOf c) = cs.head?.map rowsOf)
    "All passed in trees must have the same row_count"
  ensure (∀ c ∈ cs, some (lenOf c) = cs.head?.map lenOf)
    "All passed in trees must have the same length"
  ensure (cs.length = arity) "Length of trees MUST equal the number of layer nodes"
  let c0 ← idxP cs 0
  .ok ⟨cs, cs.foldl (fun n c => n + leafsOf c) 0, lenOf c0 * cs.length + 1, rowsOf c0 + 1,
    A.nodeHash (cs.map rootOf) 1⟩

end Node

section compound
variable {S E : Type} [Element E] [StoreOps S E]

/-- `from_trees` (src/merkle.rs:517-577).  The case of no sub-tree nodes (540-547) cannot be reached:
the first check excludes it. -/
def fromTrees (A : Alg E) (sub : Nat) (cs : List (BaseTree S E)) :
    Res (Node (BaseTree S E) E) :=
  Node.assemble A BaseTree.leafs BaseTree.length BaseTree.rowCount BaseTree.root sub cs

/-- `from_sub_trees` (src/merkle.rs:583-636). -/
def fromSubTrees (A : Alg E) (top : Nat) (cs : List (Tree1 S E)) : Res (Node (Tree1 S E) E) :=
  Node.assemble A Tree1.leafs Tree1.length Tree1.rowCount Tree1.root top cs

/-- The grouping loop of `from_sub_trees_as_trees` (src/merkle.rs:670-674): the last `sub` trees are
split off first, so the groups come out in reverse (and are reversed afterwards). -/
def splitGroups {C : Type} (sub : Nat) : Nat → List C → Res (List (List C))
  | 0, _ => .ok []
  | n + 1, cs => do
    let at_ ← subP cs.length sub
    let gs ← splitGroups sub n (cs.take at_)
    .ok (cs.drop at_ :: gs)

/-- `from_sub_trees_as_trees` (src/merkle.rs:643-708). -/
def fromSubTreesAsTrees (A : Alg E) (sub top : Nat) (cs : List (BaseTree S E)) :
    Res (Node (Tree1 S E) E) := do
  ensure (top > 0) "Cannot use from_sub_trees if not constructing a structure with sub-trees"
  ensure (∀ c ∈ cs, some c.rowCount = cs.head?.map BaseTree.rowCount)
    "All passed in trees must have the same row_count"
  ensure (∀ c ∈ cs, some c.length = cs.head?.map BaseTree.length)
    "All passed in trees must have the same length"
  ensure (cs.length = top * sub) "Length of trees MUST equal the number of top layer nodes"
  let groups ← splitGroups sub top cs
  let subTrees ← groups.reverse.mapM fun g => do
    let t ← fromTrees A sub g
    .ok (Tree1.sub t)
  let c0 ← idxP subTrees 0
  .ok ⟨subTrees, subTrees.foldl (fun n c => n + c.leafs) 0,
    subTrees.foldl (fun n c => n + c.length) 0 + 1, c0.rowCount + 1,
    A.nodeHash (subTrees.map Tree1.root) 1⟩

namespace Tree1

/-- `read_at` (src/merkle.rs:1432-1469) with `TopTreeArity = 0`. -/
def readAt (sub : Nat) (fs : FS) : Tree1 S E → Nat → Res E
  | .base t, i => t.readAt fs i
  | .sub t, i => t.readAt BaseTree.leafs (BaseTree.readAt fs) sub i

/-- `read_range` (src/merkle.rs:1471-1478): a compound tree has no store of its own. -/
def readRange (fs : FS) (t : Tree1 S E) (start stop : Nat) : Res (List E) := do
  ensure (start < stop) "start must be less than end"
  match t with
  | .base t => StoreOps.readRange fs t.store start stop
  | .sub _ => .error (.err "data store is required to be initialised")

/-- `gen_proof` (src/merkle.rs:928-1000) with `TopTreeArity = 0`. -/
def genProof (b sub : Nat) (fs : FS) : Tree1 S E → Nat → Res (Proof E)
  | .base t, i => t.genProof b sub 0 fs i
  | .sub t, i =>
    t.genSubTreeProof BaseTree.leafs BaseTree.root (BaseTree.genProof b 0 0 fs) b 0 sub sub i

/-- `gen_cached_proof` (src/merkle.rs:1111-1225) with `TopTreeArity = 0`. -/
def genCachedProof [FloatRows] (A : Alg E) (b sub : Nat) (σ : Sched) (t : Tree1 S E) (i : Nat)
    (rows : Option Nat) : M (Proof E) :=
  match t with
  | .base t => t.genCachedProof A b sub 0 σ i rows
  | .sub t =>
    t.genCachedLayerProof BaseTree.leafs BaseTree.root
      (fun c i => c.genCachedProof A b 0 0 σ i rows) b 0 sub sub i

end Tree1

namespace Tree2

/-- `read_at` (src/merkle.rs:1432-1469). -/
def readAt (sub top : Nat) (fs : FS) : Tree2 S E → Nat → Res E
  | .base t, i => t.readAt fs i
  | .sub t, i => t.readAt BaseTree.leafs (BaseTree.readAt fs) sub i
  | .top t, i => t.readAt Tree1.leafs (Tree1.readAt sub fs) top i

/-- `gen_proof` (src/merkle.rs:928-1000). -/
def genProof (b sub top : Nat) (fs : FS) : Tree2 S E → Nat → Res (Proof E)
  | .base t, i => t.genProof b sub top fs i
  | .sub t, i =>
    t.genSubTreeProof BaseTree.leafs BaseTree.root (BaseTree.genProof b 0 0 fs) b top sub sub i
  | .top t, i =>
    t.genSubTreeProof Tree1.leafs Tree1.root (Tree1.genProof b sub fs) b top sub top i

/-- `gen_cached_proof` (src/merkle.rs:1111-1225). -/
def genCachedProof [FloatRows] (A : Alg E) (b sub top : Nat) (σ : Sched) (t : Tree2 S E) (i : Nat)
    (rows : Option Nat) : M (Proof E) :=
  match t with
  | .base t => t.genCachedProof A b sub top σ i rows
  | .sub t =>
    t.genCachedLayerProof BaseTree.leafs BaseTree.root
      (fun c i => c.genCachedProof A b 0 0 σ i rows) b top sub sub i
  | .top t =>
    t.genCachedLayerProof Tree1.leafs Tree1.root
      (fun c i => c.genCachedProof A b sub σ i rows) b top sub top i

end Tree2
end compound

/-! ### Constructors of compound trees from slices, stores and configurations -/
section more
variable {S E : Type} [Element E] [Store S E] [FloatRows]

/-- Runs `f` on the elements in order, collecting the results (`for .. { v.push(f(x)?) }`). -/
def collectM {α β : Type} (f : α → M β) : List α → M (List β)
  | [] => pure []
  | x :: xs => do
    let y ← f x
    let ys ← collectM f xs
    pure (y :: ys)

/-- `from_slices` (src/merkle.rs:714-726). -/
def fromSlices (A : Alg E) (b sub : Nat) (datas : List Bytes) (leafs : Nat) :
    M (Node (BaseTree S E) E) := do
  let ts ← collectM (fun d => BaseTree.fromTreeSlice b 0 0 d leafs) datas
  M.ofRes (fromTrees A sub ts)

/-- `from_slices_with_configs` (src/merkle.rs:733-750): `configs[i]` panics when there are too
few. -/
def fromSlicesWithConfigs (A : Alg E) (b sub : Nat) (datas : List Bytes) (leafs : Nat)
    (configs : List StoreConfig) : M (Node (BaseTree S E) E) := do
  let ts ← collectM (fun (d : Bytes × Nat) => do
    let c ← M.ofRes (idxP configs d.2)
    BaseTree.fromTreeSliceWithConfig b 0 0 d.1 leafs c) datas.zipIdx
  M.ofRes (fromTrees A sub ts)

/-- `from_stores` (src/merkle.rs:757-769). -/
def fromStores (A : Alg E) (b sub leafs : Nat) (stores : List S) : M (Node (BaseTree S E) E) := do
  let ts ← collectM (fun s => M.get (BaseTree.fromDataStore b 0 0 s leafs)) stores
  M.ofRes (fromTrees A sub ts)

/-- `from_store_configs` (src/merkle.rs:776-795). -/
def fromStoreConfigs (A : Alg E) (b sub leafs : Nat) (configs : List StoreConfig) :
    M (Node (BaseTree S E) E) := do
  let ts ← collectM (fun c => do
    let n ← M.ofRes (merkleTreeLen leafs b)
    let s : S ← Store.newWithConfig n b c
    M.get (BaseTree.fromDataStore b 0 0 s leafs)) configs
  M.ofRes (fromTrees A sub ts)

/-- The loop of `from_sub_tree_store_configs` (src/merkle.rs:809-822): `n` groups of `per`. -/
def configGroups {α : Type} (per : Nat) : Nat → List α → List (List α)
  | 0, _ => []
  | n + 1, cs => cs.take per :: configGroups per n (cs.drop per)

/-- `from_sub_tree_store_configs` (src/merkle.rs:803-825): dividing by a zero top arity panics. -/
def fromSubTreeStoreConfigs (A : Alg E) (b sub top leafs : Nat) (configs : List StoreConfig) :
    M (Node (Tree1 S E) E) := do
  let per ← M.ofRes (divP configs.length top)
  let ts : List (Tree1 S E) ← collectM (fun cs => do
    let t ← fromStoreConfigs A b sub leafs cs
    pure (Tree1.sub t)) (configGroups per top configs)
  M.ofRes (fromSubTrees A top ts)

end more

section replica
variable {E : Type} [Element E] [FloatRows]

/-- `from_store_configs_and_replica` (src/merkle.rs:230-266). -/
def fromStoreConfigsAndReplica (A : Alg E) (b sub leafs : Nat) (configs : List StoreConfig)
    (rc : ReplicaConfig) : M (Node (BaseTree (LevelCacheStore E) E) E) := do
  mEnsure (configs.length = rc.offsets.length) "Config and Replica offset lists lengths are invalid"
  let ts ← collectM (fun (c : StoreConfig × Nat) => do
    let n ← M.ofRes (merkleTreeLen leafs b)
    let r ← ExternalReader.newFromConfig rc c.2
    let s : LevelCacheStore E ← LevelCacheStore.newFromDiskWithReader n b c.1 r
    M.get (BaseTree.fromDataStore b 0 0 s leafs)) configs.zipIdx
  M.ofRes (fromTrees A sub ts)

/-- `from_sub_tree_store_configs_and_replica` (src/merkle.rs:275-321). -/
def fromSubTreeStoreConfigsAndReplica (A : Alg E) (b sub top leafs : Nat)
    (configs : List StoreConfig) (rc : ReplicaConfig) :
    M (Node (Tree1 (LevelCacheStore E) E) E) := do
  mEnsure (configs.length = rc.offsets.length) "Config and Replica offset lists lengths are invalid"
  let per ← M.ofRes (divP configs.length top)
  let ts ← collectM (fun (g : List StoreConfig × List Nat) => do
    let t ← fromStoreConfigsAndReplica A b sub leafs g.1 ⟨rc.path, g.2⟩
    pure (Tree1.sub t)) ((configGroups per top configs).zip (configGroups per top rc.offsets))
  M.ofRes (fromSubTrees A top ts)

/-- `set_external_reader_path` (src/merkle.rs:212-221), on a base tree (on others it returns
`Err`). -/
def BaseTree.setExternalReaderPath (t : BaseTree (LevelCacheStore E) E) (path : String) :
    M (BaseTree (LevelCacheStore E) E) := do
  let r ← ExternalReader.newFromPath path
  pure { t with store := t.store.setExternalReader r }

end replica
end Verif
