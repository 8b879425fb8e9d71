import Verif.Model.Build64
/-
Proofs from cached trees, and compound trees, on 64-bit words (src/merkle.rs:517-860, 862-924,
1004-1353), with every sum, difference, product and shift taken on words as in `Sizing64`.
-/
namespace Verif
open Word StoreOps

/-- `StoreConfig::default_rows_to_discard` (src/store/mod.rs:150-173). -/
def defaultRowsToDiscard64 [FloatRows] (o : Overflow) (leafs branches : Nat) : Res Nat := do
  let rowCount ← merkleTreeRowCount64 o leafs branches
  if rowCount ≤ 2 then .ok 0
  else if rowCount = 3 then .ok 1
  else do
    let maxRows ← sub o rowCount 2
    if branches = 2 then .ok (min maxRows 7)
    else if branches = 4 then .ok (min maxRows 5)
    else .ok (min maxRows 2)

/-! ### Proofs from cached trees -/
namespace BaseTree
variable {S E : Type} [Element E] [StoreOps S E] {o : Overflow}

/-- The inner loop of `gen_proof_with_partial_tree` (src/merkle.rs:1311-1323): every position but `j`
is read, from the tree or from the partial tree. -/
def cachedSiblings64 (o : Overflow) (rd prd : Nat → Res E)
    (dataWidth cacheIndexStart base partialBase segmentShift j : Nat) : (n k : Nat) → Res (List E)
  | 0, _ => .ok []
  | n + 1, k =>
    if k ≠ j then do
      let p ← add o base k
      let e ←
        (if p < dataWidth ∨ p ≥ cacheIndexStart then rd p
         else do
          let q ← add o partialBase k
          let q ← Word.sub o q segmentShift
          prd q)
      let es ← cachedSiblings64 o rd prd dataWidth cacheIndexStart base partialBase segmentShift j n (k + 1)
      .ok (e :: es)
    else cachedSiblings64 o rd prd dataWidth cacheIndexStart base partialBase segmentShift j n (k + 1)

/-- The loop of `gen_proof_with_partial_tree` (src/merkle.rs:1309-1336). -/
def cachedProofLoop64 (o : Overflow) (rd prd : Nat → Res E) (b total dataWidth cacheIndexStart : Nat) :
    Nat → (base width partialBase segmentWidth segmentShift j : Nat) → Res (List E × List Nat)
  | 0, _, _, _, _, _, _ => .error .diverge
  | f + 1, base, width, partialBase, segmentWidth, segmentShift, j => do
    let next ← add o base 1
    if next < total then do
      let q ← divP j b
      let hashIndex ← mul o q b
      let stop ← add o hashIndex b
      let sibs ← cachedSiblings64 o rd prd dataWidth cacheIndexStart base partialBase segmentShift j
        (stop - hashIndex) hashIndex
      let r ← modP j b
      let shift := trailingZeros b
      let base ← add o base width
      let width ← shr o width shift
      let partialBase ← add o partialBase segmentWidth
      let segmentWidth ← shr o segmentWidth shift
      let segmentShift ← shr o segmentShift shift
      let j ← shr o j shift
      let (l, p) ← cachedProofLoop64 o rd prd b total dataWidth cacheIndexStart f base width partialBase
        segmentWidth segmentShift j
      .ok (sibs ++ l, r :: p)
    else .ok ([], [])

/-- `gen_proof_with_partial_tree` (src/merkle.rs:1229-1353). -/
def genProofWithPartialTree64 [FloatRows] (b sub top : Nat) (fs : FS) (t : BaseTree S E)
    (i rowsToDiscard : Nat) (pt : BaseTree (Vec64 o E) E) : Res (Proof E) := do
  ensure (i < t.leafs) "out of bounds"
  let p ← npow2 o t.leafs
  ensure (t.leafs = p) "Must be a power of 2 tree"
  let q ← npow2 o b
  ensure (b = q) "branches must be a power of 2"
  let dataWidth := t.leafs
  let totalSize ← merkleTreeLen64 o dataWidth b
  let cacheSize ← merkleTreeCacheSize64 o t.leafs b rowsToDiscard
  let cacheIndexStart ← Word.sub o totalSize cacheSize
  let cachedLeafs ← merkleTreeLeafs64 o (cacheSize + 1) cacheSize b
  let p ← npow2 o cachedLeafs
  ensure (cachedLeafs = p) "Cached leafs size must be a power of 2"
  let segmentWidth ← divP t.leafs cachedLeafs
  let q ← divP i segmentWidth
  let segmentStart ← mul o q segmentWidth
  let lemmaLen ← merkleProofLemmaLen64 o t.rowCount b
  let pathLen ← Word.sub o t.rowCount 1
  ensure (sub = 0) "Data slice must not have sub-tree layers"
  ensure (top = 0) "Data slice must not have a top layer"
  let item ← t.readAt fs i
  let (sibs, path) ← cachedProofLoop64 o (t.readAt fs) (pt.readAt fs) b t.length dataWidth
    cacheIndexStart (t.length + t.leafs + 2) 0 t.leafs 0 segmentWidth segmentStart i
  let lem := item :: sibs ++ [t.root]
  ensure (lem.length = lemmaLen) "Invalid proof lemma length"
  ensure (path.length = pathLen) "Invalid proof path length"
  Proof.new64 o b 0 0 none lem path

/-- `build_partial_tree` (src/merkle.rs:828-856). -/
def buildPartialTree64 [FloatRows] (A : Alg E) (b : Nat) (σ : Sched) (s : Vec64 o E)
    (leafs rowCount : Nat) : M (BaseTree (Vec64 o E) E) := do
  let (root, s) ← Store.build A b σ s leafs rowCount none
  let treeLen ← M.ofRes (merkleTreeLen64 o leafs b)
  mEnsure (treeLen = s.store.els.length) "Inconsistent tree data"
  let v ← M.ofRes (isMerkleTreeSizeValid64 o leafs b)
  mEnsure (v = true) "MerkleTree size is invalid given the arity"
  pure ⟨s, leafs, treeLen, rowCount, root⟩

omit [Element E] [StoreOps S E] in
/-- The number of rows `gen_cached_proof` takes as discarded (src/merkle.rs:1140-1147). -/
def effectiveDiscard64 [FloatRows] (o : Overflow) (leafs b : Nat) : Option Nat → Res Nat
  | some r => do
    let d ← defaultRowsToDiscard64 o leafs b
    .ok (min r d)
  | none => defaultRowsToDiscard64 o leafs b

/-- `gen_cached_proof` of a base tree (src/merkle.rs:1119-1223).  The buffer for the segment is
allocated before it is read, and enlarged to the size of the partial tree before that is built. -/
def genCachedProof64 [FloatRows] (o : Overflow) (A : Alg E) (b sub top : Nat) (σ : Sched)
    (t : BaseTree S E) (i : Nat) (rowsToDiscard : Option Nat) : M (Proof E) := do
  mEnsure (i < t.leafs) "out of bounds"
  let p ← M.ofRes (npow2 o t.leafs)
  mEnsure (t.leafs = p) "The size of the data layer must be a power of 2"
  let totalSize ← M.ofRes (merkleTreeLen64 o t.leafs b)
  let rows ← M.ofRes (effectiveDiscard64 o t.leafs b rowsToDiscard)
  let cacheSize ← M.ofRes (merkleTreeCacheSize64 o t.leafs b rows)
  mEnsure (cacheSize < totalSize) "Generate a partial proof with all data available?"
  let cachedLeafs ← M.ofRes (merkleTreeLeafs64 o (cacheSize + 1) cacheSize b)
  let p ← M.ofRes (npow2 o cachedLeafs)
  mEnsure (cachedLeafs = p) "The size of the cached leafs must be a power of 2"
  let cacheRowCount ← M.ofRes (merkleTreeRowCount64 o cachedLeafs b)
  let d ← M.ofRes (Word.sub o t.rowCount cacheRowCount)
  let partialRowCount ← M.ofRes (add o d 1)
  let segmentWidth ← M.ofRes (divP t.leafs cachedLeafs)
  let q ← M.ofRes (divP i segmentWidth)
  let segmentStart ← M.ofRes (mul o q segmentWidth)
  let segmentEnd ← M.ofRes (add o segmentStart segmentWidth)
  let n ← M.ofRes (mul o segmentWidth (Element.byteLen E))
  let n ← M.ofRes (allocLen n)
  let data ← M.get fun fs => StoreOps.readRangeInto (E := E) fs t.store segmentStart segmentEnd
    (List.replicate n 0)
  let ps : Vec64 o E ← Store.newFromSlice segmentWidth data
  mEnsure (ps.store.els.length = segmentWidth) "Inconsistent store length"
  let treeLen ← M.ofRes (merkleTreeLen64 o segmentWidth b)
  let n ← M.ofRes (mul o treeLen (Element.byteLen E))
  let _ ← M.ofRes (allocLen n)
  let pt ← buildPartialTree64 A b σ ps segmentWidth partialRowCount
  mEnsure (partialRowCount = pt.rowCount) "Inconsistent partial tree row_count"
  M.get fun fs => genProofWithPartialTree64 b sub top fs t i rows pt

end BaseTree

/-! ### Compound trees -/
section compound
variable {S E : Type} [Element E] [StoreOps S E]

/-- `fold(0, |n, mt| n + ..)` over the trees (src/merkle.rs:552, 611, 684-686). -/
def sumWords {C : Type} (o : Overflow) (f : C → Nat) : Nat → List C → Res Nat
  | n, [] => .ok n
  | n, c :: cs => do
    let n ← add o n (f c)
    sumWords o f n cs

/-- The part `from_trees` and `from_sub_trees` share (src/merkle.rs:524-562, 590-621). -/
def Node.assemble64 {C : Type} (o : Overflow) (A : Alg E) (leafsOf lenOf rowsOf : C → Nat) (rootOf : C → E)
    (arity : Nat) (cs : List C) : Res (Node C E) := do
  ensure (arity > 0) "Cannot use this constructor if not constructing a structure with sub-trees"
  ensure (∀ c ∈ cs, some (rowsOf c) = cs.head?.map rowsOf)
    "All passed in trees must have the same row_count"
  ensure (∀ c ∈ cs, some (lenOf c) = cs.head?.map lenOf)
    "All passed in trees must have the same length"
  ensure (cs.length = arity) "Length of trees MUST equal the number of layer nodes"
  let leafs ← sumWords o leafsOf 0 cs
  let c0 ← idxP cs 0
  let len ← mul o (lenOf c0) cs.length
  let len ← add o len 1
  let rows ← add o (rowsOf c0) 1
  .ok ⟨cs, leafs, len, rows, A.nodeHash (cs.map rootOf) 1⟩

/-- `from_trees` (src/merkle.rs:517-577). -/
def fromTrees64 (o : Overflow) (A : Alg E) (sub : Nat) (cs : List (BaseTree S E)) :
    Res (Node (BaseTree S E) E) :=
  Node.assemble64 o A BaseTree.leafs BaseTree.length BaseTree.rowCount BaseTree.root sub cs

/-- `from_sub_trees` (src/merkle.rs:583-636). -/
def fromSubTrees64 (o : Overflow) (A : Alg E) (top : Nat) (cs : List (Tree1 S E)) :
    Res (Node (Tree1 S E) E) :=
  Node.assemble64 o A Tree1.leafs Tree1.length Tree1.rowCount Tree1.root top cs

/-- `Vec::split_off`: panics beyond the end. -/
def splitOff {C : Type} (cs : List C) (at_ : Nat) : Res (List C × List C) :=
  if at_ ≤ cs.length then .ok (cs.take at_, cs.drop at_) else .error (.panic "`at` split index is out of range")

/-- The grouping loop of `from_sub_trees_as_trees` (src/merkle.rs:670-674). -/
def splitGroups64 {C : Type} (o : Overflow) (sub : Nat) : Nat → List C → Res (List (List C))
  | 0, _ => .ok []
  | n + 1, cs => do
    let at_ ← Word.sub o cs.length sub
    let (rest, g) ← splitOff cs at_
    let gs ← splitGroups64 o sub n rest
    .ok (g :: gs)

/-- `from_sub_trees_as_trees` (src/merkle.rs:643-708). -/
def fromSubTreesAsTrees64 (o : Overflow) (A : Alg E) (sub top : Nat) (cs : List (BaseTree S E)) :
    Res (Node (Tree1 S E) E) := do
  ensure (top > 0) "Cannot use from_sub_trees if not constructing a structure with sub-trees"
  ensure (∀ c ∈ cs, some c.rowCount = cs.head?.map BaseTree.rowCount)
    "All passed in trees must have the same row_count"
  ensure (∀ c ∈ cs, some c.length = cs.head?.map BaseTree.length)
    "All passed in trees must have the same length"
  let n ← mul o top sub
  ensure (cs.length = n) "Length of trees MUST equal the number of top layer nodes"
  let groups ← splitGroups64 o sub top cs
  let subTrees ← groups.reverse.mapM fun g => do
    let t ← fromTrees64 o A sub g
    .ok (Tree1.sub t)
  let leafs ← sumWords o Tree1.leafs 0 subTrees
  let len ← sumWords o Tree1.length 0 subTrees
  let len ← add o len 1
  let c0 ← idxP subTrees 0
  let rows ← add o c0.rowCount 1
  .ok ⟨subTrees, leafs, len, rows, A.nodeHash (subTrees.map Tree1.root) 1⟩

namespace Tree1

/-- `gen_proof` (src/merkle.rs:928-1000) with `TopTreeArity = 0`.  `gen_sub_tree_proof` itself only divides. -/
def genProof64 (o : Overflow) (b sub : Nat) (fs : FS) : Tree1 S E → Nat → Res (Proof E)
  | .base t, i => t.genProof64 o b sub 0 fs i
  | .sub t, i =>
    t.genSubTreeProof BaseTree.leafs BaseTree.root (BaseTree.genProof64 o b 0 0 fs) b 0 sub sub i

/-- `gen_cached_proof` (src/merkle.rs:1111-1225) with `TopTreeArity = 0`. -/
def genCachedProof64 [FloatRows] (o : Overflow) (A : Alg E) (b sub : Nat) (σ : Sched) (t : Tree1 S E) (i : Nat)
    (rows : Option Nat) : M (Proof E) :=
  match t with
  | .base t => t.genCachedProof64 o A b sub 0 σ i rows
  | .sub t =>
    t.genCachedLayerProof BaseTree.leafs BaseTree.root
      (fun c i => c.genCachedProof64 o A b 0 0 σ i rows) b 0 sub sub i

end Tree1

namespace Tree2

/-- `gen_proof` (src/merkle.rs:928-1000). -/
def genProof64 (o : Overflow) (b sub top : Nat) (fs : FS) : Tree2 S E → Nat → Res (Proof E)
  | .base t, i => t.genProof64 o b sub top fs i
  | .sub t, i =>
    t.genSubTreeProof BaseTree.leafs BaseTree.root (BaseTree.genProof64 o b 0 0 fs) b top sub sub i
  | .top t, i =>
    t.genSubTreeProof Tree1.leafs Tree1.root (Tree1.genProof64 o b sub fs) b top sub top i

/-- `gen_cached_proof` (src/merkle.rs:1111-1225). -/
def genCachedProof64 [FloatRows] (o : Overflow) (A : Alg E) (b sub top : Nat) (σ : Sched) (t : Tree2 S E)
    (i : Nat) (rows : Option Nat) : M (Proof E) :=
  match t with
  | .base t => t.genCachedProof64 o A b sub top σ i rows
  | .sub t =>
    t.genCachedLayerProof BaseTree.leafs BaseTree.root
      (fun c i => c.genCachedProof64 o A b 0 0 σ i rows) b top sub sub i
  | .top t =>
    t.genCachedLayerProof Tree1.leafs Tree1.root
      (fun c i => c.genCachedProof64 o A b sub σ i rows) b top sub top i

end Tree2
end compound

/-! ### Constructors of compound trees from slices, stores and configurations -/
section more
variable {S E : Type} [Element E] [Store S E] [FloatRows]

/-- `from_slices` (src/merkle.rs:714-726). -/
def fromSlices64 (o : Overflow) (A : Alg E) (b sub : Nat) (datas : List Bytes) (leafs : Nat) :
    M (Node (BaseTree S E) E) := do
  let ts ← collectM (fun d => BaseTree.fromTreeSlice64 o b 0 0 d leafs) datas
  M.ofRes (fromTrees64 o A sub ts)

/-- `from_slices_with_configs` (src/merkle.rs:733-750). -/
def fromSlicesWithConfigs64 (o : Overflow) (A : Alg E) (b sub : Nat) (datas : List Bytes) (leafs : Nat)
    (configs : List StoreConfig) : M (Node (BaseTree S E) E) := do
  let ts ← collectM (fun (d : Bytes × Nat) => do
    let c ← M.ofRes (idxP configs d.2)
    BaseTree.fromTreeSliceWithConfig64 o b 0 0 d.1 leafs c) datas.zipIdx
  M.ofRes (fromTrees64 o A sub ts)

/-- `from_stores` (src/merkle.rs:757-769). -/
def fromStores64 (o : Overflow) (A : Alg E) (b sub leafs : Nat) (stores : List S) :
    M (Node (BaseTree S E) E) := do
  let ts ← collectM (fun s => M.get (BaseTree.fromDataStore64 o b 0 0 s leafs)) stores
  M.ofRes (fromTrees64 o A sub ts)

/-- `from_store_configs` (src/merkle.rs:776-795). -/
def fromStoreConfigs64 (o : Overflow) (A : Alg E) (b sub leafs : Nat) (configs : List StoreConfig) :
    M (Node (BaseTree S E) E) := do
  let ts ← collectM (fun c => do
    let n ← M.ofRes (merkleTreeLen64 o leafs b)
    let s : S ← Store.newWithConfig n b c
    M.get (BaseTree.fromDataStore64 o b 0 0 s leafs)) configs
  M.ofRes (fromTrees64 o A sub ts)

/-- `from_sub_tree_store_configs` (src/merkle.rs:803-825): `start` and `end` stay below the number of
configurations plus one group. -/
def fromSubTreeStoreConfigs64 (o : Overflow) (A : Alg E) (b sub top leafs : Nat) (configs : List StoreConfig) :
    M (Node (Tree1 S E) E) := do
  let per ← M.ofRes (divP configs.length top)
  let ts : List (Tree1 S E) ← collectM (fun cs => do
    let t ← fromStoreConfigs64 o A b sub leafs cs
    pure (Tree1.sub t)) (configGroups per top configs)
  M.ofRes (fromSubTrees64 o A top ts)

end more

section replica
variable {E : Type} [Element E] [FloatRows]

/-- `from_store_configs_and_replica` (src/merkle.rs:230-266). -/
def fromStoreConfigsAndReplica64 (o : Overflow) (A : Alg E) (b sub leafs : Nat) (configs : List StoreConfig)
    (rc : ReplicaConfig) : M (Node (BaseTree (LevelCache64 o E) E) E) := do
  mEnsure (configs.length = rc.offsets.length) "Config and Replica offset lists lengths are invalid"
  let ts ← collectM (fun (c : StoreConfig × Nat) => do
    let n ← M.ofRes (merkleTreeLen64 o leafs b)
    let r ← ExternalReader.newFromConfig rc c.2
    let s : LevelCache64 o E ← LevelCache64.newFromDiskWithReader n b c.1 r
    M.get (BaseTree.fromDataStore64 o b 0 0 s leafs)) configs.zipIdx
  M.ofRes (fromTrees64 o A sub ts)

/-- `from_sub_tree_store_configs_and_replica` (src/merkle.rs:275-321). -/
def fromSubTreeStoreConfigsAndReplica64 (o : Overflow) (A : Alg E) (b sub top leafs : Nat)
    (configs : List StoreConfig) (rc : ReplicaConfig) :
    M (Node (Tree1 (LevelCache64 o E) E) E) := do
  mEnsure (configs.length = rc.offsets.length) "Config and Replica offset lists lengths are invalid"
  let per ← M.ofRes (divP configs.length top)
  let ts ← collectM (fun (g : List StoreConfig × List Nat) => do
    let t ← fromStoreConfigsAndReplica64 o A b sub leafs g.1 ⟨rc.path, g.2⟩
    pure (Tree1.sub t)) ((configGroups per top configs).zip (configGroups per top rc.offsets))
  M.ofRes (fromSubTrees64 o A top ts)

end replica
end Verif
