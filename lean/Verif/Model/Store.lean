import Verif.Model.Sizing
import Verif.Model.Hash
import Verif.Model.Fs
/-
`trait Store` (src/store/mod.rs:201-423): the operations every backend provides and the default
tree build.
-/
namespace Verif

/-- `SMALL_TREE_BUILD` (src/store/mod.rs:26). -/
def smallTreeBuild : Nat := 1024
/-- `BUILD_CHUNK_NODES` (src/store/mod.rs:29). -/
def buildChunkNodes : Nat := 4096

/-- Loop of `chunks`; the fuel bounds the number of pieces. -/
def chunks.go {α : Type} (n : Nat) : Nat → List α → List (List α)
  | 0, _ => []
  | f + 1, xs => if xs.isEmpty then [] else xs.take n :: chunks.go n f (xs.drop n)

/-- `slice.chunks(n)` (n > 0): pieces of length `n`, the last one possibly shorter. -/
def chunks {α : Type} (n : Nat) (xs : List α) : List (List α) := chunks.go n xs.length xs

/-- `bytes.chunks(elem_len).map(E::from_slice).collect()`. -/
def decodeAll {E : Type} [Element E] (bs : Bytes) : Res (List E) :=
  (chunks (Element.byteLen E) bs).mapM Element.fromSlice

/-- The bytes of a list of elements, one after the other. -/
def encodeAll {E : Type} [Element E] (es : List E) : Bytes := es.flatMap Element.toBytes

/-- The basic operations of `trait Store` (src/store/mod.rs:218-250) for a store type `S` with
elements `E`.  `&mut self` methods return the new store.  A `buf: &mut [u8]` argument is passed in
and its new contents are returned. -/
class StoreOps (S : Type) (E : outParam Type) where
  len : S → Nat
  isEmpty : S → Bool
  loadedFromDisk : S → Bool
  readAt : FS → S → Nat → Res E
  readRange : FS → S → Nat → Nat → Res (List E)
  readInto : FS → S → Nat → Bytes → Res Bytes
  readRangeInto : FS → S → Nat → Nat → Bytes → Res Bytes
  writeAt : S → E → Nat → M S
  copyFromSlice : S → Bytes → Nat → M S
  push : S → E → M S

/-- `Store::last` (src/store/mod.rs:250-252). -/
def StoreOps.last {S E : Type} [StoreOps S E] (fs : FS) (s : S) : Res E := do
  let i ← subP (len (E := E) s) 1
  readAt fs s i

/-- Order in which the worker threads of one parallel loop take their steps.  Task `t` (a chunk of
the layer) appears twice: first its locked read (with the hashing), then its locked write.  A
schedule is given for each level and number of tasks. -/
def Sched := (level tasks : Nat) → List Nat

/-- A schedule is a real one if every task occurs exactly twice and nothing else occurs. -/
def Sched.Valid (σ : Sched) : Prop :=
  ∀ level n t, (σ level n).count t = if t < n then 2 else 0

/-- The schedule that runs the tasks one after the other. -/
def Sched.sequential : Sched := fun _ n => (List.range n).flatMap fun t => [t, t]

/-- Runs the steps of a parallel loop in the given order.  `pend t` is what task `t` has computed
but maybe not yet written.  The first error ends the loop (`try_for_each`); which of several
errors is reported, and how many other tasks still complete, is decided by the schedule too. -/
def runSteps {S : Type} (rd : Nat → S → FS → Res Bytes) (wr : Nat → Bytes → S → M S) :
    List Nat → (Nat → Option Bytes) → S → M S
  | [], _, s => pure s
  | t :: ts, pend, s =>
    match pend t with
    | none => do
      let bs ← M.get (rd t s)
      runSteps rd wr ts (fun u => if u = t then some bs else pend u) s
    | some bs => do
      let s ← wr t bs s
      runSteps rd wr ts pend s

/-- Number of chunks of `(read_start..read_start + width).step_by(BUILD_CHUNK_NODES)`. -/
def numChunks (width : Nat) : Nat := (width + buildChunkNodes - 1) / buildChunkNodes

/-- The hashing part of a `process_layer` task (src/store/mod.rs:344-358): the nodes read, in groups
of `branches`, hashed and concatenated; then the length check. -/
def hashChunk {E : Type} [Element E] (A : Alg E) (branches level chunkSize : Nat) (nodes : List E) :
    Res Bytes := do
  let bs := encodeAll ((chunks branches nodes).map fun ns => A.nodeHash ns level)
  ensure (bs.length = chunkSize / branches * Element.byteLen E) "Invalid hashed node length"
  .ok bs

section default
variable {S E : Type} [Element E] [StoreOps S E]
open StoreOps

/-- Reading half of a default `process_layer` task (src/store/mod.rs:328-358); task `t` has
`chunk_index = read_start + t * BUILD_CHUNK_NODES`. -/
def layerRead (A : Alg E) (branches width level readStart : Nat) (t : Nat) (s : S) (fs : FS) :
    Res Bytes := do
  let chunkIndex := readStart + t * buildChunkNodes
  let chunkSize := min buildChunkNodes (readStart + width - chunkIndex)
  let nodes ← readRange fs s chunkIndex (chunkIndex + chunkSize)
  hashChunk A branches level chunkSize nodes

/-- Default `process_layer` (src/store/mod.rs:309-366). -/
def processLayer (A : Alg E) (branches : Nat) (σ : Sched) (s : S)
    (width level readStart writeStart : Nat) : M S := do
  mEnsure (buildChunkNodes % branches = 0) "Invalid chunk size"
  runSteps (layerRead A branches width level readStart)
    (fun t bs s => copyFromSlice s bs (writeStart + t * buildChunkNodes / branches))
    (σ level (numChunks width)) (fun _ => none) s

/-- The writes of one layer in `build_small_tree` (src/store/mod.rs:293-295). -/
def writeLayer (writeStart : Nat) : List E → Nat → S → M S
  | [], _, s => pure s
  | n :: ns, i, s => do
    let s ← writeAt s n (writeStart + i)
    writeLayer writeStart ns (i + 1) s

/-- The `while width > 1` loop of `build_small_tree` (src/store/mod.rs:274-300).  Returns the store
and the final `level`. -/
def smallTreeLoop (A : Alg E) (branches : Nat) :
    Nat → (width level levelNodeIndex : Nat) → S → M (S × Nat)
  | 0, _, _, _, _ => M.throw .diverge
  | f + 1, width, level, levelNodeIndex, s =>
    if width > 1 then
      let rw := if level = 0 then (0, len (E := E) s)
        else (levelNodeIndex, levelNodeIndex + width)
      do
        let nodes ← M.get fun fs => readRange fs s rw.1 (rw.1 + width)
        let s ← writeLayer rw.2 ((chunks branches nodes).map fun ns => A.nodeHash ns level) 0 s
        smallTreeLoop A branches f (width >>> log2Pow2 branches) (level + 1)
          (levelNodeIndex + width) s
    else pure (s, level)

/-- `build_small_tree` (src/store/mod.rs:261-307).  Besides the root, the mutated store is
returned.  `leafs + 1` is enough fuel for `branches ≥ 2`, where every pass shrinks the width.  With one
branch the width stays as it is and the result is never `Ok`, whatever the fuel; a store with a bound
on its size ends the loop with `Err` there in the end. -/
def buildSmallTree (A : Alg E) (branches : Nat) (s : S) (leafs rowCount : Nat) : M (E × S) := do
  mEnsure (leafs % 2 = 0) "Leafs must be a power of two"
  let (s, level) ← smallTreeLoop A branches (leafs + 1) leafs 0 0 s
  mEnsure (rowCount = level + 1) "Invalid tree row_count"
  let root ← M.get fun fs => StoreOps.last fs s
  pure (root, s)

/-- The `while width > 1` loop of the default `build` (src/store/mod.rs:396-414). -/
def buildLoop (A : Alg E) (branches : Nat) (σ : Sched) :
    Nat → (width level levelNodeIndex : Nat) → S → M (S × Nat)
  | 0, _, _, _, _ => M.throw .diverge
  | f + 1, width, level, levelNodeIndex, s =>
    if width > 1 then
      let rw := if level = 0 then (0, len (E := E) s)
        else (levelNodeIndex, levelNodeIndex + width)
      do
        let s ← processLayer A branches σ s width level rw.1 rw.2
        buildLoop A branches σ f (width >>> log2Pow2 branches) (level + 1)
          (levelNodeIndex + width) s
    else pure (s, level)

/-- Default `Store::build` (src/store/mod.rs:369-422). -/
def defaultBuild (A : Alg E) (branches : Nat) (σ : Sched) (s : S) (leafs rowCount : Nat)
    (_config : Option StoreConfig) : M (E × S) := do
  mEnsure (nextPow2 branches = branches) "branches MUST be a power of 2"
  mEnsure (len (E := E) s = leafs) "Inconsistent data"
  mEnsure (leafs % 2 = 0) "Leafs must be a power of two"
  if leafs ≤ smallTreeBuild then buildSmallTree A branches s leafs rowCount
  else do
    let (s, level) ← buildLoop A branches σ (leafs + 1) leafs 0 0 s
    mEnsure (rowCount = level + 1) "Invalid tree row_count"
    let root ← M.get fun fs => StoreOps.last fs s
    pure (root, s)

end default

/-- The rest of `trait Store`: constructors (src/store/mod.rs:203-216), `build` (369, overridden by
some backends), `compact` (227), `reinit` (231), `delete` (239).  `compact` also returns the store
when it fails, because it may have been changed by then. -/
class Store (S : Type) (E : outParam Type) [Element E] extends StoreOps S E where
  new : Nat → M S
  newWithConfig : (size branches : Nat) → StoreConfig → M S
  newFromSlice : (size : Nat) → Bytes → M S
  newFromSliceWithConfig : (size branches : Nat) → Bytes → StoreConfig → M S
  newFromDisk : (size branches : Nat) → StoreConfig → M S
  build : Alg E → (branches : Nat) → Sched → S → (leafs rowCount : Nat) → Option StoreConfig →
    M (E × S)
  compact : S → (branches : Nat) → StoreConfig → (version : Nat) → FS → Res Bool × S × FS
  reinit : S → M S := fun s => pure s
  delete : StoreConfig → M Unit

end Verif
