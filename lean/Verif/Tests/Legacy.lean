import Verif.Tests.LevelCache
import Verif.Model.ParIter
/-
The unit tests of src/test_legacy.rs and of src/proof.rs on the model.  Tests, not proofs.  The
tests that take thousands of leaves are repeated with fewer; each one says so.
-/
namespace Verif.Tests.Legacy
open Verif Verif.Tests
attribute [local instance] idealRows

/-! ### `test_simple_tree` and `test_custom_merkle_hasher` (src/test_legacy.rs:1252-1440) -/

/-- One round of SipHash. -/
def sipRound (v : UInt64 × UInt64 × UInt64 × UInt64) : UInt64 × UInt64 × UInt64 × UInt64 :=
  let rot (x : UInt64) (k : UInt64) : UInt64 := (x <<< k) ||| (x >>> (64 - k))
  let (v0, v1, v2, v3) := v
  let v0 := v0 + v1
  let v1 := rot v1 13 ^^^ v0
  let v0 := rot v0 32
  let v2 := v2 + v3
  let v3 := rot v3 16 ^^^ v2
  let v0 := v0 + v3
  let v3 := rot v3 21 ^^^ v0
  let v2 := v2 + v1
  let v1 := rot v1 17 ^^^ v2
  let v2 := rot v2 32
  (v0, v1, v2, v3)

def word (bs : Bytes) : UInt64 := bs.foldr (fun b x => (x <<< 8) ||| b.toUInt64) 0

/-- `std::collections::hash_map::DefaultHasher`: SipHash-1-3 with both keys zero, over all bytes
written. -/
def sip13 (msg : Bytes) : UInt64 :=
  let full := msg.length / 8
  let last := word (msg.drop (8 * full)) ||| (UInt64.ofNat (msg.length % 256) <<< 56)
  let ws := (List.range full).map (fun i => word ((msg.drop (8 * i)).take 8)) ++ [last]
  let v := ws.foldl (fun (v : UInt64 × UInt64 × UInt64 × UInt64) m =>
      let v := sipRound (v.1, v.2.1, v.2.2.1, v.2.2.2 ^^^ m)
      (v.1 ^^^ m, v.2))
    (0x736f6d6570736575, 0x646f72616e646f6d, 0x6c7967656e657261, 0x7465646279746573)
  let v := (v.1, v.2.1, v.2.2.1 ^^^ 0xff, v.2.2.2)
  let v := sipRound (sipRound (sipRound v))
  v.1 ^^^ v.2.1 ^^^ v.2.2.1 ^^^ v.2.2.2

def le (n x : Nat) : Bytes := (List.range n).map fun j => UInt8.ofNat (x >>> (8 * j))

/-- `Item2` (src/test_legacy.rs:1203-1250): a `u64`, eight bytes. -/
structure Item2 where
  val : UInt64
  deriving DecidableEq, Repr

instance : Element Item2 where
  byteLen := 8
  toBytes e := le 8 e.val.toNat
  decode bs := ⟨word bs⟩
  default := ⟨0⟩

/-- `impl Algorithm<Item2> for DefaultHasher` (src/test_legacy.rs:1253-1263). -/
def sip : Alg Item2 := Alg.ofHasher Bytes [] (· ++ ·) fun s => (⟨sip13 s⟩, s)

/-- The iterator of the test: the hashes of `1_i32`, `2_i32`, .... -/
def sipItems (n : Nat) : List (Res Item2) :=
  (List.range n).map fun x => .ok ⟨sip13 (le 4 (x + 1))⟩

def simpleTree (n : Nat) (answer : List UInt64) : Bool :=
  run (BaseTree.tryFromIter (S := VecStore Item2) sip 2 .sequential (some n) (sipItems n)) fun t fs =>
    t.leafs = n && t.rowCount = log2Pow2 (nextPow2 t.length) &&
    (match t.readRange fs 0 t.length with
      | .ok es => es.map Item2.val = answer
      | .error _ => false) &&
    (List.range n).all fun i =>
      match t.genProof 2 0 0 fs i with
      | .ok p => (match p.validate sip 2 with | .ok true => true | _ => false)
      | .error _ => false

#guard simpleTree 2 [18161131233134742049, 15963407371316104707, 8061613778145084206]
#guard simpleTree 4 [18161131233134742049, 15963407371316104707, 2838807777806232157,
  4356248227606450052, 8061613778145084206, 6971098229507888078, 452397072384919190]

/-- `CMH` (src/test_legacy.rs:1372-1417): `leaf` keeps the lowest byte.  `node`, which it overrides
too, is never called; `multi_node` is the default one. -/
def cmh : Alg Item2 := { sip with leaf := fun s e => (⟨e.val &&& 0xff⟩, s) }

#guard run (BaseTree.tryFromIter (S := VecStore Item2) cmh 2 .sequential (some 8) (sipItems 8))
  fun t fs => match t.readRange fs 0 3 with
    | .ok es => es.length = 3 && es.all (·.val ≤ 255)
    | .error _ => false

/-! ### `test_hasher_light` (src/test_legacy.rs:338-397) -/

def hasherLight (A : Alg Item) (n : Nat) (input : Bytes) : Item :=
  (A.hash ((List.replicate n input).foldl A.write A.init)).1

def input16 : Bytes := (List.range 16).map UInt8.ofNat

#guard hasherLight xor128 2 input16 = item (List.replicate 16 0)
#guard hasherLight xor128 5 input16 = item input16
#guard hasherLight xor128 10 input16 = item (List.replicate 16 0)
#guard hasherLight xor128 371 input16 = item input16
#guard hasherLight sha 951 input16 =
  item ((Sha256.fast (List.replicate 951 input16).flatten).take 16)

/-! ### `test_read_into` (src/test_legacy.rs:620-655) -/

def readIntoData : List (HashableVal xor128) :=
  ["ars", "zxc"].map fun x s => xor128.write s (strBytes x)

def readIntoOk {S : Type} [StoreOps S Item] (t : BaseTree S Item) (fs : FS) : Bool :=
  let target : List Bytes :=
    [[0, 97, 114, 115, 0, 0, 0, 0, 0, 0, 0, 0, 0, 0, 0, 0],
     [0, 122, 120, 99, 0, 0, 0, 0, 0, 0, 0, 0, 0, 0, 0, 0],
     [1, 0, 27, 10, 16, 0, 0, 0, 0, 0, 0, 0, 0, 0, 0, 0]]
  (List.range 3).all fun pos =>
    match t.readInto fs pos (List.replicate 16 0) with
    | .ok bs => some bs = target[pos]?
    | .error _ => false

#guard run (BaseTree.fromData (S := VecStore Item) xor128 2 .sequential readIntoData) readIntoOk
#guard run (BaseTree.fromDataWithConfig (S := DiskStore Item) xor128 2 .sequential readIntoData
  (StoreConfig.new "dir" "test-read-into" (defaultRowsToDiscard 2 2))) readIntoOk

/-! ### Trees in level-cache stores -/

/-- Element `x` of the iterators in the tests: the hash of `k * x` and then `n`. -/
def iterItem (k n x : Nat) : Item := (xor128.hash (xor128.write xor128.init (le 8 (k * x) ++ le 8 n))).1

def iterItems (k leafs : Nat) : List (Res Item) :=
  (List.range leafs).map fun x => .ok (iterItem k leafs x)

def sizesOk {S : Type} [StoreOps S Item] (t : BaseTree S Item) (leafs len rows : Nat) : Bool :=
  t.leafs = leafs && t.length = len && t.rowCount = rows

/-- `assert!`. -/
def check (b : Bool) : M Unit := if b then pure () else M.throw (.panic "assertion")

/-- `build_disk_tree_from_iter` (src/test_legacy.rs:32-62). -/
def diskTreeFromIter (b leafs len rows : Nat) (c : StoreConfig) : M Unit := do
  check (isVal len (merkleTreeLen leafs b))
  check (merkleTreeRowCount leafs b = rows)
  let t : BaseTree (DiskStore Item) Item ←
    BaseTree.tryFromIterWithConfig xor128 b .sequential (some leafs) (iterItems 3 leafs) c
  check (sizesOk t leafs len rows)

def validCached (b : Nat) (gen : M (Proof Item)) : M Unit := do
  let p ← gen
  match p.validate xor128 b with
  | .ok true => pure ()
  | _ => M.throw (.panic "assertion")

/-- `test_levelcache_v1_tree_from_iter` (src/test_legacy.rs:138-210). -/
def levelCacheV1 (b leafs len rows challenges discard : Nat) : M Unit := do
  let c := StoreConfig.new "dir" "v1" discard
  diskTreeFromIter b leafs len rows c
  let ok ← M.get fun fs => DiskStore.isConsistent Item fs len b c
  check ok
  let s : DiskStore Item ← Store.newFromDisk len b c
  let t ← M.get fun fs => BaseTree.fromDataStore b 0 0 s leafs fs
  check (sizesOk t leafs len rows)
  let done ← (fun fs => let (r, _, fs) := t.compact b c 1 fs; (r, fs) : M Bool)
  check done
  let ok ← M.get fun fs => LevelCacheStore.isConsistentV1 Item fs len b c
  check ok
  let s : LC ← Store.newFromDisk len b c
  let t ← M.get fun fs => BaseTree.fromDataStore b 0 0 s leafs fs
  check (sizesOk t leafs len rows)
  for i in List.range challenges do
    validCached b (t.genCachedProof xor128 b 0 0 .sequential (i * (leafs / challenges)) (some discard))

/-- `test_levelcache_direct_build_from_slice` (src/test_legacy.rs:212-259) and `.._from_iter`
(261-308).  The leaves of the first tree are not those in the replica: it hashes the data without the
number of leaves.  The proofs validate all the same, because with `XOR128` the difference cancels. -/
def directBuild (slice : Bool) (b leafs len rows challenges : Nat) (discard : Option Nat) :
    M Unit := do
  let discard := discard.getD (defaultRowsToDiscard leafs b)
  let c := StoreConfig.new "dir" "replica" discard
  diskTreeFromIter b leafs len rows c
  let lc := StoreConfig.fromConfig c "lc" (some len)
  let t : BaseTree LC Item ← (if slice then
      BaseTree.fromDataWithConfig xor128 b .sequential
        ((List.range leafs).map fun i s => xor128.write s (le 8 (i * 3))) lc
    else BaseTree.tryFromIterWithConfig xor128 b .sequential (some leafs) (iterItems 3 leafs) lc)
  check (sizesOk t leafs len rows)
  let t ← t.setExternalReaderPath (dataPath c.path c.id)
  for i in List.range challenges do
    validCached b (t.genCachedProof xor128 b 0 0 .sequential (i * (leafs / challenges))
      (if slice then some discard else none))

/-- `test_compound_levelcache_tree_from_store_configs` (src/test_legacy.rs:399-516). -/
def compoundFromConfigs (b n leafs : Nat) : M Unit := do
  let len ← M.get fun _ => merkleTreeLen leafs b
  let rows := merkleTreeRowCount leafs b
  FS.createNew (.named replicaPath)
  let cs ← times n fun i => do
    let c := StoreConfig.new "dir" s!"replica-{i}" (defaultRowsToDiscard leafs b)
    diskTreeFromIter b leafs len rows c
    let s : DiskStore Item ← Store.newWithConfig len b c
    let es ← M.get fun fs => StoreOps.readRange fs s 0 leafs
    let off ← M.get fun fs => FS.fileLen fs (.named replicaPath)
    FS.writeAllAt (.named replicaPath) off (encodeAll es)
    let lc := StoreConfig.fromConfig c s!"lc-{i}" (some len)
    let t : BaseTree LC Item ← BaseTree.fromDataWithConfig xor128 b .sequential
      ((List.range leafs).map fun i s => xor128.write s (le 8 (i * 3))) lc
    check (sizesOk t leafs len rows)
    let _ ← t.setExternalReaderPath replicaPath
    pure lc
  let t ← fromStoreConfigsAndReplica xor128 b n leafs cs
    ⟨replicaPath, (List.range n).map (· * (16 * leafs))⟩
  let t := Tree1.sub t
  check (t.length = len * n + 1)
  check (t.leafs = n * leafs)
  for i in List.range t.leafs do
    let _ ← M.get fun fs => t.readAt n fs i
    validCached b (t.genCachedProof xor128 b n .sequential i none)

/-- One pass of the loop of `test_various_trees_with_partial_cache_v2_only`
(src/test_legacy.rs:768-964), with every proof; `test_level_cache_tree_v2` (671-766) has the same
steps. -/
def levelCacheV2 (leafs discard : Nat) (par : Bool) (asked : Option Nat) : M Unit := do
  let len ← M.get fun _ => merkleTreeLen leafs 2
  let c := StoreConfig.new "dir" "v2" (min discard (defaultRowsToDiscard leafs 2))
  let t : BaseTree (DiskStore Item) Item ← (if par then
      BaseTree.fromParIterWithConfig xor128 2 .sequential List.range
        ((List.range leafs).map fun x =>
          (xor128.hash (xor128.write xor128.init (le 8 x ++ le 4 99))).1) c
    else BaseTree.tryFromIterWithConfig xor128 2 .sequential (some leafs) (iterItems 1 leafs) c)
  let ok ← M.get fun fs => DiskStore.isConsistent Item fs len 2 c
  check ok
  let s : DiskStore Item ← Store.newFromDisk len 2 c
  let t2 ← M.get fun fs => BaseTree.fromDataStore 2 0 0 s leafs fs
  check (t.length = t2.length && t.leafs = t2.leafs && t.length = len && t.leafs = leafs)
  for j in List.range leafs do
    validCached 2 (M.get fun fs => t.genProof 2 0 0 fs j)
  let es ← M.get fun fs => StoreOps.readRange fs s 0 leafs
  let out := dataPath "dir" "base-data-only"
  FS.createNew (.named out)
  FS.writeAllAt (.named out) 0 (encodeAll es)
  let done ← (fun fs => let (r, _, fs) := t.compact 2 c 2 fs; (r, fs) : M Bool)
  check done
  let ok ← M.get fun fs => LevelCacheStore.isConsistent Item fs len 2 c
  check ok
  let r ← ExternalReader.newFromPath out
  let s : LC ← LevelCacheStore.newFromDiskWithReader len 2 c r
  let u ← M.get fun fs => BaseTree.fromDataStore 2 0 0 s leafs fs
  check (u.length = len && u.leafs = leafs)
  for j in List.range leafs do
    validCached 2 (u.genCachedProof xor128 2 0 0 .sequential j asked)
  u.delete c

def passes (x : M Unit) : Bool := run x fun _ _ => true

/-! `test_small_quad_with_partial_cache` (538-549). -/
#guard passes (levelCacheV1 4 256 341 5 256 1)
#guard passes (levelCacheV1 4 256 341 5 256 2)
#guard passes (levelCacheV1 4 256 341 5 256 3)

/-! `test_level_cache_tree_v1` (657-669), with 32 instead of 2048 challenges. -/
#guard passes (levelCacheV1 2 2048 4095 12 32 4)

/-! `test_level_cache_tree_v2` (671-766), with 128 instead of 2048 leaves. -/
#guard passes (levelCacheV2 128 (defaultRowsToDiscard 128 2) true none)

/-! `test_various_trees_with_partial_cache_v2_only` (768-964), with 16 to 64 instead of 256 to 4096
leaves. -/
#guard [4, 5, 6].all fun k =>
  (List.range' 1 (merkleTreeRowCount (2 ^ k) 2 - 2)).all fun i =>
    passes (levelCacheV2 (2 ^ k) i false (some i))

/-! `test_compound_levelcache_quad_trees_from_store_configs` (518-527) and
`.._octrees_trees_from_store_configs` (529-536), the two smaller sizes of the first and the smallest of the
second. -/
#guard passes (compoundFromConfigs 4 3 16)
#guard passes (compoundFromConfigs 4 5 64)
#guard passes (compoundFromConfigs 8 3 64)

/-! `test_levelcache_direct_build_quad` (310-318) with 64 instead of 1048576 leaves and
`test_levelcache_direct_build_octo` (320-336) with 512 instead of 262144. -/
#guard passes (directBuild false 4 64 85 4 64 none)
#guard passes (directBuild true 4 64 85 4 64 none)
#guard passes (directBuild false 8 512 585 4 64 (some 2))
#guard passes (directBuild true 8 512 585 4 64 (some 2))

/-! The checks above can fail. -/
#guard !passes (levelCacheV1 4 256 341 6 256 1)
#guard !passes (levelCacheV1 4 256 341 5 256 4)
#guard !passes (check false)

/-! ### Parallel iterators (src/test_legacy.rs:966-1069) -/

def lens : Res (ParProducer × ParProducer) → Option (Nat × Nat)
  | .ok (a, b) => some (a.stop - a.current, b.stop - b.current)
  | .error _ => none

/-! `test_parallel_iter_disk_1`: halving. -/
#guard [7, 6, 5, 4, 3, 2, 1].all fun k =>
  lens (ParProducer.splitAt ⟨0, 2 ^ k⟩ (2 ^ (k - 1))) = some (2 ^ (k - 1), 2 ^ (k - 1))
#guard lens (ParProducer.splitAt ⟨0, 1⟩ 1) = some (1, 0)
#guard lens (ParProducer.splitAt ⟨0, 1⟩ 10) = some (1, 0)

/-- Both halves of a split, consumed, against the data; and the number of items from the back. -/
def parIterOk (size at' : Nat) : Bool :=
  let data := (List.range (16 * size)).map UInt8.ofNat
  run (DiskStore.newFromSlice (E := Item) size data) fun s fs =>
    let all := (chunks 16 data).map Item.mk
    let rd := fun i => StoreOps.readAt fs s i
    let got (p : ParProducer) : Option (List Item) := (ParIter.collect rd (size + 1) p.intoIter).toOption
    let p := ParProducer.ofStore s
    got p = some all &&
    (match p.splitAt at' with
      | .ok (a, b) => got a = some (all.take at') && got b = some (all.drop at')
      | .error _ => false) &&
    (match ParIter.run rd (List.replicate (size + 1) .back) p.intoIter with
      | .ok (os, _) => os = (all.reverse.map some) ++ [none]
      | .error _ => false)

#guard parIterOk 128 10
#guard [2, 4, 5, 99, 128].all fun n => parIterOk n (n / 2)

/-! ### Broken proofs (src/proof.rs:236-640)

The tests replace one lemma item, chosen at random, with a hash of it and a random number, and expect
that the proof no longer validates.  Here every item is replaced in turn, and 8 to 64 leaves per base tree
take the place of 16384 or 32768. -/

def vecTree (A : Alg Item) (b leafs : Nat) : M (BaseTree (VecStore Item) Item) :=
  BaseTree.fromData A b .sequential (usizes A leafs)

/-- The item that takes the place of `e`. -/
def broken (A : Alg Item) (e : Item) : Item :=
  (A.hash (A.write (A.write A.init (le 8 12345678901)) e.bytes)).1

/-- `modify_proof` (src/proof.rs:246-298): breaks item `i` of the lemma, or of the sub-proof's
lemma if there is a sub-proof. -/
def breakItem (A : Alg Item) (i : Nat) : Proof Item → Proof Item
  | .base t n l p => .base t n (l.modify i (broken A)) p
  | .nested (.base t' n' l' p') t n l p => .nested (.base t' n' (l'.modify i (broken A)) p') t n l p
  | .nested (.nested s t' n' l' p') t n l p =>
    .nested (.nested s t' n' (l'.modify i (broken A)) p') t n l p

def brokenLemma : Proof Item → List Item
  | .base _ _ l _ => l
  | .nested s _ _ _ _ => s.lem

def brokenOk (A : Alg Item) (b leafs : Nat) (gen : Nat → Res (Proof Item)) : Bool :=
  (List.range leafs).all fun j =>
    match gen j with
    | .error _ => false
    | .ok p =>
      (match p.validate A b with | .ok true => true | _ => false) &&
      (List.range (brokenLemma p).length).all fun i =>
        match (breakItem A i p).validate A b with | .ok false => true | _ => false

/-- `test_proofs`. -/
def brokenBase (A : Alg Item) (b leafs : Nat) : Bool :=
  run (vecTree A b leafs) fun t fs => brokenOk A b t.leafs (t.genProof b 0 0 fs)

/-- `test_compound_quad_broken_proofs` and the other tests of compound trees. -/
def brokenSub (A : Alg Item) (b sub leafs : Nat) : Bool :=
  run (times sub fun _ => vecTree A b leafs) fun ts fs =>
    match fromTrees A sub ts with
    | .error _ => false
    | .ok t => brokenOk A b (Tree1.sub t).leafs ((Tree1.sub t).genProof b sub fs)

/-- `test_compound_compound_quad_broken_proofs` and the other tests of compound-compound trees. -/
def brokenTop (A : Alg Item) (b sub top leafs : Nat) : Bool :=
  run (times top fun _ => times sub fun _ => vecTree A b leafs) fun tss fs =>
    match tss.mapM (fromTrees A sub) with
    | .error _ => false
    | .ok cs =>
      match fromSubTrees A top (cs.map Tree1.sub) with
      | .error _ => false
      | .ok t => brokenOk A b (Tree2.top t).leafs ((Tree2.top t).genProof b sub top fs)

#guard brokenBase xor128 2 64 && brokenBase sha 2 64
#guard brokenSub xor128 4 3 64 && brokenSub sha 4 3 64
#guard brokenSub xor128 8 1 64 && brokenSub sha 8 1 64
#guard brokenSub xor128 8 4 64 && brokenSub sha 8 4 64
#guard brokenTop xor128 4 3 3 16 && brokenTop sha 4 3 3 16
#guard brokenTop xor128 4 3 1 16 && brokenTop sha 4 3 1 16
#guard brokenTop xor128 8 4 5 8 && brokenTop sha 8 4 5 8
#guard brokenTop xor128 8 4 1 8 && brokenTop sha 8 4 1 8

end Verif.Tests.Legacy
