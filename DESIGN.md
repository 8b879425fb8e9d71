# Formal model of filecoin-project/merkletree in Lean 4

A model of the Rust crate in `/repo` (version 0.23.0), properties of it in `properties.jsonl`, and
proofs of them. `MANIFEST.json` says which theorem states which property. The table at the end of
this file gives the status of each property with the reason wherever something is missing or false.

## 1. What the guarantee rests on

1. **Lean's kernel** (4.33.0) and the axioms `propext`, `Classical.choice` and `Quot.sound`. No
   other axiom, no `sorry`, no `native_decide`, no `bv_decide`.
2. **The reading of the Rust source.** The model was written by reading; nothing was translated by a
   tool and the Rust code was never run. Each definition in `Verif/Model` cites the file and lines
   it follows. Section 7 describes what was done to catch misreadings.
3. **The library behaviour written into the model**: `Vec`, slices, iterators, `rayon`, `std::fs`,
   `positioned_io`, `memmap2`, `tempfile`. Section 4 lists these assumptions one by one.
4. **The statements.** `Verif/Spec` has the vocabulary, independent of the model.

## 2. How the code is modelled

* **Outcomes.** `Res α = Except Fault α` with `Fault = err msg | panic msg | diverge`. A failed
  `ensure!` or a `?` is `err`. Out-of-range indexing, `expect`, `unwrap`, `unimplemented!`, integer
  underflow and division by zero are `panic` (a debug build; `Model/Sizing64` also has the wrapping
  release build). A `while` loop carries fuel larger than any terminating run needs, and running
  out of it is `diverge`. Theorems about divergence hold for every amount of fuel.
* **Files.** `FS` maps a file (a path, or a numbered temporary file) to optional bytes. Functions that
  touch files live in `M α = FS → Res α × FS`. The file system survives an error, so what a failed
  build leaves behind is seen by the next one.
* **Bytes.** Store models are byte level, with offsets computed as in the code. Elements are any type
  with a codec obeying the contract of `trait Element`.
* **Hash algorithms** are arbitrary: a state type, `write`, `hash`, `reset`, `leaf`, `node`,
  `multi_node` with its height argument. No property assumes collision resistance. Where a security
  argument needs it, the theorem produces the two colliding inputs.
* **Worker threads.** Each parallel loop is run by an explicit schedule. A task reads its chunk in one
  step and writes in one step, and theorems quantify over every valid schedule. Where the code takes no
  exclusive lock around these (`DiskStore`, `LevelCacheStore`), `Model/Racy` makes every byte a step of
  its own, and C77 shows that nothing changes.
* **Integers.** `usize` is `Nat`. `Model/Sizing64` repeats the sizing functions with 64-bit words, and
  C46 relates the two. `Model/Offsets64` does this for the byte offsets of the file stores and for
  `gen_proof` (C65), `Model/Build64` for everything that constructs base trees (C71), and
  `Model/Cached64` for compaction, cached proofs (C73) and compound trees (C74), and `Model/Proof64` for inclusion proofs
  (C83). The other functions (deletion, copying of bytes) exist on `Nat` only.
* **Floating point.** `get_merkle_tree_row_count` divides two logarithms. The result is a parameter
  (class `FloatRows`), and theorems state which values they need. `Model/Float` computes it with IEEE
  doubles, and C58 shows for which sizes the needed values are what comes out.
* **Type parameters** such as `BaseTreeArity` are ordinary arguments.

### Modules

| module of `Verif/Model` | Rust source |
|---|---|
| `Res` | how calls end: `Result`, panics, loops |
| `Sizing`, `Sizing64`, `Float` | src/merkle.rs:1839-2012, src/store/mod.rs:137-175 |
| `Element` | src/merkle.rs:192-200, 1820-1836 |
| `Hash`, `Hashable` | src/hash.rs, src/hash_impl.rs |
| `Proof` | src/proof.rs |
| `Fs` | files as the stores see them |
| `Store` | src/store/mod.rs: the trait, its default methods, configurations, replica readers |
| `VecStore`, `DiskStore`, `MmapStore`, `LevelCache` | src/store/{vec,disk,mmap,level_cache}.rs |
| `ParIter` | src/store/mod.rs:418-628, parallel iteration |
| `Merkle` | src/merkle.rs: constructors, proofs, reads, life cycle |
| `Offsets64` | src/store/{disk,mmap,level_cache}.rs reads and writes, src/store/mod.rs:49-52, src/merkle.rs:932-998, on 64-bit words |
| `Proof64` | src/proof.rs:36-210, on 64-bit words |
| `Cached64` | src/store/disk.rs:212-289, src/merkle.rs:376-640, 828-856, 932-1510, on 64-bit words |
| `Build64` | src/merkle.rs:334-640, 1512-1836, src/store/mod.rs:178-418 and the `build` and constructors of each store, on 64-bit words |
| `Racy` | src/store/disk.rs:318-439, src/store/level_cache.rs:455-595, worker threads byte by byte |
| `FlakyMmap` | src/store/mmap.rs over a disk that fails |
| `Flaky` | src/store/{disk,level_cache}.rs, src/store/mod.rs:55-67, src/merkle.rs:230-321, over a disk that fails |
| `TreeStore` | src/merkle.rs:96-109, 212-221, 1373-1396, 1422-1429, 1471-1496: operations on the store of a tree of any number of layers |
| `Unlink` | src/merkle.rs:1394-1396, src/store/{disk,level_cache}.rs `delete`, of an open file |

`Verif/Spec` has the independent definitions: the recursive Merkle node and row layout (`Tree`), sizes
as sums of powers (`Sizes`), proof transcripts, arrays, leaf sources, crash states, path components,
double-ended queues, encodings. `Verif/Lemmas` has helper lemmas. `Verif/Props` has the property
theorems and nothing else. Each is followed by an `example` showing that its hypotheses can be met.
`Verif/Tests` has bounded checks (section 7).

## 3. What is modelled and what is not

Every non-test function of `src/*.rs` and `src/store/*.rs` has a model except those listed here.

* Serde derives, derived `Debug` instances, logging. Not modelled. The handwritten `Debug` instances are modelled
  (Model/Debug.lean) as lists of field names and values; how `fmt::Formatter` lays them out is not.
* `store_mut()`, `sub_trees()`, `base_trees()`: selectors of a sum type. They are pattern matches in
  the model.
* `lemma_mut()` as a function returning a reference; its effect, replacing the lemma by any other, is `withLemma`
  (C84, which speaks about every value of the type `Proof`).
* `sync()` is a no-op in the model. No claim depends on durability except C34, which states the order
  in which writes must reach the disk.
* `From<&Path> for ReplicaConfig` is the model's `⟨path, [0]⟩`.
* Memory consumption, stack depth and running time. Nothing is claimed about them.
* `benches/`, `tests/` and `src/test_legacy.rs` are not modelled. Parts of the tests are replayed as
  conformance tests (section 7).

## 4. Assumptions built into the model

* **I/O errors.** In `Model/DiskStore`, `Model/LevelCache` and `Model/MmapStore` a read fails only when the
  file is missing or too short, and writes, `set_len` and `create_new` on a new path succeed. C70 and C75 drop
  this, and C76 says what the outcome tells about the disk: `Model/Flaky` and `Model/FlakyMmap` are the three
  file stores with a place to fail for every system call. Whether
  a call fails is a function of the call and the files, so the same call repeated on unchanged files fails
  again. Two failures stay outside: a write through a memory map that ends the process, and written pages
  that are lost later. C41 is stated for any reader that can fail, and C49 for any reader that may return
  anything.
* **Open handles.** A handle is the name of the file. Reading through a handle whose file was removed
  is `err` in the model and works on Unix. C79 covers this situation: in `Model/Unlink` a file deleted
  while open becomes an anonymous one, and its handles go with it.
* **Memory maps.** A shared map reads and writes the bytes of the file. Two maps of one file agree.
  A map of length zero is not an error (this is up to the `memmap2` crate; POSIX does not allow it).
* **Copying inside one file.** `std::io::copy` from the tail of a file to its start
  (src/store/disk.rs `compact`) copies ascending blocks. `C34_copy_blocks` shows that any block sizes give the same result.
  To a higher position the copy does not end in the model; `C91_copy_forever` derives this from the copy in
  blocks. A full disk would stop it with an error. The Rust
  standard library may use `copy_file_range` here. Linux rejects overlapping ranges for that call, and
  the library then falls back to a read and write loop.
* **Crashes (C34).** Writes reach the disk in program order. The code does not sync between the copy
  and the truncation; `C34_unordered_writes_refuted` shows that detection depends on this order.
* **rayon.** A parallel loop executes each chunk exactly once, in some order and with any
  interleaving of their steps. Results of `collect` are in index order. `split_at` and the
  iterator methods may be called in any pattern (C41).
* **Locks** are not poisoned; write locks are exclusive. Memory is sequentially consistent: a byte read
  after a byte was written sees it. C77 shows that no byte is shared within a layer, and a layer ends
  before the next one starts.
* **`ln`** is correctly rounded at powers of two in C58. IEEE 754 does not demand this. Without it,
  and with an error below one unit in the last place, 271 sizes could be wrong. On this box the C
  library rounds correctly at all 127 relevant inputs (checked from Python, a test).
* **64-bit words and byte order** are parameters in C44.

## 5. Findings about the code

Each item is a theorem with a concrete witness or a statement for every instance.

*Sizes.*
`get_merkle_tree_leafs` accepts the lengths `2^k - 2` for arity 2 (C02). Arity 1 never returns (C03,
C13). On words it can loop forever, for example with arity `2^32` and `2^32 + 2` nodes (C46). The row
count of arity `2^21` with `2^42` leaves is 2 instead of 3 (C58). The generic length is wrong for
`from_sub_trees` without a sub-tree layer (C07).

*Construction.*
`MmapStore` panics on small bad sizes (C11). `try_from_iter_with_config` panics on a failing iterator
instead of returning the error (C12). `from_trees` does not check the top arity (C18).
`from_slices_with_configs` panics when given too few configurations. `from_sub_tree_store_configs`
panics with top arity 0, and ignores up to `top - 1` trailing configurations (C52).

*Proofs.*
`gen_proof` out of range panics on compound trees (C15). The height argument differs between building
and validating for arities above 2 and for compound trees (C20). `validate_with_data` never accepts a
compound proof (C21). Validating a compound proof can panic (C22, C56). Compound proofs are malleable:
entries can be inserted in a compound lemma before the root, and the path can be extended (C57).
`validate` does not know the depth of the tree, so it accepts an interior node as item;
`validate_with_data` does not (C69).
A tree over tuples or slices of strings does not commit to where one string ends and the next begins (C92).

*Persistence.*
`compact` of a store of `2^(k+1) - 2` nodes to version 1 without discarding rows writes to the file forever (C91).
`DiskStore` takes any file of full length for a finished tree. Every build creates such a file first,
so a retry after an interrupted build returns the zero root (C33). `LevelCacheStore` has no length
check (C33). `from_store_configs` with a missing file returns `Err` but leaves a zero file behind that
the same call adopts when repeated (C52). Reopening with a configuration fails for `MmapStore` and
`LevelCacheStore` (C32). `MmapStore::delete` and `VecStore::delete` do nothing (C54). An interrupted
compaction is not seen by `DiskStore::new_from_disk` or by the version 1 reader (C34). Two ids with
slashes can name one file (C36). `from_data_store` looks at lengths only, not at contents, and does not
return for arity 1 (C67). `DiskStore::new_from_slice_with_config` with too many elements returns `Err`
after creating the file; the same call again returns `Ok` with zeros. `VecStore::new_from_slice` drops a
trailing partial element, and panics, as `MmapStore` does, when there are too many (C68).

A build that ended with an I/O error leaves its file, and the next build with the same configuration returns
the zero root. A compaction that ended with an I/O error can have overwritten the leaves, and the tree still
reads them (C75).
`MmapStore::new_from_disk` and `new_with_config` panic on a file that cannot be opened for writing, where
`DiskStore` opens it for reading (C70).
When a tree is compacted, another handle on its file reads other nodes without an error (C78). `compact`
works on whichever file its configuration names, not on the file of its store: compacting a deleted tree
compacts the tree built in its place (C79).

*Reading.*
`VecStore` panics out of range and `read_range_into` is unimplemented on `VecStore` and `MmapStore`
(C50). On the stores themselves a range that ends before its start panics, and `read_range_into` does
not look at the end of the range (C50). `read_into` with a buffer of another length panics on `VecStore` and `MmapStore` (C50), and
reads beyond the requested element on `DiskStore` (C25). Without overflow checks, `read_at` and `write_at`
of the file stores at index `2^59 + i` (32-byte elements) read and overwrite element `i`; with them they
panic (C65). Compound trees always report `is_empty`
(C48). The parallel iterator ends silently at a read error, and after a passing error runs past its
end (C41).

*Level cache.*
Version 1 returns a cached node for the first discarded index (C27). A cached proof from a version 1
tree can silently be another proof (C28). `from_tree_slice` always fails, and
`from_tree_slice_with_config` returns a wrong root when rows are discarded (C40). A range that starts in
the leaves and ends above them returns replica bytes as nodes in version 2, and cached nodes in place of
discarded ones in version 1 (C60). `gen_proof` on a compacted tree with discarded rows is an error,
except for leaves 2 and 3 of a binary version 1 tree with one discarded row: there it returns `Ok` with a
proof that is not the tree's (C61). A tree fresh from a build on `LevelCacheStore` has no reader and
returns cached nodes as leaves until one is set; it generates no proofs (C62). Nothing can be read from a
store made by `LevelCacheStore::new` (C66) or `new_from_slice` (C68), and beyond the leaves a store with discarded rows returns other
elements than those written (C66).

*Hashing.*
Tuples of strings are encoded ambiguously. An empty integer slice performs an empty write (C44).
`from_byte_slice` does not hash its input, so row 1 of a tree given as bytes yields the same root (C51).

Remarks that are not theorems:
* Two tests disabled in the repository (`test_compound_constructors` on disk stores, and `from_tree_slice`
  on level-cache stores) fail for reasons the model shows: a stale default file, and C40.
* `test_levelcache_direct_build_from_slice` uses a replica with other leaves. It passes because the
  test hash (XOR) cannot tell them apart.

## 6. Wrong programs

`seeded/LOG.jsonl` has one line per wrong program. Each was made in a scratch copy outside `/verif` by one
edit of one definition in `Verif/Model`, and the whole development was built again.

* `result` says whether the build failed at a property theorem, failed at a lemma, passed (`survived`),
  or did not reach the theorems because the edited model does not compile (`invalid`). `failed` has the
  theorems that failed first. A line that survived has a note: an equivalent program, or the theorem
  that was added or tightened because of it.
* A failing build alone says little. Proofs follow the shape of the program, so an equivalent program
  can break a helper lemma too. So wrong programs are also executed: 200 checks evaluate
  instances of the property statements on the edited model. `property_instances_false` lists the
  checks that came out false. A check that is false shows that the property statement is false of the
  edited program, so no repair of the proof would help.
* These evaluations are tests. They show that statements are sensitive to a change. They are no
  evidence for the theorems themselves.
* Every line that was executed without a false instance has a note saying why: the edit is equivalent on
  all inputs the statements speak about, or which theorem's statement excludes it.
* Lines without `property_instances_false` were built but not executed.
* Lines with `automated` are one-token edits (a comparison, a constant, an argument, a negated condition,
  a dropped check) drawn at random from about 4600 such edits of `Verif/Model`. Their build stops at the
  first declaration that fails, and `claim` names the properties that depend on it. Edits whose model does
  not compile are left out.

## 7. Conformance tests

`Verif/Tests` replays tests of the repository in the model: SHA-256 trees from `tests/`, arities,
constructors, level-cache reads. `Tests/Legacy` replays the unit tests of `src/test_legacy.rs` and
`src/proof.rs`, among them the SipHash trees with all their nodes. The tests compare the model with
values computed by the real code and written down in the repository. Where the original takes
thousands of leaves the replay takes fewer and says so. They are bounded checks and are not counted
as proofs.

## 8. Status of each property

`proved`: the statement in `properties.jsonl` holds as written, under the conditions in the note.
`partial`: part of it is false of the code or missing. The note says which. Theorems ending in
`_refuted` are proved counterexamples, and theorems ending in `_partial` prove part of a statement.

| id | title | status | note |
|---|---|---|---|
| C01 | Tree length is the exact node count | proved |  |
| C02 | Leaf count recovered from a tree length is exact | partial | Round trip and termination for all arities; exactness false for arity 2 (lengths 2^k-2 accepted), proved for all other arities, exact description of what arity 2 accepts. |
| C03 | Tree-size validity check is exact and terminates | partial | Proved for every arity except 1, where the loop provably never ends. |
| C04 | Row count is the number of rows | partial | Binary exact; other arities relative to the floating point logarithm (C04_row_count_partial). With IEEE doubles (C58_row_count) it holds for every 64-bit size but one, arity 2^21 with 2^42 leaves (C58_exception_refuted). |
| C05 | Cache size is exactly the rows kept | proved | Relative to an exact row count (FloatRows.ExactAt; see C58). |
| C06 | Default discard count is always usable | proved | Relative to an exact row count (FloatRows.ExactAt; see C58). |
| C07 | Generic length formula matches compound trees | partial | All shapes with a sub-tree layer; false for from_sub_trees with no sub-tree layer (witness). |
| C08 | A built tree is the Merkle tree of its leaves | proved | For configurations naming a file that does not exist yet; relative to a floating point row count that is the floor of the logarithm (FloatRows.FloorAt; see C58). |
| C09 | Parallel build is schedule independent | proved |  |
| C10 | All constructors agree | proved |  |
| C11 | Construction succeeds exactly for full trees | partial | Exact acceptance for all four stores. 'Err otherwise' holds for Vec, Disk and LevelCache; MmapStore panics for exactly the powers of two from the arity to 1024 that are not powers of the arity, with every constructor. |
| C12 | Lying or failing iterators are detected | partial | Never a tree from a lying or failing iterator: proved. The error is returned by try_from_iter, but try_from_iter_with_config panics instead (refuted for every instance). |
| C13 | Construction always terminates | partial | Every arity but one on Vec, Disk and LevelCache; on Mmap every constructor ends (C11 says when with a panic); arity one never returns (proved for any fuel). |
| C14 | Proof completeness for base trees | proved |  |
| C15 | Out-of-range proof requests are rejected | partial | Err for base gen_proof and every gen_cached_proof; never a proof from a compound gen_proof, but it panics on every tree made by from_trees (proved). |
| C16 | Proof binding (soundness) | proved | The second theorem is for algorithms that ignore the height or binary trees, as C14. |
| C17 | Tampering is detected | proved |  |
| C18 | Proof completeness for compound trees | proved | The second theorem records that from_trees does not check that the top arity is zero. |
| C19 | Proof completeness for compound-compound trees | proved |  |
| C20 | Proofs validate for algorithms that use the height argument | partial | True, for every algorithm, for binary base trees and for base trees of two rows. False for every other base tree: if the algorithm tells the heights k-1 and (k-1)*(b-1) apart, no proof of the tree validates. A compound proof, of two or of three layers, validates exactly if the sub-proof does and the sub-roots hash alike with heights 0 and 1, so it never does for an algorithm that tells those two apart. Two further theorems give concrete witnesses. |
| C21 | Data-bound validation | proved | The third theorem records that compound proofs are not accepted with their own data. |
| C22 | Validation of a base proof never panics | proved | Base proofs never panic; the second theorem records that compound proofs can. |
| C23 | Compound proof binding | proved |  |
| C24 | Stores behave like an array | proved |  |
| C25 | Capacity and bounds are enforced | partial | All writes and the element reads stay inside the region; false for DiskStore::read_into with a longer buffer (for every store whose file goes on beyond len, and a witness). |
| C26 | Compaction keeps exactly the cached rows | proved | Relative to an exact row count (FloatRows.ExactAt; see C58). |
| C27 | A level-cache view of a compacted tree is faithful | partial | Version 2 is proved in full. Version 1 misses one index: the first discarded index b^k silently returns the first cached element instead of Err (C27_v1_boundary_refuted). Relative to an exact row count (FloatRows.ExactAt; see C58). |
| C28 | Cached proofs equal full proofs | partial | Disk trees: proved for every request. Level-cache trees: the cached proof equals the full proof exactly when the rows taken as discarded (min of request and default) cover the rows discarded; otherwise Err on version 2 (also for every request when the configuration discards more rows than the default), and on version 1 Err as well, except for the leaves 2 and 3 of a binary tree with one discarded row, which get a silently different proof, given exactly. Relative to an exact row count (FloatRows.ExactAt; see C58) for heights up to the tree's. |
| C29 | Level-cache build equals disk build plus compaction | proved |  |
| C30 | Compacting twice cannot corrupt | proved | Relative to an exact row count (FloatRows.ExactAt; see C58) for the heights up to that of the tree. |
| C31 | A compacted disk tree never yields a wrong proof | proved | Relative to an exact row count (FloatRows.ExactAt; see C58). |
| C32 | Reopening a persisted tree gives the same tree | partial | new_from_disk + from_data_store: proved for Disk and Mmap in full, for LevelCache with a reader (root and sizes; proofs in C28). Constructors with a configuration: proved for DiskStore whatever leaves are passed, except from_byte_slice_with_config, which returns Err on every finished file; refuted for MmapStore (Err, or the file is overwritten) and LevelCacheStore (Err), for every tree. |
| C33 | An interrupted build is not mistaken for a finished one | partial | Holds for MmapStore and VecStore whatever the disk holds. Refuted for DiskStore and LevelCacheStore: a file of full length (which every build creates first, filled with zeros) is taken for a finished tree, so a retry after an iterator error or a crash returns a tree with the zero root for any leaves; LevelCacheStore has no length check at all. from_byte_slice_with_config refuses every existing file on both. |
| C34 | An interrupted compaction is detected on reopening | proved | Crash states: any number of bytes copied in any block sizes, then set_len; writes reach the disk in order. Beyond the statement: C34_disk_store_refuted and C34_version_1_refuted (the other constructors do not detect it), C34_unordered_writes_refuted (there is no sync between copy and set_len), C34_level_cache_build_refuted (the same check does not detect an interrupted LevelCacheStore build). |
| C35 | Consistency checks agree with opening | proved | For every file, range, arity (also 0 and 1), discard count, reader and float logarithm. The version 1 pair (is_consistent_v1, LevelCacheStore::new_from_disk), which the property does not claim, agrees only in one direction: the constructor accepts files of any length. |
| C36 | Stores with different ids do not share files | partial | Injectivity of data_path, and the frame property for every sequence of operations of every store, are proved in full, also for trees with two and three layers (the theorems ending in _whole). Partial because two different ids that contain slashes can name one file (x/./y and x/y): the refuted theorem gives the witness, and C36_path_components shows that ids without slashes are safe. |
| C37 | Compound trees address leaves in order | proved |  |
| C38 | Flat and nested compound constructors agree | proved |  |
| C39 | Mismatched sub-trees are rejected | proved |  |
| C40 | Serialized trees round-trip | partial | Round trip for VecStore, DiskStore and MmapStore; bad lengths refused by Disk and Mmap; VecStore ignores whatever follows the last whole element (C40_vec_trailing_refuted, for all data; witness). Refuted for LevelCacheStore on every tree: from_tree_slice returns Err, and from_tree_slice_with_config succeeds with a node of a lower row as its root when one row or more is discarded. |
| C41 | Parallel iteration visits every element once, in order | proved | For every split tree and every interleaving of next and next_back, over any store whose elements can be read. Beyond the statement: C41_read_error (a read error silently ends the iteration) and C41_passing_error_refuted (after a passing read error the iterator runs past its end). |
| C42 | Leaf and interior hashes are domain separated | proved | For every hasher the writes made for a leaf and for a node concatenate to two byte strings that always differ and determine the item, or the children and their number. For a streaming hasher the hashes are those of these byte strings. |
| C43 | Hasher state never leaks between leaves or nodes | proved | For every algorithm whose reset restores the initial state (the default does). populate_data, populate_data_par and Proof::validate are equal, as programs, to themselves with a fresh hasher for each leaf and node, on any store and any proof. Example shows that a reset that does nothing leaks. |
| C44 | Hashable encodings are concatenations | partial | Proved for all instances of src/hash_impl.rs and any hasher in which writing pieces equals writing their concatenation and an empty write does nothing. With the first law alone it holds for non-empty slices and fails for the empty slice of integers, which is written as an empty string (refuted with a hasher that notices it). The machine's word size and byte order are parameters. Beside it: tuples of strings are ambiguous, since no length or terminator is written. |
| C45 | Element byte codec round-trips | proved | For [u8; 32], shown to obey the contract, and for every element type that does. |
| C46 | Sizes never overflow a 64-bit usize in the supported range | partial | Both builds are modelled: overflow checks on (panic) and off (wrap). Proved for every tree whose bytes fit in 64 bits, and for inputs that are no tree as well, with one exception that is refuted: get_merkle_tree_leafs on a length beyond the largest tree of the arity whose leaf count is a word loops forever instead of returning an error (arity 2^32 and 2^32 + 2 nodes suffice). For arities up to the element size this cannot happen. The floating point row count is a parameter. |
| C47 | External reader offsets are honoured | proved |  |
| C48 | A non-empty tree is not reported empty | partial | Base trees are not reported empty; compound trees always are (refuted for every one). |
| C49 | A corrupt replica cannot produce a valid proof for a wrong leaf | proved | Stronger than asked: whatever the store or the external reader returns for any request, a cached proof that validates is the original tree's own proof, or a collision between its transcript and the original proof's is exhibited; a proof for a leaf that reads differently carries that leaf and validates to false (or a collision). Same hypotheses as C16: a lawful reset, and an algorithm whose multi_node heights agree between build and validate (arity 2, or height-independent); exact float row count at the tree's height for opening the store. |
| C50 | Range reads return exactly the requested elements | partial | Range reads agree with single reads; VecStore panics out of range, read_range_into is unimplemented for VecStore and MmapStore, the stores themselves panic for a range that ends before its start, and read_range_into of DiskStore and LevelCacheStore does not look at the end of the range (witnesses). |
| C51 | A root binds the items below it | proved | The collision is given explicitly: two byte strings hashed in the two trees. C51_byte_slice_refuted shows why from_byte_slice is left out of the statement: it does not hash its input, so row 1 of a tree, given as bytes, yields a tree with the same root. |
| C52 | Compound trees can be put together from stored parts | partial | Equality of the trees is proved in full for VecStore, DiskStore and MmapStore. On LevelCacheStore it is proved for files of version 1 (leaves and cached nodes); files of version 2 are refused, because the store is opened without a reader. Of the last sentence, three cases are refuted: too few configurations panic, from_sub_tree_store_configs without a top layer panics, and a missing file is reported as Err but leaves a file of zeros behind which the same call takes for a finished tree when repeated. |
| C53 | Compacting and re-initialising a memory-mapped tree loses nothing | proved | DiskStore compaction is C26. |
| C54 | Deleting a tree frees its configuration for another | partial | Refuted for MmapStore, whose delete returns Ok and leaves the file; building again with the configuration then fails. Deleting while handles are open is C79. |
| C55 | Derived configurations | proved |  |
| C56 | How validation ends, for every proof made by Proof::new and by setting sub_tree_proof | proved |  |
| C57 | Nothing in a valid compound proof can be changed unnoticed | partial | Refuted: at a compound layer anything can be inserted in the lemma between the siblings and the root, and anything appended to the path. Proved for proofs whose compound lemmas have the length of honest ones; in general the data that is looked at is bound (C23). |
| C58 | The floating point row count is exact | partial | Exact for every arity and leaf count of 64 bits but one: arity 2^21 with 2^42 leaves gets two rows instead of three (C58_exception_refuted). Assumes that ln is correctly rounded at powers of two (a field of Verif.Ieee; IEEE 754 does not prescribe it); conversions, product and quotient are those of IEEE 754. |
| C59 | A compound root binds the items below it | proved | For hashers that hash the concatenation of what they are given (Streaming) with the default Algorithm methods. Compound trees as from_trees and from_sub_trees return them. |
| C60 | Range reads of a compacted tree | partial | Holds for ranges inside the leaves, inside the cached rows, starting at a discarded node (except the first one in version 1) or ending past the tree. Fails for ranges that start in the leaves and end above them: version 2 returns what the replica holds after the leaves, version 1 with discarded rows returns cached nodes in place of discarded ones. |
| C61 | Uncached proofs from a compacted tree | partial | Proved for version 2, and for version 1 except leaves 2 and 3 of a binary tree with exactly one discarded row. There gen_proof returns Ok with a proof that has a cached node in place of the discarded sibling. |
| C62 | Trees fresh from a build on LevelCacheStore | partial | Before a reader is set, proofs and reads past the cached nodes are errors, but reads at low indices return cached nodes in place of leaves. After the reader is set everything holds. |
| C63 | Archiving a compound tree loses no proof | proved | Holds for version 2 files, for parts each in a file of its own, relative to an exact row count (FloatRows.ExactAt; see C58) for heights up to that of the parts, and when the requested rows cover the discarded rows of every part. |
| C64 | Operations of a tree on its own store | proved | The effect of the store operations themselves is stated in C26, C53 and C54. |
| C65 | Byte offsets on 64-bit words | partial | Holds for every request whose last byte offset is a word (ranges with start at most end), in both compilation modes. Refuted for larger indices: without overflow checks a read or write far outside of the store reaches one of its elements, with them it panics. For element sizes that are powers of two the result of read_at, read_into and write_at is stated at every 64-bit index of all three stores, and the refutations are for these sizes from 2 on. Building is C71, compaction and cached proofs C73, compound trees C74. |
| C66 | Writing to a level-cache store | partial | Writing is proved in full. The array behaviour holds for stores of new_with_config on the leaves, and on all nodes if rows_to_discard is 0. It fails elsewhere: with a discarded row, reads beyond the leaves return other elements or Err (C66_array_refuted), and from a store made by new nothing can be read at all (C66_new_refuted). |
| C67 | from_data_store accepts exactly whole trees | partial | Proved for every store and arity other than 1. For arity 1 the call does not return. Nothing about the contents of the store is checked (witness): the result is a Merkle tree exactly if the store holds one. |
| C68 | Stores made from bytes hold exactly these bytes | partial | Holds for DiskStore without configuration. Fails elsewhere: VecStore drops a trailing partial element; VecStore and MmapStore panic when there are too many elements; with a configuration DiskStore leaves the file behind after the refusal and the same call again succeeds with zeros; a LevelCacheStore made by new_from_slice cannot be read. LevelCacheStore::new_from_slice_with_config is right up to a row of leaves, leaves the file behind on a refusal, and ignores the bytes when the file exists. |
| C69 | A valid proof shows a leaf of the tree it has the root of | partial | Holds for proofs with as many layers as the tree has rows above the leaves (C69_leaf), and without that condition when the item is known to be a leaf hash, as validate_with_data checks for base proofs (C69_item, C69_data; default hash methods and a streaming hasher). Without it validate accepts an interior node of the tree as item, on every tree and for every interior node (C69_depth_every_refuted; C69_depth_refuted is a concrete case whose item is no leaf). For algorithms that ignore the height argument; from_trees hashes its root with height 1 whatever lies below (C69_same_shape_height_refuted). |
| C70 | Errors of the store are passed on and never turn into a wrong result | partial | Proved for every store that imitates another one up to Err. Two families of such stores are given: calls of a VecStore or MmapStore failing by plan, and DiskStore, LevelCacheStore and MmapStore over a disk on which every system call may fail by plan (Model/Flaky, Model/FlakyMmap). Partial because of three refuted spots: the parallel iterator loses errors, a failing read_range_into with start > end panics, and MmapStore::new_from_disk panics on a file that cannot be opened for writing. |
| C71 | Construction on 64-bit words | proved | Whole runs are compared, for all schedules of the parallel loops: result, error or panic, and files. C71_tree_* combine it with C08: what is built on words is the Merkle tree of the leaves, read back with word offsets. For arities other than two LevelCacheStore assumes that the floating-point computation of the number of rows gives at least one. The limits of the allocator and the growth of a Vec are not modelled. |
| C72 | Unsupported operations | proved | The two types of trees in the model share no code; C72_no_top_layer says that they agree where both apply. |
| C73 | Compaction and cached proofs on 64-bit words | proved | Whole runs are compared, for all schedules: result, error or panic, and files. C73_cached_is_full combines it with C28: on words too, the cached proof of every leaf is the proof without a cache. The statements assume that the floating-point computation of the number of rows is exact for the two heights used, and for compaction that it gives at least one, that the store was made for at least the elements it counts, and that a full tree of the arity with at least as many nodes has less than 2^64 leaves. |
| C74 | Compound trees on 64-bit words | proved | LayersRunAs bundles the constructors that make their own stores: from slices with and without configurations, and from configurations with one layer of sub-trees and with two. The number of rows, a floating-point result, is assumed to be two less than 2^64. |
| C75 | After an I/O error nothing wrong is served | partial | Opening changes nothing; a compaction that fails before the copy changes nothing; after any failed compaction new_from_disk_with_reader returns Err or serves the right cached rows (for a failing copy that has copied some bytes, in blocks of any size). Refuted: a build that returned Err leaves a file of full length that the next build takes for a finished tree (every build from an iterator or from data whose file can be written and not mapped, and every parallel build whose file can be created and not written to, on DiskStore and LevelCacheStore), and after a failed compaction the DiskStore tree reads overwritten leaves. MmapStore and VecStore are right whatever the files hold (C33_mmap, C33_vec). |
| C76 | I/O success is real, and I/O errors come from the disk | proved | Whether a system call fails is a function of the call and the files. For the layers of a build, the files at the moment of the call are not spelled out. Writes through a memory map do not fail in the model. |
| C77 | Workers interleaved byte by byte build the same tree | proved | Success, tree and files. Which error a failing build reports may depend on the order. |
| C78 | A second handle after compaction serves nothing wrong | partial | Proofs and cached proofs: Err for every index (after version 1 a cached proof that is computed from the leaves alone is still right), except on a binary tree of four leaves compacted to version 1 (refuted there: an invalid proof comes out). A compaction to version 1 that discards no row leaves the file as it is, so there the proofs stay right. Single reads: refuted; the theorems say exactly which node is returned. Second compaction: Err and no change, except after version 1 with a second configuration that discards no row (refuted there: Err, but leaves are overwritten). |
| C79 | A tree that is open while its file is deleted | partial | Holds except for the last sentence: compact opens the file its configuration names and never looks at the file the tree has open (C79_compact_any). Nothing there: Err (C79_compact_gone). If a tree of the same size was built in the place of the deleted one, compacting the deleted tree returns Ok(true), compacts the other tree's file, and leaves a tree with the old root and the other's nodes (C79_compact_refuted, for every such pair). Model/Unlink describes the deletion of an open file by giving the file an anonymous name which its handles follow. A level-cache tree needs a reader that still reads the same leaves. The theorems ending in _whole are about trees with two and three layers, of which one base tree's file is deleted. |
| C80 | What the stores dereference to | partial | Proved for VecStore, for built MmapStore trees and for compact and reinit. The last sentence is false of MmapStore: a new one has no elements and dereferences to the zero bytes of its whole size. |
| C81 | A proof depends on the nodes on its path only | proved | The three from_... theorems show that the shape the others assume is what the constructors return. |
| C82 | Changing one leaf changes the nodes above it only | proved | C82_node: a node depends on the leaves below it only. C82_off_path and C82_on_path: exactly the path of the changed leaf changes, up to a collision that is exhibited. C82_path says what the path is. C82_proof: same siblings and path for the changed leaf, and the new root is the only one with which they validate for the new leaf (for algorithms that agree on the heights, as in C14). C82_other_proof: at most one sibling changes in the proof of another leaf. The trees are any trees with the right nodes (IsTreeOf), which is what C08 shows of every build. |
| C83 | Proofs on 64-bit words | partial | Proved: agreement with the natural numbers while sizes fit (C83_new, C83_validate), and with it totality (C83_total) and completeness (C83_complete). C83_new_overflow, C83_capacity and C83_capacity_layer say what happens beyond. Refuted: without overflow checks and for the arity 2^62 + 2, Proof::new accepts a lemma of six elements with four path entries, and validating that panics (C83_release_refuted). C83_arity_zero records what arity 0 does, where the two builds differ. |
| C84 | Proofs changed through lemma_mut | partial | C84_reachable says which proof values safe code can make, C84_made which of them Proof::new makes. Proved for all values: when validation is true, false, Err and a panic (C84_base, C84_validate), binding (C84_binding) and what a valid proof says about a tree with its root (C84_node, C84_leaf, C84_item, C84_data), all about the part of the path that validation gets to. Refuted: with one lemma element more, every proof made by Proof::new with a path in range panics on validation (C84_longer_refuted); and further path entries go unnoticed, so that path() of a valid proof need not lead to its item (C84_path_refuted). |
| C85 | Changing one leaf of a compound tree | proved | For compound trees whose parts are Merkle trees that can be read back (IsTree), on any two stores and file systems; the root statement names the two colliding lists. |
| C86 | Writing to a compacted DiskStore | partial | compact leaves store_size as it was. So between the new and the old length write_at and push succeed: the file grows, with zeros between, and a file compacted to version 2 can no longer be opened with a reader. Relative to an exact row count (FloatRows.ExactAt; see C58). |
| C87 | Opening trees over a replica reports what is missing | partial | Relative to an exact row count (FloatRows.ExactAt; see C58), and arity one excepted. Violated in a tree type without a top layer: from_sub_tree_store_configs_and_replica divides by the top arity 0 and panics. Up to top-1 configurations too many are ignored rather than refused, and the replica may be too short for its leaves. |
| C88 | Debug output agrees with the accessors | partial | Violated twice. After compaction Debug shows the length before compaction while len() asks the store. LevelCacheStore shows its length under elem_len as well. C88_built_cached is for trees that discard fewer rows than there are layers. |
| C89 | A valid proof with the root of a tree is the tree's own | proved | Without the condition on the number of path entries it is false for algorithms that ignore the height (C69_depth_every_refuted), without the one on the lemma lengths false for compound proofs (C57_slack_refuted). |
| C90 | A store says it was loaded exactly when it took over a file | partial | Proved in full for DiskStore, and for LevelCacheStore with the constructors of trait Store. The code violates it in two places: a LevelCacheStore opened with a reader always says it was not loaded, and so does every MmapStore, also one opened from an existing file. |
| C91 | compact ends | partial | Violated. The exact condition under which compact does not end is given for every store. For a store whose file has room for its nodes this is one case only: version 1, arity 2, no rows discarded, and 2^(k+1)-2 nodes, which get_merkle_tree_leafs accepts (C02). A file of that size opens as a DiskStore, and compacting it writes to the file forever. Compacting a tree always ends. C91_copy_forever derives the endless copy from the copy in blocks of any size. |
| C92 | A tree over data commits to the data | partial | Violated for tuples and slices of strings: the encoding has no lengths in it, so the tree over (a, bc) is the tree over (ab, c), and a proof for the one validates with the other (C92_tuples_refuted); two slices that are the same text cut in different places are the same to from_data (C92_slices_refuted). Proved in general: what is committed to is the list of the encodings, of values of any types, up to a collision that is exhibited (C92_binding for base and compound trees, C92_built for what the constructors return), and nothing more (C92_same). For integers, byte arrays, byte vectors, booleans, characters and strings the encoding determines the value (C92_injective), and also for tuples and slices of components with encodings of one length (C92_fixed_length, C92_lengths). |
