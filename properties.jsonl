{"id": "C01", "title": "Tree length is the exact node count", "statement": "For an arity b that is a power of two (b >= 2) and b^k leaves (k >= 1), get_merkle_tree_len returns 1 + b + ... + b^k; it returns Err whenever there are fewer leaves than the arity, the arity is not a power of two, or (binary case) the leaf count is not a power of two.", "quantifier": "every arity, every leaf count, no bound on the tree's height", "why_tests_cant": "The unit test checks a dozen literals; an off-by-one in the shift loop for one arity or height would pass it.", "anchors": ["src/merkle.rs:get_merkle_tree_len"]}
{"id": "C02", "title": "Leaf count recovered from a tree length is exact", "statement": "get_merkle_tree_leafs(get_merkle_tree_len(leafs,b),b) = leafs for every valid tree, and get_merkle_tree_leafs(len,b) returns Ok only when len is the length of a valid tree of arity b.", "quantifier": "every power-of-two arity and every length", "why_tests_cant": "The two functions use unrelated loops (one shifts down, one accumulates up) and a binary shortcut; tests compare a few lengths.", "anchors": ["src/merkle.rs:get_merkle_tree_leafs", "src/merkle.rs:get_merkle_tree_len"]}
{"id": "C03", "title": "Tree-size validity check is exact and terminates", "statement": "is_merkle_tree_size_valid(leafs,b) terminates and returns true exactly when b is a supported arity (a power of two, at least two) and leafs is a power of b.", "quantifier": "every leaf count and every arity", "why_tests_cant": "Infinitely many (leafs, arity) pairs; non-termination cannot be observed by a finite test.", "anchors": ["src/merkle.rs:is_merkle_tree_size_valid"]}
{"id": "C04", "title": "Row count is the number of rows", "statement": "get_merkle_tree_row_count(b^k,b) = k+1, which is the number of rows of the tree that the build actually produces.", "quantifier": "every arity and height", "why_tests_cant": "Tests check the row count only for the few sizes they build.", "anchors": ["src/merkle.rs:get_merkle_tree_row_count", "src/store/mod.rs:Store::build"]}
{"id": "C05", "title": "Cache size is exactly the rows kept", "statement": "get_merkle_tree_cache_size(b^k,b,d) returns the number of nodes in the rows above the base and the d discarded rows (itself the length of a tree with b^(k-1-d) leaves) and returns Err exactly when d >= k.", "quantifier": "every arity, height and number of discarded rows", "why_tests_cant": "Tests check three sizes for arity 8; the on-disk format of every compacted store depends on it.", "anchors": ["src/merkle.rs:get_merkle_tree_cache_size"]}
{"id": "C06", "title": "Default discard count is always usable", "statement": "StoreConfig::default_rows_to_discard never asks to discard the base row's whole complement: for every tree with at least two rows get_merkle_tree_cache_size with that value succeeds and leaves at least the root: the value is 0 for up to two rows, otherwise the number of rows minus two, capped at 7, 5 or 2 for arity 2, 4 or more.", "quantifier": "every arity and height", "why_tests_cant": "A wrong branch would only show on small heights or unusual arities.", "anchors": ["src/store/mod.rs:StoreConfig::default_rows_to_discard", "src/merkle.rs:get_merkle_tree_cache_size"]}
{"id": "C07", "title": "Generic length formula matches compound trees", "statement": "get_merkle_tree_len_generic::<B,S,T>(leaves) equals len() of the tree obtained by assembling base trees of that many leaves with from_trees / from_sub_trees / from_sub_trees_as_trees.", "quantifier": "every base arity, sub arity, top arity and leaf count", "why_tests_cant": "Tests check one shape per kind.", "anchors": ["src/merkle.rs:get_merkle_tree_len_generic", "src/merkle.rs:MerkleTree::from_trees", "src/merkle.rs:MerkleTree::from_sub_trees", "src/merkle.rs:MerkleTree::len"]}
{"id": "C08", "title": "A built tree is the Merkle tree of its leaves", "statement": "When construction from leaves succeeds, every stored node is the hash of its b children one row below, rows are laid out contiguously leaves first, len is the exact node count, and root() is the top node.", "quantifier": "every element type, hash algorithm, power-of-two arity, number of leaves and store backend (VecStore, DiskStore, MmapStore, LevelCacheStore)", "why_tests_cant": "Tests compare a handful of roots for one or two hash functions and sizes; they cannot cover every size across the small-tree and chunked build paths.", "anchors": ["src/store/mod.rs:Store::build", "src/store/mod.rs:Store::build_small_tree", "src/store/mod.rs:Store::process_layer", "src/store/disk.rs:DiskStore::build", "src/store/disk.rs:DiskStore::process_layer", "src/store/level_cache.rs:LevelCacheStore::build"]}
{"id": "C09", "title": "Parallel build is schedule independent", "statement": "Whatever order and interleaving the worker threads use for their locked reads and writes, the build produces the same store contents and the same root.", "quantifier": "every interleaving of the worker steps in every layer, and every order of chunk writes while populating leaves", "why_tests_cant": "Races only show under particular interleavings; a test run sees one.", "anchors": ["src/store/mod.rs:Store::process_layer", "src/merkle.rs:populate_data_par", "src/store/disk.rs:DiskStore::process_layer"]}
{"id": "C10", "title": "All constructors agree", "statement": "new, try_from_iter, from_par_iter, from_data and from_byte_slice (given the leaf-hashed bytes) and their _with_config variants produce the same root, leafs, len and row_count for the same logical leaves on every store backend.", "quantifier": "every leaf sequence, arity, hash algorithm and store backend", "why_tests_cant": "Tests compare constructors on one data set per size.", "anchors": ["src/merkle.rs:MerkleTree::try_from_iter", "src/merkle.rs:MerkleTree::from_par_iter", "src/merkle.rs:MerkleTree::from_byte_slice", "src/merkle.rs:MerkleTree::from_data", "src/merkle.rs:MerkleTree::new"]}
{"id": "C11", "title": "Construction succeeds exactly for full trees", "statement": "Construction from n leaves with power-of-two arity b in 2..4096 returns Ok if and only if n = b^k for some k >= 1; in every other case it returns Err and never a malformed tree.", "quantifier": "every leaf count and arity", "why_tests_cant": "Tests try a few bad counts; the rejection of e.g. 8 leaves of arity 4 happens only after the rows were hashed.", "anchors": ["src/merkle.rs:MerkleTree::try_from_iter", "src/store/mod.rs:Store::build", "src/merkle.rs:get_merkle_tree_len"]}
{"id": "C12", "title": "Lying or failing iterators are detected", "statement": "If the leaf iterator yields an error, construction returns that error and no tree; if it yields a different number of leaves than its size hint announced, construction never returns a tree.", "quantifier": "every iterator (any sequence of Ok/Err items, any size hint)", "why_tests_cant": "Tests use well-behaved vectors.", "anchors": ["src/merkle.rs:MerkleTree::try_from_iter", "src/merkle.rs:populate_data"]}
{"id": "C13", "title": "Construction always terminates", "statement": "Every constructor returns (Ok or Err) for every arity and every finite leaf sequence.", "quantifier": "every arity and leaf count", "why_tests_cant": "Non-termination cannot be observed by a finite test; arity 1 passes all the arity checks.", "anchors": ["src/merkle.rs:MerkleTree::try_from_iter", "src/store/mod.rs:Store::build_small_tree", "src/merkle.rs:is_merkle_tree_size_valid"]}
{"id": "C14", "title": "Proof completeness for base trees", "statement": "For every leaf index i, gen_proof(i) succeeds, its item is leaf i, its root is the tree's root, its path is i written in base b (least significant digit first), and validate returns true.", "quantifier": "every tree (any size, arity, store that keeps all nodes), every leaf index, and every algorithm; validation for every algorithm that ignores the height argument and, if the arity is 2, for every algorithm (C20 is about the rest)", "why_tests_cant": "Tests loop over a few thousand leaves of a few trees.", "anchors": ["src/merkle.rs:MerkleTree::gen_proof", "src/proof.rs:Proof::validate", "src/proof.rs:Proof::new"]}
{"id": "C15", "title": "Out-of-range proof requests are rejected", "statement": "gen_proof and gen_cached_proof with an index >= leafs return Err and never a proof, and never panic.", "quantifier": "every tree (base and compound) and every out-of-range index", "why_tests_cant": "Tests do not probe out-of-range indices on compound trees.", "anchors": ["src/merkle.rs:MerkleTree::gen_proof", "src/merkle.rs:MerkleTree::gen_sub_tree_proof", "src/merkle.rs:MerkleTree::gen_cached_proof"]}
{"id": "C16", "title": "Proof binding (soundness)", "statement": "Two base proofs with the same path that both validate against the same root either have the same item or exhibit two different node lists with the same hash. In particular a validating proof for position i against a built tree's root has leaf i as its item, unless it exhibits a hash collision.", "quantifier": "every pair of proofs, however produced, and every algorithm", "why_tests_cant": "No test can enumerate forged proofs.", "anchors": ["src/proof.rs:Proof::validate"]}
{"id": "C17", "title": "Tampering is detected", "statement": "Changing any element of a validating proof's lemma (item, any sibling or the root) makes validate return false, unless a hash collision is exhibited.", "quantifier": "every proof, every position and every replacement value", "why_tests_cant": "Tests replace one random element.", "anchors": ["src/proof.rs:Proof::validate", "src/proof.rs:Proof::lemma_mut"]}
{"id": "C18", "title": "Proof completeness for compound trees", "statement": "For a tree made with from_trees, gen_proof(i) succeeds for every leaf index i, its sub-proof is the proof of the leaf inside sub-tree i / (leafs/arity), its root is the compound root, and validate returns true.", "quantifier": "every sub-tree arity, base arity, base tree, leaf index and algorithm that ignores height", "why_tests_cant": "Tests use a few shapes.", "anchors": ["src/merkle.rs:MerkleTree::gen_sub_tree_proof", "src/proof.rs:Proof::validate_sub_tree_proof", "src/merkle.rs:MerkleTree::from_trees"]}
{"id": "C19", "title": "Proof completeness for compound-compound trees", "statement": "The same as C18 for trees made with from_sub_trees or from_sub_trees_as_trees: three nested layers of proof, all validating.", "quantifier": "every triple of arities, every leaf index, every height-ignoring algorithm", "why_tests_cant": "Tests use a few shapes.", "anchors": ["src/merkle.rs:MerkleTree::from_sub_trees", "src/merkle.rs:MerkleTree::from_sub_trees_as_trees", "src/proof.rs:Proof::validate_sub_tree_proof"]}
{"id": "C20", "title": "Proofs validate for algorithms that use the height argument", "statement": "An Algorithm may use the height passed to multi_node; generated proofs should validate for those algorithms too.", "quantifier": "every algorithm", "why_tests_cant": "All algorithms in the tests ignore the height.", "anchors": ["src/proof.rs:Proof::validate", "src/store/mod.rs:Store::build_small_tree", "src/merkle.rs:MerkleTree::from_trees", "src/proof.rs:Proof::validate_sub_tree_proof"]}
{"id": "C21", "title": "Data-bound validation", "statement": "validate_with_data(d) on a generated proof for leaf i of a tree built with from_data returns true when d is the i-th datum, and returns false whenever the leaf hash of d differs from the proof's item.", "quantifier": "every tree built by from_data, every index, every datum", "why_tests_cant": "validate_with_data is not called by any test.", "anchors": ["src/proof.rs:Proof::validate_with_data", "src/merkle.rs:MerkleTree::from_data"]}
{"id": "C22", "title": "Validation of a base proof never panics", "statement": "A base proof accepted by Proof::new can be validated without panicking, whatever its lemma contents and path entries; path entries outside the arity give false.", "quantifier": "every lemma and path accepted by Proof::new", "why_tests_cant": "Untrusted proofs come in every shape.", "anchors": ["src/proof.rs:Proof::new", "src/proof.rs:Proof::validate"]}
{"id": "C23", "title": "Compound proof binding", "statement": "Two compound proofs with the same shape and the same path at every layer that validate against the same root have the same innermost item, or exhibit a hash collision.", "quantifier": "every pair of nested proofs", "why_tests_cant": "No test can enumerate forged proofs.", "anchors": ["src/proof.rs:Proof::validate_sub_tree_proof", "src/proof.rs:Proof::validate"]}
{"id": "C24", "title": "Stores behave like an array", "statement": "Any sequence of write_at, copy_from_slice, push, read_at and read_range within capacity on VecStore, DiskStore and MmapStore returns what a plain growable array would return, and len is the array's length.", "quantifier": "every operation sequence and every element type", "why_tests_cant": "Tests exercise a few sequences.", "anchors": ["src/store/vec.rs:VecStore", "src/store/disk.rs:DiskStore", "src/store/mmap.rs:MmapStore", "src/store/mod.rs:Store"]}
{"id": "C25", "title": "Capacity and bounds are enforced", "statement": "A DiskStore write or push that does not fit the capacity returns Err and changes nothing; a read at or beyond len returns Err; no read returns bytes beyond len.", "quantifier": "every store state, index and buffer", "why_tests_cant": "Boundary cases at the exact capacity are rarely tested.", "anchors": ["src/store/disk.rs:DiskStore::store_copy_from_slice", "src/store/disk.rs:DiskStore::push", "src/store/disk.rs:DiskStore::read_at", "src/store/disk.rs:DiskStore::read_range", "src/store/mmap.rs:MmapStore::read_at"]}
{"id": "C26", "title": "Compaction keeps exactly the cached rows", "statement": "After DiskStore::compact succeeds the file holds exactly the cached rows (v2), or the base row followed by the cached rows (v1), and len is the number of elements in the file.", "quantifier": "every tree, arity, discard count and store version", "why_tests_cant": "Tests check sizes and a few proofs.", "anchors": ["src/store/disk.rs:DiskStore::compact"]}
{"id": "C27", "title": "A level-cache view of a compacted tree is faithful", "statement": "Opening a compacted file as LevelCacheStore (v1, or v2 with an external reader over the original leaves) makes read_at return the original tree's element for every base and cached index, and Err for every discarded index.", "quantifier": "every tree, arity, discard count, index and replica offset", "why_tests_cant": "Tests read through proofs only; the boundary index between data and cache is not covered.", "anchors": ["src/store/level_cache.rs:LevelCacheStore::new_from_disk", "src/store/level_cache.rs:LevelCacheStore::new_from_disk_with_reader", "src/store/level_cache.rs:LevelCacheStore::read_at", "src/store/level_cache.rs:LevelCacheStore::store_read_range"]}
{"id": "C28", "title": "Cached proofs equal full proofs", "statement": "gen_cached_proof(i, rows) on a disk tree or on a level-cache tree returns exactly the proof gen_proof(i) returns on the full tree, for every requested number of discarded rows.", "quantifier": "every tree, arity, index and requested discard count", "why_tests_cant": "Tests compare validation results for a few configurations.", "anchors": ["src/merkle.rs:MerkleTree::gen_cached_proof", "src/merkle.rs:MerkleTree::gen_proof_with_partial_tree", "src/merkle.rs:MerkleTree::build_partial_tree"]}
{"id": "C29", "title": "Level-cache build equals disk build plus compaction", "statement": "Building a LevelCacheStore from leaves leaves on disk exactly the bytes DiskStore build followed by v2 compaction would leave, and returns the same root.", "quantifier": "every leaf sequence, arity and discard count", "why_tests_cant": "Tests compare roots for a few sizes.", "anchors": ["src/store/level_cache.rs:LevelCacheStore::build", "src/store/level_cache.rs:LevelCacheStore::front_truncate", "src/store/disk.rs:DiskStore::compact"]}
{"id": "C30", "title": "Compacting twice cannot corrupt", "statement": "A second compact with the same configuration on an already v2-compacted store returns Err and leaves the file unchanged.", "quantifier": "every tree, arity and discard count", "why_tests_cant": "Never tested.", "anchors": ["src/store/disk.rs:DiskStore::compact"]}
{"id": "C31", "title": "A compacted disk tree never yields a wrong proof", "statement": "After compaction with at least one discarded row (v1) or any (v2), gen_proof on the DiskStore-backed tree returns Err for every index; it never returns a proof.", "quantifier": "every tree, arity, discard count, version and index", "why_tests_cant": "Never tested.", "anchors": ["src/store/disk.rs:DiskStore::compact", "src/merkle.rs:MerkleTree::gen_proof"]}
{"id": "C32", "title": "Reopening a persisted tree gives the same tree", "statement": "After a completed build with a configuration, opening the same configuration (new_from_disk + from_data_store, or any _with_config constructor) yields the same root, leafs, row_count and the same proofs, regardless of the leaves passed the second time.", "quantifier": "every tree and arity, every leaf sequence passed on reopening", "why_tests_cant": "Tests reopen a few trees.", "anchors": ["src/store/disk.rs:DiskStore::new_with_config", "src/store/disk.rs:DiskStore::new_from_disk_with_path", "src/merkle.rs:MerkleTree::from_data_store", "src/merkle.rs:MerkleTree::try_from_iter_with_config"]}
{"id": "C33", "title": "An interrupted build is not mistaken for a finished one", "statement": "If a build with a configuration is interrupted (crash, or an error from the leaf iterator), a later construction with the same configuration does not return a tree whose root is not the root of the leaves supplied.", "quantifier": "every crash point of a build, every iterator error position", "why_tests_cant": "Needs a crash between two specific file operations.", "anchors": ["src/store/disk.rs:DiskStore::new_with_config", "src/merkle.rs:MerkleTree::try_from_iter_with_config"]}
{"id": "C34", "title": "An interrupted compaction is detected on reopening", "statement": "At every crash point inside compact (including in the middle of the copy), opening the file with LevelCacheStore::new_from_disk_with_reader (v2) either fails or serves exactly the right cached rows.", "quantifier": "every crash point, byte by byte", "why_tests_cant": "Needs crashes at arbitrary points.", "anchors": ["src/store/disk.rs:DiskStore::compact", "src/store/level_cache.rs:LevelCacheStore::new_from_disk_with_reader", "src/store/level_cache.rs:LevelCacheStore::is_consistent"]}
{"id": "C35", "title": "Consistency checks agree with opening", "statement": "is_consistent returns true exactly when the matching constructor (DiskStore::new_from_disk, LevelCacheStore::new_from_disk_with_reader) accepts the file.", "quantifier": "every file content, length, arity and discard count", "why_tests_cant": "Infinitely many files.", "anchors": ["src/store/disk.rs:DiskStore::is_consistent", "src/store/level_cache.rs:LevelCacheStore::is_consistent", "src/store/level_cache.rs:LevelCacheStore::is_consistent_v1"]}
{"id": "C36", "title": "Stores with different ids do not share files", "statement": "Under one directory, data_path is injective in the id, so creating, writing, compacting or deleting one store never changes another store's file.", "quantifier": "every directory, every pair of ids, every operation", "why_tests_cant": "Tests use random ids.", "anchors": ["src/store/mod.rs:StoreConfig::data_path", "src/store/disk.rs:DiskStore::delete"]}
{"id": "C37", "title": "Compound trees address leaves in order", "statement": "On compound and compound-compound trees read_at(i) returns the leaf i mod n of sub-tree i / n, recursively, i.e. the i-th leaf of the concatenation of all base trees' leaves in the order supplied.", "quantifier": "every shape and every index below leafs", "why_tests_cant": "Tests read a few leaves.", "anchors": ["src/merkle.rs:MerkleTree::read_at", "src/merkle.rs:MerkleTree::from_trees", "src/merkle.rs:MerkleTree::from_sub_trees"]}
{"id": "C38", "title": "Flat and nested compound constructors agree", "statement": "from_sub_trees_as_trees over a flat list equals from_sub_trees over the list grouped in order into from_trees: same root, leafs, len, row_count, same leaf order.", "quantifier": "every list of base trees and every pair of arities", "why_tests_cant": "split_off/reverse order is easy to get wrong for unequal trees; tests use identical sub-trees.", "anchors": ["src/merkle.rs:MerkleTree::from_sub_trees_as_trees", "src/merkle.rs:MerkleTree::from_sub_trees"]}
{"id": "C39", "title": "Mismatched sub-trees are rejected", "statement": "from_trees, from_sub_trees and from_sub_trees_as_trees return Err unless the number of trees equals the arity (product) and all trees have the same length and row count; on success the root is the hash of the sub-roots in order, leafs is the sum, the length is the sum plus the new nodes, and the row count grows by one per layer.", "quantifier": "every list of trees and arities", "why_tests_cant": "Tests try a few mismatches.", "anchors": ["src/merkle.rs:MerkleTree::from_trees", "src/merkle.rs:MerkleTree::from_sub_trees", "src/merkle.rs:MerkleTree::from_sub_trees_as_trees"]}
{"id": "C40", "title": "Serialized trees round-trip", "statement": "from_tree_slice applied to the bytes of a built tree's nodes gives a tree with the same root, leafs, len, row_count and the same proofs, and it returns Err whenever the byte length is not that of a valid tree.", "quantifier": "every built tree and every byte slice", "why_tests_cant": "Tests round-trip a few trees.", "anchors": ["src/merkle.rs:MerkleTree::from_tree_slice", "src/store/vec.rs:VecStore::new_from_slice", "src/merkle.rs:is_merkle_tree_size_valid"]}
{"id": "C41", "title": "Parallel iteration visits every element once, in order", "statement": "However rayon splits a store's parallel iterator, concatenating the pieces gives exactly the store's elements in order; consuming one piece from both ends yields each element exactly once. Splitting at i leaves exactly i elements on the left, so rayon's enumerate and chunks give every element its index, and the iterators know how many elements they have left.", "quantifier": "every split tree and every interleaving of next and next_back", "why_tests_cant": "Split points depend on the thread pool.", "anchors": ["src/store/mod.rs:impl_parallel_iter"]}
{"id": "C42", "title": "Leaf and interior hashes are domain separated", "statement": "With the default Algorithm methods a leaf hash and an interior hash are always computed over different byte strings, and an interior hash over a byte string that determines the list of children (given their number or total length).", "quantifier": "every element and every child list", "why_tests_cant": "Infinitely many inputs.", "anchors": ["src/hash.rs:Algorithm::leaf", "src/hash.rs:Algorithm::multi_node", "src/hash.rs:Algorithm::node"]}
{"id": "C43", "title": "Hasher state never leaks between leaves or nodes", "statement": "The hash of a leaf or node computed with a reused (reset) hasher equals the one computed with a fresh hasher, so every leaf hash depends only on its own item.", "quantifier": "every sequence of leaves, every algorithm with the default reset", "why_tests_cant": "Tests would need a leak to show in a root.", "anchors": ["src/merkle.rs:populate_data", "src/merkle.rs:populate_data_par", "src/hash.rs:Algorithm::reset", "src/proof.rs:Proof::validate", "src/merkle.rs:MerkleTree::from_data"]}
{"id": "C44", "title": "Hashable encodings are concatenations", "statement": "Hashing a slice equals hashing its elements one after another and hashing a tuple or reference equals hashing its parts in order, for any hasher for which writing two byte strings equals writing their concatenation.", "quantifier": "every slice, tuple and streaming hasher", "why_tests_cant": "The integer slice implementations use raw memory views.", "anchors": ["src/hash_impl.rs:impl_write", "src/hash_impl.rs:impl_hash_tuple", "src/hash.rs:Hashable::hash_slice"]}
{"id": "C45", "title": "Element byte codec round-trips", "statement": "For [u8;32] (and any element obeying the trait's contract) from_slice(as_ref(e)) = e, copy_to_slice then from_slice is the identity, and from_slice panics on any other length.", "quantifier": "every element and every byte slice", "why_tests_cant": "2^256 values.", "anchors": ["src/merkle.rs:Element"]}
{"id": "C46", "title": "Sizes never overflow a 64-bit usize in the supported range", "statement": "Evaluated with wrapping 64-bit arithmetic, the sizing functions give the same results as unbounded arithmetic whenever the tree's byte size fits in 64 bits.", "quantifier": "every arity and leaf count in range", "why_tests_cant": "Overflow happens only at huge sizes that tests cannot allocate.", "anchors": ["src/merkle.rs:get_merkle_tree_len", "src/merkle.rs:get_merkle_tree_leafs", "src/merkle.rs:get_merkle_tree_cache_size", "src/merkle.rs:get_merkle_tree_row_count"]}
{"id": "C47", "title": "External reader offsets are honoured", "statement": "A level-cache tree over a replica with offset o reads base leaf i from bytes [o + i*len, o + (i+1)*len) of the replica and nothing else; trees opened with from_store_configs_and_replica use the i-th offset for the i-th configuration.", "quantifier": "every offset list, replica and index", "why_tests_cant": "Tests use a few offsets.", "anchors": ["src/store/mod.rs:ExternalReader::read", "src/store/mod.rs:ExternalReader::new_from_config", "src/merkle.rs:MerkleTree::from_store_configs_and_replica"]}
{"id": "C48", "title": "A non-empty tree is not reported empty", "statement": "is_empty() returns false for every tree that was built over at least one leaf.", "quantifier": "every tree, base or compound", "why_tests_cant": "The compound case is never asserted.", "anchors": ["src/merkle.rs:MerkleTree::is_empty"]}
{"id": "C49", "title": "A corrupt replica cannot produce a valid proof for a wrong leaf", "statement": "If the external reader of a level-cache tree returns altered leaf data, a proof produced by gen_cached_proof for an altered leaf does not validate, unless a hash collision is exhibited.", "quantifier": "every alteration of the replica and every index", "why_tests_cant": "No test can enumerate corruptions.", "anchors": ["src/merkle.rs:MerkleTree::gen_cached_proof", "src/store/level_cache.rs:LevelCacheStore::store_read_into", "src/proof.rs:Proof::validate"]}
{"id": "C50", "title": "Range reads return exactly the requested elements", "statement": "read_range(a,b) with a < b <= len returns the elements a..b-1 in order and read_range_into / read_into with a buffer of exactly the range's byte length fills it with their bytes; out-of-range requests return Err.", "quantifier": "every store state and range", "why_tests_cant": "Boundaries are sampled only.", "anchors": ["src/merkle.rs:MerkleTree::read_range", "src/merkle.rs:MerkleTree::read_range_into", "src/merkle.rs:MerkleTree::read_into", "src/store/disk.rs:DiskStore::read_range_into"]}
{"id": "C51", "title": "A root binds the items below it", "statement": "With the default Algorithm methods and a streaming hasher, two trees built from items (by new, try_from_iter, from_par_iter or from_data, of whatever arities, sizes and stores) that have the same root have the same arity and the same items, or two different byte strings hashed while building them have the same hash.", "quantifier": "every pair of item lists, arities, heights and stores", "why_tests_cant": "Second preimages are not found by sampling.", "anchors": ["src/hash.rs:Algorithm::leaf", "src/hash.rs:Algorithm::multi_node", "src/merkle.rs:MerkleTree::try_from_iter", "src/merkle.rs:MerkleTree::from_par_iter", "src/merkle.rs:populate_data"]}
{"id": "C52", "title": "Compound trees can be put together from stored parts", "statement": "from_slices, from_slices_with_configs, from_stores and from_store_configs, given the bytes, stores or files of existing trees, end as from_trees on those trees does and return the same compound tree: root, sizes, every read and every proof; from_sub_tree_store_configs returns the tree from_sub_trees_as_trees makes of them. None of the new trees disturbs another. Wrong numbers of slices, stores or configurations and missing files are reported as Err.", "quantifier": "every arity, height, number of trees, kind of store of the original trees, and (where laws of the store are proved) of the new ones", "why_tests_cant": "The tests compare a few shapes with the same store type, and never a missing file or a wrong number of configurations.", "anchors": ["src/merkle.rs:MerkleTree::from_slices", "src/merkle.rs:MerkleTree::from_slices_with_configs", "src/merkle.rs:MerkleTree::from_stores", "src/merkle.rs:MerkleTree::from_store_configs", "src/merkle.rs:MerkleTree::from_sub_tree_store_configs"]}
{"id": "C53", "title": "Compacting and re-initialising a memory-mapped tree loses nothing", "statement": "compact on an MmapStore tree only gives up the mapping and returns true (false when there is none); root and sizes stay, reads and proofs are Err until reinit, which restores the tree exactly; writing maps the file again by itself. compact on a VecStore tree and reinit on any other store change nothing; compact on a LevelCacheStore tree is Err and changes nothing.", "quantifier": "every built tree, store, configuration and version", "why_tests_cant": "A test sees one tree; that nothing at all changes, in any file, is a statement about all reads.", "anchors": ["src/merkle.rs:MerkleTree::compact", "src/merkle.rs:MerkleTree::reinit", "src/store/mmap.rs:Store::compact", "src/store/mmap.rs:Store::reinit"]}
{"id": "C54", "title": "Deleting a tree frees its configuration for another", "statement": "delete removes the file the configuration names and nothing else, and returns Err without changing anything if there is none. Afterwards a tree of any leaves can be built with the configuration and is the tree of those leaves, whatever the file held.", "quantifier": "every store with a file, file contents, configuration, and following construction", "why_tests_cant": "The tests delete only to clean up.", "anchors": ["src/merkle.rs:MerkleTree::delete", "src/store/disk.rs:Store::delete", "src/store/level_cache.rs:Store::delete", "src/store/mmap.rs:Store::delete", "src/store/vec.rs:Store::delete"]}
{"id": "C55", "title": "Derived configurations", "statement": "from_config keeps directory and rows to discard, takes the given id, and the given size or else the old one; the derived configuration names another file exactly if the id differs. The size field influences neither constructors nor compact.", "quantifier": "every configuration, id and size", "why_tests_cant": "Injectivity over all strings is not testable.", "anchors": ["src/store/mod.rs:StoreConfig::from_config", "src/store/mod.rs:StoreConfig::new", "src/store/mod.rs:StoreConfig::data_path"]}
{"id": "C56", "title": "How validation ends, for every proof made by Proof::new and by setting sub_tree_proof", "statement": "Validation of any proof that can be made with Proof::new and by setting the public field sub_tree_proof terminates. It panics exactly if a compound layer it gets to has no path entry or too short a lemma (or no sub-tree arity), returns Err exactly if sub-proofs are missing or superfluous, and otherwise returns true exactly if the path entries are in range and the hashes match.", "quantifier": "every proof value of every nesting depth, arities, lemma and path", "why_tests_cant": "Untrusted proofs come in every shape.", "anchors": ["src/proof.rs:Proof::new", "src/proof.rs:Proof::validate", "src/proof.rs:Proof::validate_sub_tree_proof", "src/proof.rs:Proof::sub_tree_root"]}
{"id": "C57", "title": "Nothing in a valid compound proof can be changed unnoticed", "statement": "Two valid proofs of the same shape with the same root are the same proof, or show a hash collision.", "quantifier": "every pair of proofs of every nesting depth", "why_tests_cant": "The space of altered proofs is unbounded.", "anchors": ["src/proof.rs:Proof::validate_sub_tree_proof", "src/proof.rs:Proof::validate"]}
{"id": "C58", "title": "The floating point row count is exact", "statement": "For every power-of-two arity and every power-of-two leaf count of at least the arity, the row count computed from the quotient of two rounded logarithms is the integer part of the exact logarithm plus one; so building succeeds exactly for full trees and gives the Merkle tree with valid proofs.", "quantifier": "every arity and leaf count below 2^64", "why_tests_cant": "A test checks a few sizes; a quotient rounding to just below an integer at a single size would lose a row, and the large sizes cannot be built.", "anchors": ["src/merkle.rs:get_merkle_tree_row_count", "src/merkle.rs:MerkleTree::new"]}
{"id": "C59", "title": "A compound root binds the items below it", "statement": "With the default hash methods and a streaming hasher, the root of a base tree, of a tree made by from_trees and of a tree made by from_sub_trees is the root of the Merkle tree over all the items whose rows have the arities of the layers. Two such trees with the same root have the same arities row by row and the same items, or show a hash collision.", "quantifier": "every pair of trees of up to three layers, all arities, sizes, stores and items", "why_tests_cant": "The pairs of trees with different items are unbounded, and trees of different shapes must also be told apart.", "anchors": ["src/merkle.rs:MerkleTree::from_trees", "src/merkle.rs:MerkleTree::from_sub_trees", "src/hash.rs:Algorithm::multi_node", "src/hash.rs:Algorithm::leaf"]}
{"id": "C60", "title": "Range reads of a compacted tree", "statement": "Reading a range through LevelCacheStore, as elements or into a buffer, returns exactly the nodes of the full tree at those indices, or Err when one of them was discarded or lies past the end.", "quantifier": "every tree, arity, number of discarded rows, file version, reader and range", "why_tests_cant": "Ranges that start in the leaves and end above them are not tested; they are read from the replica or across the gap in the file.", "anchors": ["src/store/level_cache.rs:LevelCacheStore::store_read_range", "src/store/level_cache.rs:LevelCacheStore::store_read_into", "src/store/level_cache.rs:Store::read_range"]}
{"id": "C61", "title": "Uncached proofs from a compacted tree", "statement": "gen_proof on a tree opened from a compacted file returns exactly the proof the full tree returns when no row was discarded, and returns Err, never a wrong proof, when a node it needs was discarded.", "quantifier": "every tree, arity, number of discarded rows, file version, reader and leaf", "why_tests_cant": "Tests call gen_cached_proof on compacted trees; gen_proof on them is not exercised, and the wrong proof appears for two leaves of one shape only.", "anchors": ["src/merkle.rs:MerkleTree::gen_proof", "src/store/level_cache.rs:LevelCacheStore::store_read_range", "src/store/disk.rs:Store::compact"]}
{"id": "C62", "title": "Trees fresh from a build on LevelCacheStore", "statement": "A tree built on LevelCacheStore never returns a node or a proof that is not the tree's: before a reader is set it returns Err for what its file does not hold, and after set_external_reader_path it returns the leaves and the cached rows.", "quantifier": "every source, arity, number of discarded rows and index", "why_tests_cant": "Tests always set a reader before they read; the state before that is not observed.", "anchors": ["src/store/level_cache.rs:Store::build", "src/store/level_cache.rs:LevelCacheStore::front_truncate", "src/merkle.rs:MerkleTree::set_external_reader_path", "src/merkle.rs:MerkleTree::gen_proof"]}
{"id": "C63", "title": "Archiving a compound tree loses no proof", "statement": "Compacting every part of a compound tree to version 2 and opening the compound tree again from the configurations and one replica, with from_store_configs_and_replica or from_sub_tree_store_configs_and_replica, returns a tree with the same leaf count and root, whose gen_cached_proof returns for every leaf exactly the proof that gen_proof returned before; no other file changes.", "quantifier": "every arity, height, number of parts, sub and top arity, replica offsets, rows to discard per part, requested rows covering them, leaf and schedule", "why_tests_cant": "The tests archive a few layouts with one offset step and one number of discarded rows for all parts; mixed offsets and depths, and every leaf of every layout, are beyond them.", "anchors": ["src/merkle.rs:MerkleTree::from_store_configs_and_replica", "src/merkle.rs:MerkleTree::from_sub_tree_store_configs_and_replica", "src/merkle.rs:MerkleTree::gen_cached_proof", "src/store/disk.rs:Store::compact"]}
{"id": "C64", "title": "Operations of a tree on its own store", "statement": "A compound tree has no store of its own: data() is None, and compact, reinit, read_range, read_range_into, read_into and set_external_reader_path return Err, never panic, and leave the tree, its parts and every file as they were. On a tree of one layer they are the operations of its store and change nothing else. delete acts on the configuration alone.", "quantifier": "every compound tree with two or three layers, every store type, configuration, path, range, buffer and file system", "why_tests_cant": "The tests never call these methods on compound trees; that nothing changes in any file cannot be observed by examples.", "anchors": ["src/merkle.rs:Data::store", "src/merkle.rs:MerkleTree::compact", "src/merkle.rs:MerkleTree::reinit", "src/merkle.rs:MerkleTree::delete", "src/merkle.rs:MerkleTree::data", "src/merkle.rs:MerkleTree::read_range", "src/merkle.rs:MerkleTree::read_range_into", "src/merkle.rs:MerkleTree::read_into", "src/merkle.rs:MerkleTree::set_external_reader_path"]}
{"id":"C65","title":"Byte offsets on 64-bit words","statement":"DiskStore, MmapStore and LevelCacheStore compute byte offsets as index * element size in usize. For stores of less than 2^63 bytes, every read and write, in range or out of range, gives the result of the computation on unbounded integers, and so does gen_proof: in particular requests outside of the store are Err.","quantifier":"every store of less than 2^63 bytes, every index or range given as words, both with and without overflow checks, all readers, elements and file systems","why_tests_cant":"Tests use small indices, where no offset overflows, and only one compilation mode at a time.","anchors":["src/store/disk.rs:DiskStore::read_at","src/store/disk.rs:DiskStore::write_at","src/store/mmap.rs:MmapStore::read_at","src/store/mmap.rs:MmapStore::write_at","src/store/level_cache.rs:LevelCacheStore::read_at","src/store/level_cache.rs:LevelCacheStore::store_read_range","src/store/mod.rs:ExternalReader::read","src/merkle.rs:MerkleTree::gen_proof"]}
{"id":"C66","title":"Writing to a level-cache store","statement":"write_at, copy_from_slice and push on a LevelCacheStore end exactly as on a DiskStore with the same file, length and capacity, with the same bytes written, and what does not fit is refused with Err without any change. A new LevelCacheStore without reader behaves, until rows are discarded, like a growable array: any sequence of writes and reads within its capacity returns what the array returns.","quantifier":"every store, operation sequence, element type, arity, height and number of rows to discard","why_tests_cant":"Tests fill level-cache stores only through the tree constructors and read them only after compaction.","anchors":["src/store/level_cache.rs:LevelCacheStore::write_at","src/store/level_cache.rs:LevelCacheStore::copy_from_slice","src/store/level_cache.rs:LevelCacheStore::push","src/store/level_cache.rs:LevelCacheStore::new","src/store/level_cache.rs:LevelCacheStore::store_read_range","src/store/level_cache.rs:LevelCacheStore::store_copy_from_slice"]}
{"id": "C67", "title": "from_data_store accepts exactly whole trees", "statement": "from_data_store returns Ok exactly if the arity is a power of two, leafs is a positive power of the arity, the store has as many elements as a tree with that many leaves has nodes and its last element can be read; otherwise it returns Err. The tree it returns reports the given leafs, the length of the store, and the store's last element as root, and it is a Merkle tree.", "quantifier": "every store, arity and leaf count", "why_tests_cant": "Tests only pass stores of finished trees; mismatched lengths, arities and contents are not tried.", "anchors": ["src/merkle.rs:MerkleTree::from_data_store", "src/merkle.rs:get_merkle_tree_len", "src/merkle.rs:is_merkle_tree_size_valid"]}
{"id": "C68", "title": "Stores made from bytes hold exactly these bytes", "statement": "new_from_slice and new_from_slice_with_config with a whole number of elements that fit make a store with exactly these elements; a partial element or too many elements give Err and leave no trace; copy_from_slice and from_byte_slice refuse partial elements.", "quantifier": "every kind of store, size and byte string, with the file absent or present", "why_tests_cant": "Tests always pass whole elements that fit; what a refused call leaves on disk is not looked at.", "anchors": ["src/store/vec.rs:VecStore::new_from_slice", "src/store/disk.rs:DiskStore::new_from_slice", "src/store/disk.rs:DiskStore::new_from_slice_with_config", "src/store/mmap.rs:MmapStore::new_from_slice_with_config", "src/store/level_cache.rs:LevelCacheStore::new_from_slice", "src/merkle.rs:MerkleTree::from_byte_slice"]}
{"id": "C69", "title": "A valid proof shows a leaf of the tree it has the root of", "statement": "If a proof validates and its root is the root of a tree (base or compound), then the arities of its layers are those of the tree's rows, its path leads to a leaf of the tree and its (innermost) item is that leaf, unless two different inputs hashed for the proof and for the tree collide. If validate_with_data accepts data for it, the data hash to the item the tree was built over at that place. Trees with the same arities row for row and the same leaves have the same root, however they were put together.", "quantifier": "every proof made by Proof::new and by setting sub_tree_proof (C84 for all others), every tree, arity, height, store and hash algorithm that ignores the height argument", "why_tests_cant": "Tests validate the proofs a tree generated; they cannot try every proof an adversary could make for a given root.", "anchors": ["src/proof.rs:Proof::validate", "src/proof.rs:Proof::validate_with_data", "src/merkle.rs:MerkleTree::from_trees", "src/merkle.rs:MerkleTree::from_sub_trees"]}
{"id":"C70","title":"Errors of the store are passed on and never turn into a wrong result","statement":"Let any calls of a store return Err (reads, writes, constructors, in any pattern), the store otherwise behaving as specified. Then reading a node, generating a proof (full or cached), and opening or assembling trees end with Err or give exactly the result of the store that does not fail; a constructor from leaves ends with Err or a panic or gives exactly that tree and the same files. So a tree that is returned has the root of the Merkle tree of its leaves, every node that can be read from it is right, and every proof it returns validates.","quantifier":"all fault patterns, trees (base, sub-tree, top-tree), arities, indices, leaves, schedules, hash algorithms, file systems","why_tests_cant":"The tests of the crate never make a store fail; there are infinitely many fault patterns, and a swallowed error only shows when the failing call is the one whose result matters.","anchors":["src/merkle.rs:384-1000","src/merkle.rs:1499-1817","src/merkle.rs:1955-2090","src/store/mod.rs:261-422"]}
{"id":"C71","title":"Construction on 64-bit words","statement":"The constructors of base trees compute lengths, indices and byte offsets in usize. While twice the leaves fit in 2^63 bytes, the arity is at most 2^63 and not one, and a block of BUILD_DATA_BLOCK_SIZE elements is less than 2^63 bytes, every constructor run on 64-bit words does the same as on unbounded integers: the same result, error or panic, and the same files. LevelCacheStore needs in addition a full tree of the arity with at least as many leaves and less than 2^64.","quantifier":"all four stores, every constructor with and without a configuration, all leaves, arities, algorithms, schedules, file systems, with and without overflow checks","why_tests_cant":"An overflow in a size or an offset shows only for sizes no test can build, and only in one of the two compilation modes.","anchors":["src/merkle.rs:MerkleTree::try_from_iter","src/merkle.rs:MerkleTree::from_par_iter","src/merkle.rs:MerkleTree::from_byte_slice","src/merkle.rs:MerkleTree::from_tree_slice","src/merkle.rs:MerkleTree::from_data_store","src/merkle.rs:populate_data","src/merkle.rs:populate_data_par","src/store/mod.rs:Store::build","src/store/mod.rs:Store::build_small_tree","src/store/disk.rs:DiskStore::build","src/store/level_cache.rs:LevelCacheStore::build","src/store/level_cache.rs:LevelCacheStore::new_with_config"]}
{"id": "C72", "title": "Unsupported operations", "statement": "What a store does not support ends in the same way whatever the arguments, and changes nothing: VecStore::new_from_disk and the read_range_into of VecStore and MmapStore panic, LevelCacheStore::compact returns Err, a replica read into too short a buffer or backwards panics, an element of a memory map whose file was cut is a fault, and an iterator without a size hint is refused with Err. On 64-bit words the answers are the same. A tree type without a top layer gives the reads, proofs and cached proofs of the same tree in a type whose top arity is zero.", "quantifier": "all stores, trees, arguments and file systems", "why_tests_cant": "Tests call none of these operations, or with one argument.", "anchors": ["src/store/vec.rs:VecStore::new_from_disk", "src/store/vec.rs:VecStore::read_range_into", "src/store/mmap.rs:MmapStore::read_range_into", "src/store/level_cache.rs:LevelCacheStore::compact", "src/merkle.rs:MerkleTree::gen_cached_proof", "src/store/mod.rs:ExternalReader::new_from_config", "src/store/mmap.rs:MmapStore::read_at", "src/merkle.rs:try_from_iter"]}
{"id":"C73","title":"Compaction and cached proofs on 64-bit words","statement":"DiskStore::compact, and gen_cached_proof of a base tree with all the sizes, indices and byte offsets it computes in usize, do the same on 64-bit words as on unbounded integers: the same result, error or panic, and the same files, for every index and number of rows to discard. Compaction needs the elements of the store and one more to fit in 2^63 bytes, a cached proof twice the leaves.","quantifier":"all trees whose recorded sizes are those of a full tree, whatever their nodes, all four stores, all indices, discarded rows, configurations, schedules, file systems, with and without overflow checks","why_tests_cant":"An overflow in a size or an offset shows only for sizes no test can build, and only in one of the two compilation modes.","anchors":["src/store/disk.rs:DiskStore::compact","src/merkle.rs:MerkleTree::gen_cached_proof","src/merkle.rs:MerkleTree::gen_proof_with_partial_tree","src/merkle.rs:MerkleTree::build_partial_tree"]}
{"id":"C74","title":"Compound trees on 64-bit words","statement":"The constructors of compound trees add up the leaves of the children, multiply the nodes of one child by their number and add a row, in usize. While twice the leaves of the whole tree and one are less than 2^64, and the stores of the base trees fit as in C71, every constructor of a compound tree and both kinds of proof from it do the same on 64-bit words as on unbounded integers.","quantifier":"all four stores, every constructor of compound trees including those with a replica, all algorithms, arities, configurations, file systems, indices, with and without overflow checks","why_tests_cant":"An overflow in a size or an offset shows only for sizes no test can build, and only in one of the two compilation modes.","anchors":["src/merkle.rs:MerkleTree::from_trees","src/merkle.rs:MerkleTree::from_sub_trees","src/merkle.rs:MerkleTree::from_sub_trees_as_trees","src/merkle.rs:MerkleTree::from_slices","src/merkle.rs:MerkleTree::from_stores","src/merkle.rs:MerkleTree::from_store_configs","src/merkle.rs:MerkleTree::from_store_configs_and_replica","src/merkle.rs:MerkleTree::from_sub_tree_store_configs_and_replica","src/merkle.rs:MerkleTree::gen_proof","src/merkle.rs:MerkleTree::gen_cached_proof"]}
{"id":"C75","title":"After an I/O error nothing wrong is served","statement":"When an operation of a file store returns Err because a system call failed, the files and the store are as they were, or later operations on them (retrying the build, opening the file, reading the tree) return Err or right results.","quantifier":"every pattern of failing system calls, every partial effect of a failing copy, trees, arities, discard counts, versions","why_tests_cant":"Needs system calls that fail at chosen points; the tests of the crate run on a disk that works.","anchors":["src/store/disk.rs:DiskStore::compact","src/store/disk.rs:DiskStore::new_with_config","src/store/disk.rs:DiskStore::build","src/store/level_cache.rs:LevelCacheStore::new_from_disk_with_reader"]}
{"id":"C76","title":"I/O success is real, and I/O errors come from the disk","statement":"Over a disk on which any system call can fail: when a call of DiskStore, LevelCacheStore or MmapStore returns Ok, then each system call it stands for (create, open, set_len, size, map, read, write, copy, sync, remove, at its file, offset and length) has succeeded; no failure is swallowed, except that opening for reading stands in for a failed opening for writing and that a path that cannot be examined counts as absent where the code says so. And on a disk that never fails every call has the outcome of the store without failures: no spurious error.","quantifier":"all fault plans, stores, indices, buffers, configurations, versions, schedules, hash algorithms and file systems","why_tests_cant":"A swallowed sync or set_len error changes no visible byte in a run on a healthy disk, and the tests run on healthy disks only.","anchors":["src/store/disk.rs:31-545","src/store/level_cache.rs:38-804","src/store/mmap.rs:30-305","src/store/mod.rs:55-67"]}
{"id":"C77","title":"Workers interleaved byte by byte build the same tree","statement":"The workers of a parallel build of DiskStore and LevelCacheStore read under a shared lock and write to the memory map under no lock. In whatever order their single byte reads and byte writes are interleaved (each worker reading before it hashes and hashing before it writes), a constructor succeeds in the same cases as when each worker handles its chunk in one step, with the same tree and the same files; in no layer is a byte written by one worker and read or written by another one.","quantifier":"all interleavings of byte accesses, constructors, leaves, arities, configurations, hash algorithms and file systems","why_tests_cant":"A test sees the interleavings its machine happens to produce; a race needs more than 4096 leaves and an unlucky moment.","anchors":["src/store/disk.rs:318-439","src/store/level_cache.rs:455-595"]}
{"id":"C78","title":"A second handle after compaction serves nothing wrong","statement":"When a stored tree is open through two DiskStore trees and one of them is compacted, the other one yields no wrong proof (gen_proof returns Err for every index; gen_cached_proof returns Err, or after version 1 the tree's own proof), its reads return the node they are asked for or Err, and compacting the file again through it returns Err and leaves the file as it is.","quantifier":"every tree, arity, discard counts, versions and index","why_tests_cant":"No test opens a store twice.","anchors":["src/store/disk.rs:DiskStore::compact","src/store/disk.rs:DiskStore::read_at","src/merkle.rs:MerkleTree::gen_proof"]}
{"id":"C79","title":"A tree that is open while its file is deleted","statement":"On Unix, deleting the file of an open tree takes away its name only. The open tree goes on answering every read and every proof as before, whatever is done afterwards with stores of any name, also with the same configuration. A tree built with the configuration afterwards is the tree of its own leaves, and what is written through the old one does not reach it. Compacting the deleted tree is Err and changes nothing.","quantifier":"every tree of the three file stores, every configuration, every following sequence of operations with configurations","why_tests_cant":"The tests delete only at the end; what a handle sees after other stores reuse the name is a statement about all sequences of operations.","anchors":["src/merkle.rs:MerkleTree::delete","src/merkle.rs:MerkleTree::compact","src/store/disk.rs:Store::delete","src/store/disk.rs:Store::compact","src/store/level_cache.rs:Store::delete"]}
{"id":"C80","title":"What the stores dereference to","statement":"A VecStore dereferences to its elements; the store of a built tree dereferences to all nodes of the tree, row by row. The MmapStore of a built tree dereferences to the concatenated encodings of all nodes and to nothing else. After compact, dereferencing an MmapStore panics, and after reinit it gives the bytes of the file. A store that is not full dereferences to what has been written, for both stores.","quantifier":"every leaf list, arity, algorithm, schedule and configuration; every store","why_tests_cant":"No test dereferences a store, and the equality with the nodes is a statement about every tree.","anchors":["src/store/vec.rs:Deref for VecStore","src/store/mmap.rs:Deref for MmapStore","src/store/mmap.rs:Store::compact","src/store/mmap.rs:Store::reinit"]}
{"id":"C81","title":"A proof depends on the nodes on its path only","statement":"Let leaf i of a tree lie in a base tree of b^k leaves, as its leaf j. gen_proof(i) reads, besides the roots kept in memory, exactly the leaf j and in each row the other children of the parent on the way to the base tree's root: k*(b-1)+1 nodes. It returns Ok exactly if each of these can be read, the proof then consists of them in this order, and if one cannot be read the call fails as the first such read. Hence every other node of that base tree and all files of the other base trees can be damaged, overwritten or missing without changing the proof. read_at(i) depends on one element. gen_cached_proof(i) depends on the leaf segment it hashes again and on those of these nodes that are leaves or lie above the rows taken as discarded.","quantifier":"every arity and height, every whole tree of one, two or three layers with equally many leaves per part, every store (with file-level versions for DiskStore and MmapStore), every two file systems and replacement stores, every leaf","why_tests_cant":"a test damages a few chosen nodes of a small tree; the claim covers all damage outside the path, for all sizes and layers at once","anchors":["src/merkle.rs:862-998","src/merkle.rs:1004-1353","src/merkle.rs:1432-1469"]}
{"id":"C82","title":"Changing one leaf changes the nodes above it only","statement":"In two full trees of the same arity and height whose leaves agree except for leaf i, all nodes agree except leaf i and the k nodes above it, on whatever stores the trees are. If leaf i differs, all of these differ too, or two different lists of nodes, one from each tree, have the same hash at the same height. The proof for leaf i has the same siblings and path in both trees, and the new root is the only root with which the old siblings and path validate for the new leaf. A proof for another leaf changes in at most one sibling, and in the root.","quantifier":"every arity 2, 4, 8, every height, every two lists of leaves that agree except at one position, every algorithm that resets its state (and, for validation, agrees on the heights), any two stores","why_tests_cant":"The claim is about every node of every pair of trees; a test compares a few nodes of a few trees.","anchors":["src/merkle.rs:gen_proof","src/store/mod.rs:process_layer","src/store/mod.rs:build_small_tree","src/proof.rs:validate"]}
{"id":"C83","title":"Proofs on 64-bit words","statement":"On 64-bit words, with and without overflow checks, Proof::new and validate behave as on natural numbers for every proof whose lists fit into memory and whose expected lemma length is below 2^64; so a proof accepted by Proof::new validates without a panic, and the proof of every leaf of a tree that fits into memory validates. When the expected length overflows, Proof::new panics with overflow checks; without them it never accepts a proof whose validation panics.","quantifier":"every proof of every nesting, every arity, element size and overflow mode","why_tests_cant":"The sizes at which words overflow cannot be reached by tests.","anchors":["src/proof.rs:Proof::new","src/proof.rs:Proof::validate","src/merkle.rs:get_merkle_proof_lemma_len"]}
{"id":"C84","title":"Proofs changed through lemma_mut","statement":"For every value of the type Proof, so also for those whose lemma was replaced through lemma_mut: validation never panics, terminates, and says exactly whether the hashes of the item and siblings end in the root; two valid proofs with the same root and shape show the same data, and a valid proof with the root of a tree shows the node its path leads to, unless there is a hash collision.","quantifier":"every proof value of every nesting depth, with any lemma and path; every arity from 2; every hash algorithm (for trees: that ignores the height argument)","why_tests_cant":"The tests change the lemma of a few generated proofs in place and never its length.","anchors":["src/proof.rs:Proof::lemma_mut","src/proof.rs:Proof::validate","src/proof.rs:Proof::validate_sub_tree_proof","src/proof.rs:Proof::validate_with_data","src/proof.rs:Proof::path"]}
{"id":"C85","title":"Changing one leaf of a compound tree","statement":"Take two compound trees made by from_trees, from_sub_trees or from_sub_trees_as_trees with the same arities, over any stores, whose leaves agree except for leaf i. Then gen_proof for leaf i gives proofs with the same siblings, paths and arities in every layer, so only the item and the recorded roots differ. For every other leaf the proofs have the same item, paths and arities and, over all layers together, at most one sibling differs. Parts that leaf i is not in keep their root and all their proofs, and with no leaf changed the roots and proofs are equal. If leaf i differs, the roots of the compound trees differ unless, on the way from leaf i to the root, two different lists of nodes, one from each tree, are hashed to the same value at the same height.","quantifier":"All arities, part heights, algorithms, stores, leaf lists and positions.","why_tests_cant":"Tests compare roots of a few fixed compound trees; no test changes one leaf and compares all proofs, for every arity and height, before and after.","anchors":["src/merkle.rs:MerkleTree::gen_proof","src/merkle.rs:MerkleTree::gen_sub_tree_proof","src/merkle.rs:MerkleTree::from_trees","src/merkle.rs:MerkleTree::from_sub_trees","src/merkle.rs:MerkleTree::from_sub_trees_as_trees"]}
{"id":"C86","title":"Writing to a compacted DiskStore","statement":"After compact a DiskStore accepts writes only inside the compacted file: write_at at an index below its new length replaces that element and nothing else, and write_at or push at or beyond its new length returns Err and changes no file.","quantifier":"every tree, arity, number of discarded rows, file version, element and index","why_tests_cant":"No test writes to a store after compacting it, so the size the store still remembers from before is never used.","anchors":["src/store/disk.rs:DiskStore::compact","src/store/disk.rs:DiskStore::write_at","src/store/disk.rs:DiskStore::push","src/store/disk.rs:DiskStore::store_copy_from_slice"]}
{"id": "C87", "title": "Opening trees over a replica reports what is missing", "statement": "from_store_configs_and_replica returns Ok exactly when there is one offset per configuration, the configurations are as many as the sub-tree arity, the replica file exists and every store file has the length of the cached rows; from_sub_tree_store_configs_and_replica likewise for the top*sub configurations that fill the tree. The root is then the hash over the last elements of the files. In every other case the result is Err, never a panic. set_external_reader_path returns Err exactly when the file is missing. None of the calls changes a file.", "quantifier": "every arity, height, list of configurations and offsets, replica path and file contents", "why_tests_cant": "The tests open a few well-formed sets of files; the failing combinations of lengths, missing files and arities are unbounded.", "anchors": ["src/merkle.rs:from_store_configs_and_replica", "src/merkle.rs:from_sub_tree_store_configs_and_replica", "src/merkle.rs:set_external_reader_path", "src/store/mod.rs:ExternalReader::new_from_config", "src/store/level_cache.rs:new_from_disk_with_reader"]}
{"id": "C88", "title": "Debug output agrees with the accessors", "statement": "Formatting a tree with Debug shows, under leafs, len, row_count and root, the values that the methods leafs(), len(), row_count() and root() return, for trees built from any source, made from a store, compacted or put together from parts. Formatting a LevelCacheStore shows its length, element length, width of the base layer, start of the cache, store size and origin.", "quantifier": "every arity, height, source of leaves, store kind, discard count and compaction version", "why_tests_cant": "No test looks at the Debug output, and whether the stored length still is the store's length depends on everything done to the tree before.", "anchors": ["src/merkle.rs:Debug for MerkleTree", "src/merkle.rs:len", "src/store/level_cache.rs:Debug for LevelCacheStore", "src/store/mod.rs:Debug for ExternalReader"]}
{"id": "C89", "title": "A valid proof with the root of a tree is the tree's own", "statement": "If a base proof made by Proof::new validates, has the root of a base tree and as many path entries as the tree has layers, then it is the proof gen_proof returns for the leaf its path leads to, lemma by lemma, or nodes of the tree collide with a list hashed for the proof. On binary trees this holds for every algorithm and every number of path entries, the collision then being one of children together with the height. A valid proof of a compound tree that has the shape and the lemma lengths of one of the tree's proofs is that proof, or there is a collision.", "quantifier": "every proof, tree, arity, height and store; every hash algorithm on binary base trees, else every one that ignores the height argument", "why_tests_cant": "It quantifies over all proofs anyone could write down for a tree, not over those the library generates.", "anchors": ["src/proof.rs:validate", "src/proof.rs:new", "src/merkle.rs:gen_proof"]}
{"id": "C90", "title": "A store says it was loaded exactly when it took over a file", "statement": "loaded_from_disk of a store is true exactly when its constructor took over a file that existed before the call: true after new_from_disk and new_from_disk_with_reader, after new_with_config and new_from_slice_with_config exactly if the configured file was there, false after new and new_from_slice. No later operation, build or compaction changes it, so the store of a tree made with a configuration tells whether the tree was opened or built.", "quantifier": "every file store, size, arity, byte string, configuration and file system, and every later operation", "why_tests_cant": "Tests look at the flag in one place; that it stays as it is through every operation and every state of the disk is a statement about all of them.", "anchors": ["src/store/disk.rs:new_with_config", "src/store/level_cache.rs:new_with_config", "src/store/level_cache.rs:new_from_disk_with_reader", "src/store/mmap.rs:loaded_from_disk", "src/merkle.rs:try_from_iter_with_config"]}
{"id": "C91", "title": "compact ends", "statement": "DiskStore::compact returns, with a result or an error, for every store, file, configuration and version. It copies the cached rows within one file up to the end of that file; copying to a higher position than the one read from would never reach the end.", "quantifier": "every store, arity, configuration, version and file system", "why_tests_cant": "The copy runs away only for a store that is one node short of a binary tree, compacted to version 1 without discarding rows; a test of this case would fill the disk.", "anchors": ["src/store/disk.rs:DiskStore::compact", "src/merkle.rs:get_merkle_tree_leafs", "src/merkle.rs:get_merkle_tree_cache_size"]}
{"id":"C92","title":"A tree over data commits to the data","statement":"With the default hash methods and a streaming hasher, two trees made by from_data over values of the library's Hashable types that have the same root have the same arities and hold the same values in the same order, or two different byte strings hashed for them collide. A base proof with the root of such a tree that passes validate_with_data for a value shows that the tree holds this value at the position of the path, or shows a collision.","quantifier":"every pair of lists of values, all Hashable types of the library, arities, stores and proofs","why_tests_cant":"Tests compare a few roots; a commitment is about all pairs of inputs.","anchors":["src/merkle.rs:349-374","src/hash_impl.rs:7-170","src/hash.rs:79-153","src/proof.rs:197-210"]}
