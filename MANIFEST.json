{
 "claims": [
  {
   "property": "C01",
   "status": "proved",
   "theorems": [
    "Verif.C01_tree_len_exact"
   ],
   "note": ""
  },
  {
   "property": "C02",
   "status": "partial",
   "theorems": [
    "Verif.C02_leafs_of_len",
    "Verif.C02_leafs_exact_partial",
    "Verif.C02_leafs_binary_partial",
    "Verif.C02_leafs_returns",
    "Verif.C02_leafs_exact_refuted"
   ],
   "note": "Round trip and termination for all arities; exactness false for arity 2 (lengths 2^k-2 accepted), proved for all other arities, exact description of what arity 2 accepts."
  },
  {
   "property": "C03",
   "status": "partial",
   "theorems": [
    "Verif.C03_size_valid_exact_partial",
    "Verif.C03_size_valid_arity_one_refuted"
   ],
   "note": "Proved for every arity except 1, where the loop provably never ends."
  },
  {
   "property": "C04",
   "status": "partial",
   "theorems": [
    "Verif.C04_row_count_binary",
    "Verif.C04_row_count_partial",
    "Verif.C58_row_count",
    "Verif.C58_exception_refuted"
   ],
   "note": "Binary exact; other arities relative to the floating point logarithm (C04_row_count_partial). With IEEE doubles (C58_row_count) it holds for every 64-bit size but one, arity 2^21 with 2^42 leaves (C58_exception_refuted)."
  },
  {
   "property": "C05",
   "status": "proved",
   "theorems": [
    "Verif.C05_cache_size_exact",
    "Verif.C05_cache_is_tail"
   ],
   "note": "Relative to an exact row count (FloatRows.ExactAt; see C58)."
  },
  {
   "property": "C06",
   "status": "proved",
   "theorems": [
    "Verif.C06_default_discard_usable",
    "Verif.C06_default_discard_value"
   ],
   "note": "Relative to an exact row count (FloatRows.ExactAt; see C58)."
  },
  {
   "property": "C07",
   "status": "partial",
   "theorems": [
    "Verif.C07_base",
    "Verif.C07_from_trees",
    "Verif.C07_from_sub_trees_partial",
    "Verif.C07_from_sub_trees_as_trees",
    "Verif.C07_no_sub_layer_refuted"
   ],
   "note": "All shapes with a sub-tree layer; false for from_sub_trees with no sub-tree layer (witness)."
  },
  {
   "property": "C08",
   "status": "proved",
   "theorems": [
    "Verif.C08_built_tree",
    "Verif.C08_vec",
    "Verif.C08_disk",
    "Verif.C08_mmap",
    "Verif.C08_level_cache"
   ],
   "note": "For configurations naming a file that does not exist yet; relative to a floating point row count that is the floor of the logarithm (FloatRows.FloorAt; see C58)."
  },
  {
   "property": "C09",
   "status": "proved",
   "theorems": [
    "Verif.C09_schedule_independent",
    "Verif.C09_vec",
    "Verif.C09_disk",
    "Verif.C09_mmap",
    "Verif.C09_level_cache"
   ],
   "note": ""
  },
  {
   "property": "C10",
   "status": "proved",
   "theorems": [
    "Verif.C10_constructors_agree",
    "Verif.C10_constructors_accept_alike",
    "Verif.C10_level_cache_agrees",
    "Verif.C10_level_caches_agree"
   ],
   "note": ""
  },
  {
   "property": "C11",
   "status": "partial",
   "theorems": [
    "Verif.C11_vec",
    "Verif.C11_disk",
    "Verif.C11_mmap_partial",
    "Verif.C11_level_cache",
    "Verif.C11_level_cache_no_config",
    "Verif.C11_mmap_small_refuted",
    "Verif.C11_mmap_exact_refuted",
    "Verif.C11_ok_iff_full"
   ],
   "note": "Exact acceptance for all four stores. 'Err otherwise' holds for Vec, Disk and LevelCache; MmapStore panics for exactly the powers of two from the arity to 1024 that are not powers of the arity, with every constructor."
  },
  {
   "property": "C12",
   "status": "partial",
   "theorems": [
    "Verif.C12_honest",
    "Verif.C12_honest_config",
    "Verif.C12_honest_level_cache",
    "Verif.C12_error_returned",
    "Verif.C12_config_panics_refuted"
   ],
   "note": "Never a tree from a lying or failing iterator: proved. The error is returned by try_from_iter, but try_from_iter_with_config panics instead (refuted for every instance)."
  },
  {
   "property": "C13",
   "status": "partial",
   "theorems": [
    "Verif.C13_returns_partial",
    "Verif.C13_level_cache_partial",
    "Verif.C13_arity_one_refuted",
    "Verif.C13_arity_one_any_fuel",
    "Verif.C13_mmap_partial"
   ],
   "note": "Every arity but one on Vec, Disk and LevelCache; on Mmap every constructor ends (C11 says when with a panic); arity one never returns (proved for any fuel)."
  },
  {
   "property": "C14",
   "status": "proved",
   "theorems": [
    "Verif.C14_proof_complete",
    "Verif.C14_built",
    "Verif.C14_vec",
    "Verif.C14_disk",
    "Verif.C14_mmap"
   ],
   "note": ""
  },
  {
   "property": "C15",
   "status": "partial",
   "theorems": [
    "Verif.C15_base",
    "Verif.C15_cached",
    "Verif.C15_compound_partial",
    "Verif.C15_compound_refuted"
   ],
   "note": "Err for base gen_proof and every gen_cached_proof; never a proof from a compound gen_proof, but it panics on every tree made by from_trees (proved)."
  },
  {
   "property": "C16",
   "status": "proved",
   "theorems": [
    "Verif.C16_binding",
    "Verif.C16_built_tree"
   ],
   "note": "The second theorem is for algorithms that ignore the height or binary trees, as C14."
  },
  {
   "property": "C17",
   "status": "proved",
   "theorems": [
    "Verif.C17_tampering_detected"
   ],
   "note": ""
  },
  {
   "property": "C18",
   "status": "proved",
   "theorems": [
    "Verif.C18_compound_complete",
    "Verif.C18_top_arity_not_checked"
   ],
   "note": "The second theorem records that from_trees does not check that the top arity is zero."
  },
  {
   "property": "C19",
   "status": "proved",
   "theorems": [
    "Verif.C19_from_sub_trees",
    "Verif.C19_from_sub_trees_as_trees"
   ],
   "note": ""
  },
  {
   "property": "C20",
   "status": "partial",
   "theorems": [
    "Verif.C20_base_partial",
    "Verif.C20_binary_partial",
    "Verif.C20_base_refuted",
    "Verif.C20_compound_iff",
    "Verif.C20_compound_every_refuted",
    "Verif.C20_top_iff",
    "Verif.C20_top_every_refuted",
    "Verif.C20_quad_refuted",
    "Verif.C20_compound_refuted"
   ],
   "note": "True, for every algorithm, for binary base trees and for base trees of two rows. False for every other base tree: if the algorithm tells the heights k-1 and (k-1)*(b-1) apart, no proof of the tree validates. A compound proof, of two or of three layers, validates exactly if the sub-proof does and the sub-roots hash alike with heights 0 and 1, so it never does for an algorithm that tells those two apart. Two further theorems give concrete witnesses."
  },
  {
   "property": "C21",
   "status": "proved",
   "theorems": [
    "Verif.C21_own_data",
    "Verif.C21_other_data",
    "Verif.C21_compound_own_data_false"
   ],
   "note": "The third theorem records that compound proofs are not accepted with their own data."
  },
  {
   "property": "C22",
   "status": "proved",
   "theorems": [
    "Verif.C22_base_validate_total",
    "Verif.C22_compound_validate_can_panic"
   ],
   "note": "Base proofs never panic; the second theorem records that compound proofs can."
  },
  {
   "property": "C23",
   "status": "proved",
   "theorems": [
    "Verif.C23_compound_binding"
   ],
   "note": ""
  },
  {
   "property": "C24",
   "status": "proved",
   "theorems": [
    "Verif.C24_vec",
    "Verif.C24_disk",
    "Verif.C24_mmap",
    "Verif.C24_disk_with_config",
    "Verif.C24_mmap_with_config"
   ],
   "note": ""
  },
  {
   "property": "C25",
   "status": "partial",
   "theorems": [
    "Verif.C25_disk_write",
    "Verif.C25_disk_copy",
    "Verif.C25_disk_push",
    "Verif.C25_disk_read",
    "Verif.C25_disk_read_range",
    "Verif.C25_disk_read_at_inside",
    "Verif.C25_disk_read_range_inside",
    "Verif.C25_mmap_read",
    "Verif.C25_mmap_read_range",
    "Verif.C25_mmap_push",
    "Verif.C25_mmap_write_panics",
    "Verif.C25_level_cache_read",
    "Verif.C25_disk_read_into_refuted",
    "Verif.C25_disk_read_into_exact_refuted"
   ],
   "note": "All writes and the element reads stay inside the region; false for DiskStore::read_into with a longer buffer (for every store whose file goes on beyond len, and a witness)."
  },
  {
   "property": "C26",
   "status": "proved",
   "theorems": [
    "Verif.C26_built",
    "Verif.C26_compact",
    "Verif.C26_refused"
   ],
   "note": "Relative to an exact row count (FloatRows.ExactAt; see C58)."
  },
  {
   "property": "C27",
   "status": "partial",
   "theorems": [
    "Verif.C27_v2",
    "Verif.C27_v2_replica",
    "Verif.C27_v1_partial",
    "Verif.C27_v1_boundary_refuted"
   ],
   "note": "Version 2 is proved in full. Version 1 misses one index: the first discarded index b^k silently returns the first cached element instead of Err (C27_v1_boundary_refuted). Relative to an exact row count (FloatRows.ExactAt; see C58)."
  },
  {
   "property": "C28",
   "status": "partial",
   "theorems": [
    "Verif.C28_disk",
    "Verif.C28_v2",
    "Verif.C28_v1_partial",
    "Verif.C28_built_partial",
    "Verif.C28_compound",
    "Verif.C28_compound_top",
    "Verif.C28_v2_beyond_default_refuted",
    "Verif.C28_v1_wrong_proof_refuted",
    "Verif.C28_v1_uncovered_refuted",
    "Verif.C28_vec_unimplemented"
   ],
   "note": "Disk trees: proved for every request. Level-cache trees: the cached proof equals the full proof exactly when the rows taken as discarded (min of request and default) cover the rows discarded; otherwise Err on version 2 (also for every request when the configuration discards more rows than the default), and on version 1 Err as well, except for the leaves 2 and 3 of a binary tree with one discarded row, which get a silently different proof, given exactly. Relative to an exact row count (FloatRows.ExactAt; see C58) for heights up to the tree's."
  },
  {
   "property": "C29",
   "status": "proved",
   "theorems": [
    "Verif.C29_level_cache_eq_compacted",
    "Verif.C29_succeed_alike"
   ],
   "note": ""
  },
  {
   "property": "C30",
   "status": "proved",
   "theorems": [
    "Verif.C30_compact_twice",
    "Verif.C30_compact_twice_v1"
   ],
   "note": "Relative to an exact row count (FloatRows.ExactAt; see C58) for the heights up to that of the tree."
  },
  {
   "property": "C31",
   "status": "proved",
   "theorems": [
    "Verif.C31_no_proof",
    "Verif.C31_v1_keep_all"
   ],
   "note": "Relative to an exact row count (FloatRows.ExactAt; see C58)."
  },
  {
   "property": "C32",
   "status": "partial",
   "theorems": [
    "Verif.C32_disk_open",
    "Verif.C32_disk_build",
    "Verif.C32_disk_iterator",
    "Verif.C32_disk_other_count",
    "Verif.C32_disk_tree_slice",
    "Verif.C32_disk_byte_slice_refuted",
    "Verif.C32_disk_store_configs",
    "Verif.C32_mmap_open",
    "Verif.C32_mmap_build_refuted",
    "Verif.C32_mmap_byte_slice_refuted",
    "Verif.C32_level_cache_open",
    "Verif.C32_level_cache_build_refuted",
    "Verif.C32_level_cache_no_reader_refuted"
   ],
   "note": "new_from_disk + from_data_store: proved for Disk and Mmap in full, for LevelCache with a reader (root and sizes; proofs in C28). Constructors with a configuration: proved for DiskStore whatever leaves are passed, except from_byte_slice_with_config, which returns Err on every finished file; refuted for MmapStore (Err, or the file is overwritten) and LevelCacheStore (Err), for every tree."
  },
  {
   "property": "C33",
   "status": "partial",
   "theorems": [
    "Verif.C33_mmap",
    "Verif.C33_vec",
    "Verif.C33_disk_full_length",
    "Verif.C33_disk_other_length",
    "Verif.C33_disk_byte_slice",
    "Verif.C33_disk_created_refuted",
    "Verif.C33_disk_iterator_error_refuted",
    "Verif.C33_disk_tree_slice_refuted",
    "Verif.C33_level_cache_existing",
    "Verif.C33_level_cache_byte_slice",
    "Verif.C33_level_cache_created_refuted",
    "Verif.C33_level_cache_iterator_error_refuted",
    "Verif.C33_level_cache_untruncated_refuted"
   ],
   "note": "Holds for MmapStore and VecStore whatever the disk holds. Refuted for DiskStore and LevelCacheStore: a file of full length (which every build creates first, filled with zeros) is taken for a finished tree, so a retry after an iterator error or a crash returns a tree with the zero root for any leaves; LevelCacheStore has no length check at all. from_byte_slice_with_config refuses every existing file on both."
  },
  {
   "property": "C34",
   "status": "proved",
   "theorems": [
    "Verif.C34_crash",
    "Verif.C34_opens_iff",
    "Verif.C34_states",
    "Verif.C34_copy_blocks"
   ],
   "note": "Crash states: any number of bytes copied in any block sizes, then set_len; writes reach the disk in order. Beyond the statement: C34_disk_store_refuted and C34_version_1_refuted (the other constructors do not detect it), C34_unordered_writes_refuted (there is no sync between copy and set_len), C34_level_cache_build_refuted (the same check does not detect an interrupted LevelCacheStore build)."
  },
  {
   "property": "C35",
   "status": "proved",
   "theorems": [
    "Verif.C35_disk",
    "Verif.C35_level_cache",
    "Verif.C35_v1_accepts",
    "Verif.C35_v1_no_size_check_refuted"
   ],
   "note": "For every file, range, arity (also 0 and 1), discard count, reader and float logarithm. The version 1 pair (is_consistent_v1, LevelCacheStore::new_from_disk), which the property does not claim, agrees only in one direction: the constructor accepts files of any length."
  },
  {
   "property": "C36",
   "status": "partial",
   "theorems": [
    "Verif.C36_data_path_injective",
    "Verif.C36_path_components",
    "Verif.C36_slash_ids_refuted",
    "Verif.C36_disk",
    "Verif.C36_mmap",
    "Verif.C36_level_cache",
    "Verif.C36_vec",
    "Verif.C36_disk_handles",
    "Verif.C36_mmap_handles",
    "Verif.C36_level_cache_handles",
    "Verif.C36_temporary",
    "Verif.C36_disk_whole",
    "Verif.C36_mmap_whole",
    "Verif.C36_level_cache_whole",
    "Verif.C36_files_apart"
   ],
   "note": "Injectivity of data_path, and the frame property for every sequence of operations of every store, are proved in full, also for trees with two and three layers (the theorems ending in _whole). Partial because two different ids that contain slashes can name one file (x/./y and x/y): the refuted theorem gives the witness, and C36_path_components shows that ids without slashes are safe."
  },
  {
   "property": "C37",
   "status": "proved",
   "theorems": [
    "Verif.C37_compound",
    "Verif.C37_from_sub_trees",
    "Verif.C37_from_sub_trees_as_trees"
   ],
   "note": ""
  },
  {
   "property": "C38",
   "status": "proved",
   "theorems": [
    "Verif.C38_flat_eq_nested",
    "Verif.C38_succeed_alike"
   ],
   "note": ""
  },
  {
   "property": "C39",
   "status": "proved",
   "theorems": [
    "Verif.C39_from_trees",
    "Verif.C39_from_sub_trees",
    "Verif.C39_from_sub_trees_as_trees",
    "Verif.C39_from_trees_result",
    "Verif.C39_from_sub_trees_result",
    "Verif.C39_from_sub_trees_as_trees_result",
    "Verif.C39_from_trees_accessors",
    "Verif.C39_from_sub_trees_accessors",
    "Verif.C39_from_sub_trees_as_trees_accessors"
   ],
   "note": ""
  },
  {
   "property": "C40",
   "status": "partial",
   "theorems": [
    "Verif.C40_round_trip",
    "Verif.C40_round_trip_with_config",
    "Verif.C40_vec",
    "Verif.C40_disk",
    "Verif.C40_mmap",
    "Verif.C40_bad_length",
    "Verif.C40_disk_bad_length",
    "Verif.C40_mmap_bad_length",
    "Verif.C40_vec_bad_length_partial",
    "Verif.C40_vec_trailing_refuted",
    "Verif.C40_vec_bad_length_refuted",
    "Verif.C40_level_cache_refuted",
    "Verif.C40_level_cache_with_config_refuted"
   ],
   "note": "Round trip for VecStore, DiskStore and MmapStore; bad lengths refused by Disk and Mmap; VecStore ignores whatever follows the last whole element (C40_vec_trailing_refuted, for all data; witness). Refuted for LevelCacheStore on every tree: from_tree_slice returns Err, and from_tree_slice_with_config succeeds with a node of a lower row as its root when one row or more is discarded."
  },
  {
   "property": "C41",
   "status": "proved",
   "theorems": [
    "Verif.C41_split",
    "Verif.C41_both_ends",
    "Verif.C41_vec",
    "Verif.C41_tree",
    "Verif.C41_split_at",
    "Verif.C41_indexed",
    "Verif.C41_exact_size",
    "Verif.C41_read_error"
   ],
   "note": "For every split tree and every interleaving of next and next_back, over any store whose elements can be read. Beyond the statement: C41_read_error (a read error silently ends the iteration) and C41_passing_error_refuted (after a passing read error the iterator runs past its end)."
  },
  {
   "property": "C42",
   "status": "proved",
   "theorems": [
    "Verif.C42_leaf_writes",
    "Verif.C42_node_writes",
    "Verif.C42_node_two",
    "Verif.C42_leaf_digest",
    "Verif.C42_node_digest",
    "Verif.C42_disjoint",
    "Verif.C42_leaf_injective",
    "Verif.C42_node_injective",
    "Verif.C42_leaf_node_collision"
   ],
   "note": "For every hasher the writes made for a leaf and for a node concatenate to two byte strings that always differ and determine the item, or the children and their number. For a streaming hasher the hashes are those of these byte strings."
  },
  {
   "property": "C43",
   "status": "proved",
   "theorems": [
    "Verif.C43_default_reset",
    "Verif.C43_after_reset",
    "Verif.C43_populate",
    "Verif.C43_populate_par_task",
    "Verif.C43_populate_par",
    "Verif.C43_data",
    "Verif.C43_validate",
    "Verif.C43_validate_with_data",
    "Verif.C43_leaf"
   ],
   "note": "For every algorithm whose reset restores the initial state (the default does). populate_data, populate_data_par and Proof::validate are equal, as programs, to themselves with a fresh hasher for each leaf and node, on any store and any proof. Example shows that a reset that does nothing leaks."
  },
  {
   "property": "C44",
   "status": "partial",
   "theorems": [
    "Verif.C44_int_slice",
    "Verif.C44_array_slice",
    "Verif.C44_int_slice_nonempty",
    "Verif.C44_array_slice_nonempty",
    "Verif.C44_slice",
    "Verif.C44_default_slice",
    "Verif.C44_tuple",
    "Verif.C44_ref",
    "Verif.C44_encoding",
    "Verif.C44_int_slice_injective",
    "Verif.C44_empty_slice_refuted",
    "Verif.C44_strings_ambiguous"
   ],
   "note": "Proved for all instances of src/hash_impl.rs and any hasher in which writing pieces equals writing their concatenation and an empty write does nothing. With the first law alone it holds for non-empty slices and fails for the empty slice of integers, which is written as an empty string (refuted with a hasher that notices it). The machine's word size and byte order are parameters. Beside it: tuples of strings are ambiguous, since no length or terminator is written."
  },
  {
   "property": "C45",
   "status": "proved",
   "theorems": [
    "Verif.C45_from_as_ref",
    "Verif.C45_copy_then_from",
    "Verif.C45_wrong_length",
    "Verif.C45_bytes32",
    "Verif.C45_copy_bytes32"
   ],
   "note": "For [u8; 32], shown to obey the contract, and for every element type that does."
  },
  {
   "property": "C46",
   "status": "partial",
   "theorems": [
    "Verif.C46_len",
    "Verif.C46_row_count",
    "Verif.C46_cache_size",
    "Verif.C46_size_valid",
    "Verif.C46_leafs",
    "Verif.C46_lemma_len",
    "Verif.C46_len_generic",
    "Verif.C46_tree",
    "Verif.C46_leafs_small_arity",
    "Verif.C46_leafs_refuted",
    "Verif.C46_words",
    "Verif.C46_checked_edge_refuted"
   ],
   "note": "Both builds are modelled: overflow checks on (panic) and off (wrap). Proved for every tree whose bytes fit in 64 bits, and for inputs that are no tree as well, with one exception that is refuted: get_merkle_tree_leafs on a length beyond the largest tree of the arity whose leaf count is a word loops forever instead of returning an error (arity 2^32 and 2^32 + 2 nodes suffice). For arities up to the element size this cannot happen. The floating point row count is a parameter."
  },
  {
   "property": "C47",
   "status": "proved",
   "theorems": [
    "Verif.C47_base_leaf",
    "Verif.C47_compound",
    "Verif.C47_compound_top"
   ],
   "note": ""
  },
  {
   "property": "C48",
   "status": "partial",
   "theorems": [
    "Verif.C48_base_partial",
    "Verif.C48_level_cache_partial",
    "Verif.C48_compound_refuted"
   ],
   "note": "Base trees are not reported empty; compound trees always are (refuted for every one)."
  },
  {
   "property": "C49",
   "status": "proved",
   "theorems": [
    "Verif.C49_any_store",
    "Verif.C49_altered_leaf",
    "Verif.C49_any_reader",
    "Verif.C49_compound",
    "Verif.C49_compound_top"
   ],
   "note": "Stronger than asked: whatever the store or the external reader returns for any request, a cached proof that validates is the original tree's own proof, or a collision between its transcript and the original proof's is exhibited; a proof for a leaf that reads differently carries that leaf and validates to false (or a collision). Same hypotheses as C16: a lawful reset, and an algorithm whose multi_node heights agree between build and validate (arity 2, or height-independent); exact float row count at the tree's height for opening the store."
  },
  {
   "property": "C50",
   "status": "partial",
   "theorems": [
    "Verif.C50_vec_read_range",
    "Verif.C50_disk_read_range",
    "Verif.C50_mmap_read_range",
    "Verif.C50_disk_read_range_into",
    "Verif.C50_disk_read_into",
    "Verif.C50_vec_read_into",
    "Verif.C50_mmap_read_into",
    "Verif.C50_vec_read_into_length",
    "Verif.C50_mmap_read_into_length",
    "Verif.C50_disk_out_of_range",
    "Verif.C50_mmap_out_of_range",
    "Verif.C50_compound",
    "Verif.C50_vec_out_of_range_refuted",
    "Verif.C50_read_range_into_refuted",
    "Verif.C50_vec_store_reads",
    "Verif.C50_reversed_refuted",
    "Verif.C50_range_into_ignores_end_refuted",
    "Verif.C50_range_into_message_refuted"
   ],
   "note": "Range reads agree with single reads; VecStore panics out of range, read_range_into is unimplemented for VecStore and MmapStore, the stores themselves panic for a range that ends before its start, and read_range_into of DiskStore and LevelCacheStore does not look at the end of the range (witnesses)."
  },
  {
   "property": "C51",
   "status": "proved",
   "theorems": [
    "Verif.C51_layout",
    "Verif.C51_built",
    "Verif.C51_level_cache",
    "Verif.C51_byte_slice_refuted"
   ],
   "note": "The collision is given explicitly: two byte strings hashed in the two trees. C51_byte_slice_refuted shows why from_byte_slice is left out of the statement: it does not hash its input, so row 1 of a tree, given as bytes, yields a tree with the same root."
  },
  {
   "property": "C52",
   "status": "partial",
   "theorems": [
    "Verif.C52_from_slices",
    "Verif.C52_from_slices_with_configs",
    "Verif.C52_from_stores",
    "Verif.C52_from_store_configs_disk",
    "Verif.C52_from_store_configs_mmap",
    "Verif.C52_from_sub_tree_store_configs_disk",
    "Verif.C52_from_sub_tree_store_configs_mmap",
    "Verif.C52_wrong_config_count_disk",
    "Verif.C52_wrong_config_count_mmap",
    "Verif.C52_too_few_configs_refuted",
    "Verif.C52_no_top_layer_refuted",
    "Verif.C52_missing_file_disk_refuted",
    "Verif.C52_missing_file_mmap_refuted",
    "Verif.C52_from_store_configs_level_cache",
    "Verif.C52_level_cache_v2_refuted"
   ],
   "note": "Equality of the trees is proved in full for VecStore, DiskStore and MmapStore. On LevelCacheStore it is proved for files of version 1 (leaves and cached nodes); files of version 2 are refused, because the store is opened without a reader. Of the last sentence, three cases are refuted: too few configurations panic, from_sub_tree_store_configs without a top layer panics, and a missing file is reported as Err but leaves a file of zeros behind which the same call takes for a finished tree when repeated."
  },
  {
   "property": "C53",
   "status": "proved",
   "theorems": [
    "Verif.C53_mmap_store",
    "Verif.C53_mmap_writes",
    "Verif.C53_mmap_tree",
    "Verif.C53_vec",
    "Verif.C53_disk_level_cache"
   ],
   "note": "DiskStore compaction is C26."
  },
  {
   "property": "C54",
   "status": "partial",
   "theorems": [
    "Verif.C54_delete_disk",
    "Verif.C54_delete_level_cache",
    "Verif.C54_rebuild_disk",
    "Verif.C54_rebuild_level_cache",
    "Verif.C54_mmap_refuted",
    "Verif.C54_vec"
   ],
   "note": "Refuted for MmapStore, whose delete returns Ok and leaves the file; building again with the configuration then fails. Deleting while handles are open is C79."
  },
  {
   "property": "C55",
   "status": "proved",
   "theorems": [
    "Verif.C55_from_config",
    "Verif.C55_new",
    "Verif.C55_size_unused"
   ],
   "note": ""
  },
  {
   "property": "C56",
   "status": "proved",
   "theorems": [
    "Verif.C56_obtainable",
    "Verif.C56_layer",
    "Verif.C56_sub_proof",
    "Verif.C56_validate",
    "Verif.C56_short_lemma"
   ],
   "note": ""
  },
  {
   "property": "C57",
   "status": "partial",
   "theorems": [
    "Verif.C57_exact_lengths",
    "Verif.C57_slack_refuted"
   ],
   "note": "Refuted: at a compound layer anything can be inserted in the lemma between the siblings and the root, and anything appended to the path. Proved for proofs whose compound lemmas have the length of honest ones; in general the data that is looked at is bound (C23)."
  },
  {
   "property": "C58",
   "status": "partial",
   "theorems": [
    "Verif.C58_row_count",
    "Verif.C58_full_trees",
    "Verif.C58_trees",
    "Verif.C58_exception_refuted"
   ],
   "note": "Exact for every arity and leaf count of 64 bits but one: arity 2^21 with 2^42 leaves gets two rows instead of three (C58_exception_refuted). Assumes that ln is correctly rounded at powers of two (a field of Verif.Ieee; IEEE 754 does not prescribe it); conversions, product and quotient are those of IEEE 754."
  },
  {
   "property": "C59",
   "status": "proved",
   "theorems": [
    "Verif.C59_root",
    "Verif.C59_binding",
    "Verif.C59_top"
   ],
   "note": "For hashers that hash the concatenation of what they are given (Streaming) with the default Algorithm methods. Compound trees as from_trees and from_sub_trees return them."
  },
  {
   "property": "C60",
   "status": "partial",
   "theorems": [
    "Verif.C60_read_into",
    "Verif.C60_v2_partial",
    "Verif.C60_v2_straddling_refuted",
    "Verif.C60_v1_partial",
    "Verif.C60_v1_straddling_refuted"
   ],
   "note": "Holds for ranges inside the leaves, inside the cached rows, starting at a discarded node (except the first one in version 1) or ending past the tree. Fails for ranges that start in the leaves and end above them: version 2 returns what the replica holds after the leaves, version 1 with discarded rows returns cached nodes in place of discarded ones."
  },
  {
   "property": "C61",
   "status": "partial",
   "theorems": [
    "Verif.C61_v2",
    "Verif.C61_v1_partial",
    "Verif.C61_v1_refuted"
   ],
   "note": "Proved for version 2, and for version 1 except leaves 2 and 3 of a binary tree with exactly one discarded row. There gen_proof returns Ok with a proof that has a cached node in place of the discarded sibling."
  },
  {
   "property": "C62",
   "status": "partial",
   "theorems": [
    "Verif.C62_fresh_partial",
    "Verif.C62_refuted",
    "Verif.C62_reader"
   ],
   "note": "Before a reader is set, proofs and reads past the cached nodes are errors, but reads at low indices return cached nodes in place of leaves. After the reader is set everything holds."
  },
  {
   "property": "C63",
   "status": "proved",
   "theorems": [
    "Verif.C63_compound",
    "Verif.C63_top"
   ],
   "note": "Holds for version 2 files, for parts each in a file of its own, relative to an exact row count (FloatRows.ExactAt; see C58) for heights up to that of the parts, and when the requested rows cover the discarded rows of every part."
  },
  {
   "property": "C64",
   "status": "proved",
   "theorems": [
    "Verif.C64_compound",
    "Verif.C64_compound_sub",
    "Verif.C64_base",
    "Verif.C64_delete",
    "Verif.C64_reader",
    "Verif.C64_reader_base",
    "Verif.C64_base_sub",
    "Verif.C64_reader_sub"
   ],
   "note": "The effect of the store operations themselves is stated in C26, C53 and C54."
  },
  {
   "property": "C65",
   "status": "partial",
   "theorems": [
    "Verif.C65_disk",
    "Verif.C65_mmap",
    "Verif.C65_level_cache",
    "Verif.C65_gen_proof_disk",
    "Verif.C65_gen_proof_mmap",
    "Verif.C65_gen_proof_level_cache",
    "Verif.C65_gen_proof",
    "Verif.C65_disk_read_refuted",
    "Verif.C65_mmap_read_refuted",
    "Verif.C65_level_cache_read_refuted",
    "Verif.C65_disk_write_refuted",
    "Verif.C65_level_cache_write_refuted",
    "Verif.C65_mmap_write_refuted",
    "Verif.C65_disk_every_read",
    "Verif.C65_mmap_every_read",
    "Verif.C65_level_cache_every_read",
    "Verif.C65_disk_every_write",
    "Verif.C65_mmap_every_write",
    "Verif.C65_level_cache_every_write"
   ],
   "note": "Holds for every request whose last byte offset is a word (ranges with start at most end), in both compilation modes. Refuted for larger indices: without overflow checks a read or write far outside of the store reaches one of its elements, with them it panics. For element sizes that are powers of two the result of read_at, read_into and write_at is stated at every 64-bit index of all three stores, and the refutations are for these sizes from 2 on. Building is C71, compaction and cached proofs C73, compound trees C74."
  },
  {
   "property": "C66",
   "status": "partial",
   "theorems": [
    "Verif.C66_write",
    "Verif.C66_copy",
    "Verif.C66_push",
    "Verif.C66_refuses",
    "Verif.C66_reads",
    "Verif.C66_array_partial",
    "Verif.C66_array_refuted",
    "Verif.C66_new_refuted"
   ],
   "note": "Writing is proved in full. The array behaviour holds for stores of new_with_config on the leaves, and on all nodes if rows_to_discard is 0. It fails elsewhere: with a discarded row, reads beyond the leaves return other elements or Err (C66_array_refuted), and from a store made by new nothing can be read at all (C66_new_refuted)."
  },
  {
   "property": "C67",
   "status": "partial",
   "theorems": [
    "Verif.C67_ok_iff",
    "Verif.C67_rows",
    "Verif.C67_refused",
    "Verif.C67_is_tree_iff",
    "Verif.C67_arity_one_refuted",
    "Verif.C67_contents_refuted"
   ],
   "note": "Proved for every store and arity other than 1. For arity 1 the call does not return. Nothing about the contents of the store is checked (witness): the result is a Merkle tree exactly if the store holds one."
  },
  {
   "property": "C68",
   "status": "partial",
   "theorems": [
    "Verif.C68_new_ok",
    "Verif.C68_with_config_ok",
    "Verif.C68_partial_element",
    "Verif.C68_copy_partial_element",
    "Verif.C68_from_byte_slice",
    "Verif.C68_too_long",
    "Verif.C68_disk_existing",
    "Verif.C68_mmap_existing",
    "Verif.C68_mmap_other_length",
    "Verif.C68_vec_partial_refuted",
    "Verif.C68_too_long_refuted",
    "Verif.C68_too_long_with_config_refuted",
    "Verif.C68_level_cache_refuted",
    "Verif.C68_level_cache_with_config_partial",
    "Verif.C68_level_cache_too_long_refuted",
    "Verif.C68_level_cache_existing_refuted"
   ],
   "note": "Holds for DiskStore without configuration. Fails elsewhere: VecStore drops a trailing partial element; VecStore and MmapStore panic when there are too many elements; with a configuration DiskStore leaves the file behind after the refusal and the same call again succeeds with zeros; a LevelCacheStore made by new_from_slice cannot be read. LevelCacheStore::new_from_slice_with_config is right up to a row of leaves, leaves the file behind on a refusal, and ignores the bytes when the file exists."
  },
  {
   "property": "C69",
   "status": "partial",
   "theorems": [
    "Verif.C69_node",
    "Verif.C69_leaf",
    "Verif.C69_item",
    "Verif.C69_data",
    "Verif.C69_same_shape",
    "Verif.C69_depth_every_refuted",
    "Verif.C69_depth_refuted",
    "Verif.C69_same_shape_height_refuted"
   ],
   "note": "Holds for proofs with as many layers as the tree has rows above the leaves (C69_leaf), and without that condition when the item is known to be a leaf hash, as validate_with_data checks for base proofs (C69_item, C69_data; default hash methods and a streaming hasher). Without it validate accepts an interior node of the tree as item, on every tree and for every interior node (C69_depth_every_refuted; C69_depth_refuted is a concrete case whose item is no leaf). For algorithms that ignore the height argument; from_trees hashes its root with height 1 whatever lies below (C69_same_shape_height_refuted)."
  },
  {
   "property": "C70",
   "status": "partial",
   "theorems": [
    "Verif.C70_read_at",
    "Verif.C70_gen_proof",
    "Verif.C70_gen_cached_proof",
    "Verif.C70_from_data_store",
    "Verif.C70_from_tree_slice",
    "Verif.C70_from_tree_slice_with_config",
    "Verif.C70_from_slices",
    "Verif.C70_from_slices_with_configs",
    "Verif.C70_from_stores",
    "Verif.C70_from_store_configs",
    "Verif.C70_from_sub_tree_store_configs",
    "Verif.C70_build",
    "Verif.C70_build_no_panic",
    "Verif.C70_faults_never_lie",
    "Verif.C70_compact",
    "Verif.C70_disk_build",
    "Verif.C70_level_cache_build",
    "Verif.C70_open",
    "Verif.C70_is_consistent",
    "Verif.C70_delete",
    "Verif.C70_replica",
    "Verif.C70_sub_tree_replica",
    "Verif.C70_disk_never_lies",
    "Verif.C70_level_cache_never_lies",
    "Verif.C70_mmap_write",
    "Verif.C70_mmap_open",
    "Verif.C70_mmap_open_partial",
    "Verif.C70_mmap_never_lies",
    "Verif.C70_mmap_panic_iff",
    "Verif.C70_mmap_read_only_refuted",
    "Verif.C70_par_iter_refuted",
    "Verif.C70_backward_read_refuted"
   ],
   "note": "Proved for every store that imitates another one up to Err. Two families of such stores are given: calls of a VecStore or MmapStore failing by plan, and DiskStore, LevelCacheStore and MmapStore over a disk on which every system call may fail by plan (Model/Flaky, Model/FlakyMmap). Partial because of three refuted spots: the parallel iterator loses errors, a failing read_range_into with start > end panics, and MmapStore::new_from_disk panics on a file that cannot be opened for writing."
  },
  {
   "property": "C71",
   "status": "proved",
   "theorems": [
    "Verif.C71_vec",
    "Verif.C71_mmap",
    "Verif.C71_disk",
    "Verif.C71_level_cache",
    "Verif.C71_tree_slice_vec",
    "Verif.C71_tree_slice_mmap",
    "Verif.C71_tree_slice_disk",
    "Verif.C71_tree_slice_level_cache",
    "Verif.C71_data_store_vec",
    "Verif.C71_data_store_mmap",
    "Verif.C71_data_store_disk",
    "Verif.C71_data_store_level_cache",
    "Verif.C71_tree_vec",
    "Verif.C71_tree_mmap",
    "Verif.C71_tree_disk"
   ],
   "note": "Whole runs are compared, for all schedules of the parallel loops: result, error or panic, and files. C71_tree_* combine it with C08: what is built on words is the Merkle tree of the leaves, read back with word offsets. For arities other than two LevelCacheStore assumes that the floating-point computation of the number of rows gives at least one. The limits of the allocator and the growth of a Vec are not modelled."
  },
  {
   "property": "C72",
   "status": "proved",
   "theorems": [
    "Verif.C72_vec_from_disk",
    "Verif.C72_vec_read_range_into",
    "Verif.C72_mmap_read_range_into",
    "Verif.C72_level_cache_compact",
    "Verif.C72_no_top_layer",
    "Verif.C72_vec_64",
    "Verif.C72_replica_short_buffer",
    "Verif.C72_replica_backward",
    "Verif.C72_mmap_cut",
    "Verif.C72_no_size_hint"
   ],
   "note": "The two types of trees in the model share no code; C72_no_top_layer says that they agree where both apply."
  },
  {
   "property": "C73",
   "status": "proved",
   "theorems": [
    "Verif.C73_compact",
    "Verif.C73_cached_proof_disk",
    "Verif.C73_cached_proof_level_cache",
    "Verif.C73_cached_proof_vec",
    "Verif.C73_cached_proof_mmap",
    "Verif.C73_cached_is_full"
   ],
   "note": "Whole runs are compared, for all schedules: result, error or panic, and files. C73_cached_is_full combines it with C28: on words too, the cached proof of every leaf is the proof without a cache. The statements assume that the floating-point computation of the number of rows is exact for the two heights used, and for compaction that it gives at least one, that the store was made for at least the elements it counts, and that a full tree of the arity with at least as many nodes has less than 2^64 leaves."
  },
  {
   "property": "C74",
   "status": "proved",
   "theorems": [
    "Verif.C74_from_trees",
    "Verif.C74_from_sub_trees",
    "Verif.C74_from_sub_trees_as_trees",
    "Verif.C74_vec",
    "Verif.C74_mmap",
    "Verif.C74_disk",
    "Verif.C74_level_cache",
    "Verif.C74_replica",
    "Verif.C74_from_stores_vec",
    "Verif.C74_from_stores_mmap",
    "Verif.C74_from_stores_disk",
    "Verif.C74_from_stores_level_cache",
    "Verif.C74_gen_proof_vec",
    "Verif.C74_gen_proof_mmap",
    "Verif.C74_gen_proof_disk",
    "Verif.C74_gen_proof_level_cache",
    "Verif.C74_cached_proof_vec",
    "Verif.C74_cached_proof_mmap",
    "Verif.C74_cached_proof_disk",
    "Verif.C74_cached_proof_level_cache"
   ],
   "note": "LayersRunAs bundles the constructors that make their own stores: from slices with and without configurations, and from configurations with one layer of sub-trees and with two. The number of rows, a floating-point result, is assumed to be two less than 2^64."
  },
  {
   "property": "C75",
   "status": "partial",
   "theorems": [
    "Verif.C75_open",
    "Verif.C75_compact_early",
    "Verif.C75_compact_detected",
    "Verif.C75_build_refuted",
    "Verif.C75_build_every_refuted",
    "Verif.C75_build_level_cache_every_refuted",
    "Verif.C75_data_every_refuted",
    "Verif.C75_par_every_refuted",
    "Verif.C75_par_level_cache_every_refuted",
    "Verif.C75_compact_every_refuted",
    "Verif.C75_compact_refuted"
   ],
   "note": "Opening changes nothing; a compaction that fails before the copy changes nothing; after any failed compaction new_from_disk_with_reader returns Err or serves the right cached rows (for a failing copy that has copied some bytes, in blocks of any size). Refuted: a build that returned Err leaves a file of full length that the next build takes for a finished tree (every build from an iterator or from data whose file can be written and not mapped, and every parallel build whose file can be created and not written to, on DiskStore and LevelCacheStore), and after a failed compaction the DiskStore tree reads overwritten leaves. MmapStore and VecStore are right whatever the files hold (C33_mmap, C33_vec)."
  },
  {
   "property": "C76",
   "status": "proved",
   "theorems": [
    "Verif.C76_disk",
    "Verif.C76_level_cache",
    "Verif.C76_new",
    "Verif.C76_open",
    "Verif.C76_build",
    "Verif.C76_layer",
    "Verif.C76_from_slice",
    "Verif.C76_disk_layers",
    "Verif.C76_level_cache_layers",
    "Verif.C76_front_truncate",
    "Verif.C76_compact",
    "Verif.C76_is_consistent",
    "Verif.C76_delete",
    "Verif.C76_replica",
    "Verif.C76_disk_trait",
    "Verif.C76_level_cache_trait",
    "Verif.C76_mmap",
    "Verif.C76_mmap_trait",
    "Verif.C76_mmap_write",
    "Verif.C76_mmap_from_slice",
    "Verif.C76_disk_quiet",
    "Verif.C76_level_cache_quiet",
    "Verif.C76_mmap_quiet"
   ],
   "note": "Whether a system call fails is a function of the call and the files. For the layers of a build, the files at the moment of the call are not spelled out. Writes through a memory map do not fail in the model."
  },
  {
   "property": "C77",
   "status": "proved",
   "theorems": [
    "Verif.C77_disk",
    "Verif.C77_level_cache",
    "Verif.C77_disk_orders",
    "Verif.C77_level_cache_orders",
    "Verif.C77_disk_tree",
    "Verif.C77_level_cache_tree",
    "Verif.C77_disk_no_sharing",
    "Verif.C77_level_cache_no_sharing"
   ],
   "note": "Success, tree and files. Which error a failing build reports may depend on the order."
  },
  {
   "property": "C78",
   "status": "partial",
   "theorems": [
    "Verif.C78_second_handle",
    "Verif.C78_v2_no_proof",
    "Verif.C78_v2_no_cached_proof",
    "Verif.C78_v2_reads",
    "Verif.C78_v1_reads",
    "Verif.C78_v1_nothing_discarded",
    "Verif.C78_v1_no_proof",
    "Verif.C78_v1_cached_proof",
    "Verif.C78_v1_no_cached_proof",
    "Verif.C78_v1_cached_refuted",
    "Verif.C78_v2_compact_again",
    "Verif.C78_v1_compact_again",
    "Verif.C78_reads_refuted",
    "Verif.C78_v1_refuted",
    "Verif.C78_compact_again_refuted"
   ],
   "note": "Proofs and cached proofs: Err for every index (after version 1 a cached proof that is computed from the leaves alone is still right), except on a binary tree of four leaves compacted to version 1 (refuted there: an invalid proof comes out). A compaction to version 1 that discards no row leaves the file as it is, so there the proofs stay right. Single reads: refuted; the theorems say exactly which node is returned. Second compaction: Err and no change, except after version 1 with a second configuration that discards no row (refuted there: Err, but leaves are overwritten)."
  },
  {
   "property": "C79",
   "status": "partial",
   "theorems": [
    "Verif.C79_delete",
    "Verif.C79_disk",
    "Verif.C79_mmap",
    "Verif.C79_level_cache",
    "Verif.C79_writes",
    "Verif.C79_rebuild",
    "Verif.C79_compact_gone",
    "Verif.C79_compact_any",
    "Verif.C79_compact_refuted",
    "Verif.C79_disk_whole",
    "Verif.C79_mmap_whole",
    "Verif.C79_level_cache_whole"
   ],
   "note": "Holds except for the last sentence: compact opens the file its configuration names and never looks at the file the tree has open (C79_compact_any). Nothing there: Err (C79_compact_gone). If a tree of the same size was built in the place of the deleted one, compacting the deleted tree returns Ok(true), compacts the other tree's file, and leaves a tree with the old root and the other's nodes (C79_compact_refuted, for every such pair). Model/Unlink describes the deletion of an open file by giving the file an anonymous name which its handles follow. A level-cache tree needs a reader that still reads the same leaves. The theorems ending in _whole are about trees with two and three layers, of which one base tree's file is deleted."
  },
  {
   "property": "C80",
   "status": "partial",
   "theorems": [
    "Verif.C80_vec_store",
    "Verif.C80_vec",
    "Verif.C80_mmap",
    "Verif.C80_mmap_compact",
    "Verif.C80_new_refuted"
   ],
   "note": "Proved for VecStore, for built MmapStore trees and for compact and reinit. The last sentence is false of MmapStore: a new one has no elements and dereferences to the zero bytes of its whole size."
  },
  {
   "property": "C81",
   "status": "proved",
   "theorems": [
    "Verif.C81_exact",
    "Verif.C81_first_failure",
    "Verif.C81_positions",
    "Verif.C81_read",
    "Verif.C81_proof",
    "Verif.C81_cached",
    "Verif.C81_disk",
    "Verif.C81_mmap",
    "Verif.C81_disk_overwrite",
    "Verif.C81_from_trees",
    "Verif.C81_from_sub_trees",
    "Verif.C81_from_sub_trees_as_trees"
   ],
   "note": "The three from_... theorems show that the shape the others assume is what the constructors return."
  },
  {
   "property": "C82",
   "status": "proved",
   "theorems": [
    "Verif.C82_node",
    "Verif.C82_off_path",
    "Verif.C82_on_path",
    "Verif.C82_path",
    "Verif.C82_proof",
    "Verif.C82_other_proof"
   ],
   "note": "C82_node: a node depends on the leaves below it only. C82_off_path and C82_on_path: exactly the path of the changed leaf changes, up to a collision that is exhibited. C82_path says what the path is. C82_proof: same siblings and path for the changed leaf, and the new root is the only one with which they validate for the new leaf (for algorithms that agree on the heights, as in C14). C82_other_proof: at most one sibling changes in the proof of another leaf. The trees are any trees with the right nodes (IsTreeOf), which is what C08 shows of every build."
  },
  {
   "property": "C83",
   "status": "partial",
   "theorems": [
    "Verif.C83_new",
    "Verif.C83_new_overflow",
    "Verif.C83_validate",
    "Verif.C83_total",
    "Verif.C83_complete",
    "Verif.C83_capacity",
    "Verif.C83_capacity_layer",
    "Verif.C83_release_refuted",
    "Verif.C83_arity_zero"
   ],
   "note": "Proved: agreement with the natural numbers while sizes fit (C83_new, C83_validate), and with it totality (C83_total) and completeness (C83_complete). C83_new_overflow, C83_capacity and C83_capacity_layer say what happens beyond. Refuted: without overflow checks and for the arity 2^62 + 2, Proof::new accepts a lemma of six elements with four path entries, and validating that panics (C83_release_refuted). C83_arity_zero records what arity 0 does, where the two builds differ."
  },
  {
   "property": "C84",
   "status": "partial",
   "theorems": [
    "Verif.C84_reachable",
    "Verif.C84_made",
    "Verif.C84_base",
    "Verif.C84_validate",
    "Verif.C84_two",
    "Verif.C84_binding",
    "Verif.C84_trim",
    "Verif.C84_node",
    "Verif.C84_leaf",
    "Verif.C84_item",
    "Verif.C84_data",
    "Verif.C84_longer_refuted",
    "Verif.C84_path_refuted"
   ],
   "note": "C84_reachable says which proof values safe code can make, C84_made which of them Proof::new makes. Proved for all values: when validation is true, false, Err and a panic (C84_base, C84_validate), binding (C84_binding) and what a valid proof says about a tree with its root (C84_node, C84_leaf, C84_item, C84_data), all about the part of the path that validation gets to. Refuted: with one lemma element more, every proof made by Proof::new with a path in range panics on validation (C84_longer_refuted); and further path entries go unnoticed, so that path() of a valid proof need not lead to its item (C84_path_refuted)."
  },
  {
   "property": "C85",
   "status": "proved",
   "theorems": [
    "Verif.C85_from_trees",
    "Verif.C85_from_sub_trees",
    "Verif.C85_from_sub_trees_as_trees",
    "Verif.C85_same_leaves",
    "Verif.C85_same_leaves_sub_trees",
    "Verif.C85_other_parts",
    "Verif.C85_root",
    "Verif.C85_root_sub_trees"
   ],
   "note": "For compound trees whose parts are Merkle trees that can be read back (IsTree), on any two stores and file systems; the root statement names the two colliding lists."
  },
  {
   "property": "C86",
   "status": "partial",
   "theorems": [
    "Verif.C86_inside_partial",
    "Verif.C86_past_partial",
    "Verif.C86_between_refuted",
    "Verif.C86_between_unusable_refuted",
    "Verif.C86_push_refuted"
   ],
   "note": "compact leaves store_size as it was. So between the new and the old length write_at and push succeed: the file grows, with zeros between, and a file compacted to version 2 can no longer be opened with a reader. Relative to an exact row count (FloatRows.ExactAt; see C58)."
  },
  {
   "property": "C87",
   "status": "partial",
   "theorems": [
    "Verif.C87_sub_tree",
    "Verif.C87_top",
    "Verif.C87_not_a_tree",
    "Verif.C87_not_a_tree_top",
    "Verif.C87_set_external_reader_path",
    "Verif.C87_no_top_layer_refuted"
   ],
   "note": "Relative to an exact row count (FloatRows.ExactAt; see C58), and arity one excepted. Violated in a tree type without a top layer: from_sub_tree_store_configs_and_replica divides by the top arity 0 and panics. Up to top-1 configurations too many are ignored rather than refused, and the replica may be too short for its leaves."
  },
  {
   "property": "C88",
   "status": "partial",
   "theorems": [
    "Verif.C88_built",
    "Verif.C88_built_cached",
    "Verif.C88_from_data_store",
    "Verif.C88_compound",
    "Verif.C88_compacted_refuted",
    "Verif.C88_level_cache_partial",
    "Verif.C88_elem_len_refuted",
    "Verif.C88_reader"
   ],
   "note": "Violated twice. After compaction Debug shows the length before compaction while len() asks the store. LevelCacheStore shows its length under elem_len as well. C88_built_cached is for trees that discard fewer rows than there are layers."
  },
  {
   "property": "C89",
   "status": "proved",
   "theorems": [
    "Verif.C89_own_proof",
    "Verif.C89_binary",
    "Verif.C89_binary_iff",
    "Verif.C89_compound",
    "Verif.C89_top"
   ],
   "note": "Without the condition on the number of path entries it is false for algorithms that ignore the height (C69_depth_every_refuted), without the one on the lemma lengths false for compound proofs (C57_slack_refuted)."
  },
  {
   "property": "C90",
   "status": "partial",
   "theorems": [
    "Verif.C90_disk",
    "Verif.C90_level_cache_partial",
    "Verif.C90_disk_kept",
    "Verif.C90_level_cache_kept",
    "Verif.C90_disk_tree",
    "Verif.C90_level_cache_tree",
    "Verif.C90_reader_refuted",
    "Verif.C90_mmap_refuted"
   ],
   "note": "Proved in full for DiskStore, and for LevelCacheStore with the constructors of trait Store. The code violates it in two places: a LevelCacheStore opened with a reader always says it was not loaded, and so does every MmapStore, also one opened from an existing file."
  },
  {
   "property": "C91",
   "status": "partial",
   "theorems": [
    "Verif.C91_copy_forever",
    "Verif.C91_ends_iff",
    "Verif.C91_ends_partial",
    "Verif.C91_tree_partial",
    "Verif.C91_front_truncate",
    "Verif.C91_refuted"
   ],
   "note": "Violated. The exact condition under which compact does not end is given for every store. For a store whose file has room for its nodes this is one case only: version 1, arity 2, no rows discarded, and 2^(k+1)-2 nodes, which get_merkle_tree_leafs accepts (C02). A file of that size opens as a DiskStore, and compacting it writes to the file forever. Compacting a tree always ends. C91_copy_forever derives the endless copy from the copy in blocks of any size."
  },
  {
   "property": "C92",
   "status": "partial",
   "theorems": [
    "Verif.C92_leaves",
    "Verif.C92_binding",
    "Verif.C92_built",
    "Verif.C92_with_data",
    "Verif.C92_injective",
    "Verif.C92_fixed_length",
    "Verif.C92_lengths",
    "Verif.C92_same",
    "Verif.C92_tuples_refuted",
    "Verif.C92_tuples_every_refuted",
    "Verif.C92_slices_refuted"
   ],
   "note": "Violated for tuples and slices of strings: the encoding has no lengths in it, so the tree over (a, bc) is the tree over (ab, c), and a proof for the one validates with the other (C92_tuples_refuted); two slices that are the same text cut in different places are the same to from_data (C92_slices_refuted). Proved in general: what is committed to is the list of the encodings, of values of any types, up to a collision that is exhibited (C92_binding for base and compound trees, C92_built for what the constructors return), and nothing more (C92_same). For integers, byte arrays, byte vectors, booleans, characters and strings the encoding determines the value (C92_injective), and also for tuples and slices of components with encodings of one length (C92_fixed_length, C92_lengths)."
  }
 ]
}