import Verif.Model.Res
/-
Size arithmetic: src/merkle.rs 1839-2011 and src/store/mod.rs 150-173.

`usize` is modelled by `Nat` (no overflow); `Verif/Model/Sizing64.lean` redoes the functions on
64-bit words.
-/
namespace Verif

/-- The value of `(branches as f64 * leafs as f64).log(branches as f64) as usize`
(src/merkle.rs:1950), which depends on the platform's floating point logarithm.  It is left
uninterpreted: theorems that depend on it say which values they need. -/
class FloatRows where
  rows : (leafs branches : Nat) → Nat

/-- Loop of `next_power_of_two`: double `p` until it reaches `n`. -/
def nextPow2.go (n : Nat) : Nat → Nat → Nat
  | 0, p => p
  | f + 1, p => if n ≤ p then p else nextPow2.go n f (2 * p)

/-- `next_pow2` (src/merkle.rs:2004-2006): smallest power of two at least `n`
(`usize::next_power_of_two`; 0 gives 1).  The fuel `n` suffices because `n ≤ 2^n`. -/
def nextPow2 (n : Nat) : Nat := nextPow2.go n n 1

/-- Loop of `trailing_zeros`. -/
def log2Pow2.go : Nat → Nat → Nat
  | 0, _ => 0
  | f + 1, n => if n % 2 = 0 then log2Pow2.go f (n / 2) + 1 else 0

/-- `log2_pow2` (src/merkle.rs:2009-2011): `usize::trailing_zeros` (64 for zero). -/
def log2Pow2 (n : Nat) : Nat := if n = 0 then 64 else log2Pow2.go n n

/-- The `while cur > 0` loop of `get_merkle_tree_len` (src/merkle.rs:1886-1890). -/
def merkleTreeLen.loop (leafs shift : Nat) : Nat → Nat → Nat → Res Nat
  | 0, _, _ => .error .diverge
  | f + 1, cur, len =>
    if cur > 0 then
      let cur := cur >>> shift
      do
        ensure (cur < leafs) "invalid input provided"
        merkleTreeLen.loop leafs shift f cur (len + cur)
    else .ok len

/-- `get_merkle_tree_len` (src/merkle.rs:1866-1893). -/
def merkleTreeLen (leafs branches : Nat) : Res Nat := do
  ensure (leafs ≥ branches) "leaf and branch mis-match"
  ensure (branches = nextPow2 branches) "branches must be a power of 2"
  if branches = 2 then
    ensure (leafs = nextPow2 leafs) "leafs must be a power of 2"
    subP (2 * leafs) 1
  else
    let shift := log2Pow2 branches
    if shift = 0 then .ok leafs
    else merkleTreeLen.loop leafs shift (leafs + 1) leafs leafs

/-- `get_merkle_tree_len_generic` (src/merkle.rs:1839-1861); the three arity type parameters are
ordinary arguments. -/
def merkleTreeLenGeneric (base sub top leaves : Nat) : Res Nat := do
  let baseLen ← merkleTreeLen leaves base
  if top > 0 then .ok (1 + top + sub * top * baseLen)
  else if sub > 0 then .ok (1 + sub * baseLen)
  else .ok baseLen

/-- `get_merkle_tree_row_count` (src/merkle.rs:1945-1952). -/
def merkleTreeRowCount [FloatRows] (leafs branches : Nat) : Nat :=
  if branches = 2 then log2Pow2 (leafs * branches) else FloatRows.rows leafs branches

/-- The `while row_count > cache_base` loop of `get_merkle_tree_cache_size`
(src/merkle.rs:1918-1922).  Recursion is on `row_count - cache_base`, the number of iterations. -/
def merkleTreeCacheSize.loop (shift : Nat) : Nat → Nat → Nat → Res Nat
  | 0, _, cacheSize => .ok cacheSize
  | n + 1, curLeafs, cacheSize => do
    let cacheSize ← subP cacheSize curLeafs
    merkleTreeCacheSize.loop shift n (curLeafs >>> shift) cacheSize

/-- `get_merkle_tree_cache_size` (src/merkle.rs:1897-1925). -/
def merkleTreeCacheSize [FloatRows] (leafs branches rowsToDiscard : Nat) : Res Nat := do
  let shift := log2Pow2 branches
  let len ← merkleTreeLen leafs branches
  let rowCount := merkleTreeRowCount leafs branches
  let rc1 ← subP rowCount 1
  ensure (rc1 > rowsToDiscard) "Cannot discard all rows except for the base"
  let cacheBase ← subP rc1 rowsToDiscard
  merkleTreeCacheSize.loop shift (rowCount - cacheBase) leafs len

/-- The `while cur != 1` loop of `is_merkle_tree_size_valid` (src/merkle.rs:1934-1939). -/
def isMerkleTreeSizeValid.loop (leafs shift : Nat) : Nat → Nat → Res Bool
  | 0, _ => .error .diverge
  | f + 1, cur =>
    if cur ≠ 1 then
      let cur := cur >>> shift
      if cur > leafs ∨ cur = 0 then .ok false
      else isMerkleTreeSizeValid.loop leafs shift f cur
    else .ok true

/-- `is_merkle_tree_size_valid` (src/merkle.rs:1927-1942). -/
def isMerkleTreeSizeValid (leafs branches : Nat) : Res Bool :=
  if branches = 0 ∨ leafs ≠ nextPow2 leafs ∨ branches ≠ nextPow2 branches then .ok false
  else isMerkleTreeSizeValid.loop leafs (log2Pow2 branches) (leafs + 1) leafs

/-- `get_merkle_proof_lemma_len` (src/merkle.rs:1956-1958). -/
def merkleProofLemmaLen (rowCount branches : Nat) : Res Nat := do
  let b ← subP branches 1
  let r ← subP rowCount 1
  .ok (2 + b * r)

/-- The `while cur != 1` loop of `get_merkle_tree_leafs` (src/merkle.rs:1977-1988). -/
def merkleTreeLeafs.loop (len shift : Nat) : Nat → Nat → Nat → Res Nat
  | 0, _, _ => .error .diverge
  | f + 1, leafs, cur =>
    if cur ≠ 1 then
      let leafs := leafs <<< shift
      do
        ensure (cur > leafs) "Invalid tree length provided for the specified arity"
        let cur ← subP cur leafs
        ensure (cur < len) "Invalid tree length provided for the specified arity"
        merkleTreeLeafs.loop len shift f leafs cur
    else .ok leafs

/-- `get_merkle_tree_leafs` (src/merkle.rs:1963-2000).  `cur` decreases at each iteration, so
`len + 1` is enough fuel. -/
def merkleTreeLeafs (len branches : Nat) : Res Nat := do
  ensure (branches = nextPow2 branches) "branches must be a power of 2"
  let leafs ←
    (if branches = 2 then .ok (len / 2 + 1)
     else merkleTreeLeafs.loop len (log2Pow2 branches) (len + 1) 1 len)
  ensure (leafs = nextPow2 leafs) "Invalid tree length provided for the specified arity"
  .ok leafs

/-- `StoreConfig::default_rows_to_discard` (src/store/mod.rs:150-173). -/
def defaultRowsToDiscard [FloatRows] (leafs branches : Nat) : Nat :=
  let rowCount := merkleTreeRowCount leafs branches
  if rowCount ≤ 2 then 0
  else if rowCount = 3 then 1
  else
    let maxRows := rowCount - 2
    if branches = 2 then min maxRows 7
    else if branches = 4 then min maxRows 5
    else min maxRows 2

end Verif
