import Verif.Model.Sizing
/-
The size arithmetic of src/merkle.rs:1839-2011 on 64-bit words.

A `usize` is a natural number below 2^64.  Rust gives arithmetic that overflows two meanings,
depending on how the crate is compiled: with overflow checks (the default of debug builds) it panics,
without them (the default of release builds) it wraps around.  Both are modelled.
-/
namespace Verif

/-- How the crate was compiled. -/
inductive Overflow where
  /-- overflow checks on: overflow panics -/
  | checked
  /-- overflow checks off: overflow wraps around -/
  | wrapping
  deriving DecidableEq, Repr

/-- Number of values of a `usize`. -/
def wordSize : Nat := 2 ^ 64

namespace Word

/-- The outcome of an operation that overflows: a panic, or the wrapped value. -/
def overflow (o : Overflow) (msg : String) (v : Nat) : Res Nat :=
  match o with
  | .checked => .error (.panic msg)
  | .wrapping => .ok v

/-- `a + b` -/
def add (o : Overflow) (a b : Nat) : Res Nat :=
  if a + b < wordSize then .ok (a + b)
  else overflow o "attempt to add with overflow" ((a + b) % wordSize)

/-- `a - b` -/
def sub (o : Overflow) (a b : Nat) : Res Nat :=
  if b ≤ a then .ok (a - b)
  else overflow o "attempt to subtract with overflow" ((a + wordSize - b) % wordSize)

/-- `a * b` -/
def mul (o : Overflow) (a b : Nat) : Res Nat :=
  if a * b < wordSize then .ok (a * b)
  else overflow o "attempt to multiply with overflow" ((a * b) % wordSize)

/-- `a >> s`; a shift by 64 or more overflows, wrapping takes the shift modulo 64. -/
def shr (o : Overflow) (a s : Nat) : Res Nat :=
  if s < 64 then .ok (a >>> s)
  else overflow o "attempt to shift right with overflow" (a >>> (s % 64))

/-- `a << s`: bits shifted out at the top are lost, with or without overflow checks; only the shift
distance is checked. -/
def shl (o : Overflow) (a s : Nat) : Res Nat :=
  if s < 64 then .ok ((a <<< s) % wordSize)
  else overflow o "attempt to shift left with overflow" ((a <<< (s % 64)) % wordSize)

/-- `usize::next_power_of_two`: on overflow it panics, or gives zero. -/
def npow2 (o : Overflow) (n : Nat) : Res Nat :=
  if nextPow2 n < wordSize then .ok (nextPow2 n)
  else overflow o "attempt to add with overflow" 0

/-- `usize::trailing_zeros`, the same as `log2_pow2` (src/merkle.rs:2009-2011). -/
def trailingZeros (n : Nat) : Nat := log2Pow2 n

end Word

open Word

/-- The `while cur > 0` loop of `get_merkle_tree_len` (src/merkle.rs:1886-1890). -/
def merkleTreeLen64.loop (o : Overflow) (leafs shift : Nat) : Nat → Nat → Nat → Res Nat
  | 0, _, _ => .error .diverge
  | f + 1, cur, len =>
    if cur > 0 then do
      let cur ← shr o cur shift
      ensure (cur < leafs) "invalid input provided"
      let len ← add o len cur
      merkleTreeLen64.loop o leafs shift f cur len
    else .ok len

/-- `get_merkle_tree_len` (src/merkle.rs:1866-1893). -/
def merkleTreeLen64 (o : Overflow) (leafs branches : Nat) : Res Nat := do
  ensure (leafs ≥ branches) "leaf and branch mis-match"
  let p ← npow2 o branches
  ensure (branches = p) "branches must be a power of 2"
  if branches = 2 then do
    let q ← npow2 o leafs
    ensure (leafs = q) "leafs must be a power of 2"
    let d ← mul o 2 leafs
    sub o d 1
  else
    let shift := trailingZeros branches
    if shift = 0 then .ok leafs
    else merkleTreeLen64.loop o leafs shift (leafs + 1) leafs leafs

/-- `get_merkle_tree_len_generic` (src/merkle.rs:1839-1861). -/
def merkleTreeLenGeneric64 (o : Overflow) (base subA top leaves : Nat) : Res Nat := do
  let baseLen ← merkleTreeLen64 o leaves base
  if top > 0 then do
    let x ← add o 1 top
    let y ← mul o subA top
    let z ← mul o y baseLen
    add o x z
  else if subA > 0 then do
    let z ← mul o subA baseLen
    add o 1 z
  else .ok baseLen

/-- `get_merkle_tree_row_count` (src/merkle.rs:1945-1952).  The floating point branch converts the
arguments before multiplying, so it does not overflow. -/
def merkleTreeRowCount64 [FloatRows] (o : Overflow) (leafs branches : Nat) : Res Nat :=
  if branches = 2 then do
    let p ← mul o leafs branches
    .ok (trailingZeros p)
  else .ok (FloatRows.rows leafs branches)

/-- The `while row_count > cache_base` loop of `get_merkle_tree_cache_size`
(src/merkle.rs:1918-1922); the recursion is on the number of iterations left. -/
def merkleTreeCacheSize64.loop (o : Overflow) (shift : Nat) : Nat → Nat → Nat → Res Nat
  | 0, _, cacheSize => .ok cacheSize
  | n + 1, curLeafs, cacheSize => do
    let cacheSize ← sub o cacheSize curLeafs
    let curLeafs ← shr o curLeafs shift
    merkleTreeCacheSize64.loop o shift n curLeafs cacheSize

/-- `get_merkle_tree_cache_size` (src/merkle.rs:1897-1925). -/
def merkleTreeCacheSize64 [FloatRows] (o : Overflow) (leafs branches rowsToDiscard : Nat) : Res Nat := do
  let shift := trailingZeros branches
  let len ← merkleTreeLen64 o leafs branches
  let rowCount ← merkleTreeRowCount64 o leafs branches
  let rc1 ← sub o rowCount 1
  ensure (rc1 > rowsToDiscard) "Cannot discard all rows except for the base"
  let rc1 ← sub o rowCount 1
  let cacheBase ← sub o rc1 rowsToDiscard
  merkleTreeCacheSize64.loop o shift (rowCount - cacheBase) leafs len

/-- The `while cur != 1` loop of `is_merkle_tree_size_valid` (src/merkle.rs:1934-1939). -/
def isMerkleTreeSizeValid64.loop (o : Overflow) (leafs shift : Nat) : Nat → Nat → Res Bool
  | 0, _ => .error .diverge
  | f + 1, cur =>
    if cur ≠ 1 then do
      let cur ← shr o cur shift
      if cur > leafs ∨ cur = 0 then .ok false
      else isMerkleTreeSizeValid64.loop o leafs shift f cur
    else .ok true

/-- `is_merkle_tree_size_valid` (src/merkle.rs:1927-1942); `||` evaluates from left to right and stops
at the first condition that holds. -/
def isMerkleTreeSizeValid64 (o : Overflow) (leafs branches : Nat) : Res Bool :=
  if branches = 0 then .ok false
  else do
    let p ← npow2 o leafs
    if leafs ≠ p then .ok false
    else do
      let q ← npow2 o branches
      if branches ≠ q then .ok false
      else isMerkleTreeSizeValid64.loop o leafs (trailingZeros branches) (leafs + 1) leafs

/-- `get_merkle_proof_lemma_len` (src/merkle.rs:1956-1958). -/
def merkleProofLemmaLen64 (o : Overflow) (rowCount branches : Nat) : Res Nat := do
  let b ← sub o branches 1
  let r ← sub o rowCount 1
  let p ← mul o b r
  add o 2 p

/-- The `while cur != 1` loop of `get_merkle_tree_leafs` (src/merkle.rs:1977-1988). -/
def merkleTreeLeafs64.loop (o : Overflow) (len shift : Nat) : Nat → Nat → Nat → Res Nat
  | 0, _, _ => .error .diverge
  | f + 1, leafs, cur =>
    if cur ≠ 1 then do
      let leafs ← shl o leafs shift
      ensure (cur > leafs) "Invalid tree length provided for the specified arity"
      let cur ← sub o cur leafs
      ensure (cur < len) "Invalid tree length provided for the specified arity"
      merkleTreeLeafs64.loop o len shift f leafs cur
    else .ok leafs

/-- `get_merkle_tree_leafs` (src/merkle.rs:1963-2000).  `fuel` bounds the number of iterations: on
words `cur` need not decrease. -/
def merkleTreeLeafs64 (o : Overflow) (fuel len branches : Nat) : Res Nat := do
  let p ← npow2 o branches
  ensure (branches = p) "branches must be a power of 2"
  let leafs ←
    (if branches = 2 then do
      let h ← shr o len 1
      add o h 1
     else merkleTreeLeafs64.loop o len (trailingZeros branches) fuel 1 len)
  let q ← npow2 o leafs
  ensure (leafs = q) "Invalid tree length provided for the specified arity"
  .ok leafs

end Verif
