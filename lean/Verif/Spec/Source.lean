import Verif.Model.Merkle
import Verif.Spec.Tree
/-
Vocabulary for statements about constructors: where the leaves come from, and what it means for a
tree to be the Merkle tree of its leaves.
-/
namespace Verif
open Spec

/-- The constructors of base trees, with what they are given. -/
inductive Source {E : Type} (A : Alg E) where
  /-- `new` / `new_with_config` -/
  | new (items : List E)
  /-- `try_from_iter(_with_config)` with an iterator that does not fail and announces its length -/
  | iter (items : List E)
  /-- `from_par_iter(_with_config)`, its tasks running in the order `π` -/
  | par (π : ParOrder) (items : List E)
  /-- `from_data(_with_config)` -/
  | data (data : List (HashableVal A))
  /-- `from_byte_slice(_with_config)` on the bytes of these elements -/
  | bytes (leaves : List E)

namespace Source
variable {S E : Type} {A : Alg E}

/-- The logical leaves: what row 0 of the tree must hold. -/
def leaves : Source A → List E
  | .new items | .iter items | .par _ items => items.map A.leafHash
  | .data ds => ds.map fun d => A.leafHash (A.hash (d A.init)).1
  | .bytes es => es

/-- A parallel source runs every task exactly once. -/
def Valid : Source A → Prop
  | .par π _ => π.Valid
  | _ => True

/-- The same source, its parallel tasks (if any) running in another order. -/
def withOrder (π : ParOrder) : Source A → Source A
  | .par _ items => .par π items
  | src => src

/-- Run the constructor, with or without a configuration. -/
def build [Element E] [Store S E] [FloatRows] (b : Nat) (σ : Sched) :
    Source A → Option StoreConfig → M (BaseTree S E)
  | .new items, none => BaseTree.new A b σ items
  | .new items, some c => BaseTree.newWithConfig A b σ items c
  | .iter items, none => BaseTree.tryFromIter A b σ (some items.length) (items.map .ok)
  | .iter items, some c => BaseTree.tryFromIterWithConfig A b σ (some items.length) (items.map .ok) c
  | .par π items, none => BaseTree.fromParIter A b σ π items
  | .par π items, some c => BaseTree.fromParIterWithConfig A b σ π items c
  | .data ds, none => BaseTree.fromData A b σ ds
  | .data ds, some c => BaseTree.fromDataWithConfig A b σ ds c
  | .bytes es, none => BaseTree.fromByteSlice A b σ (encodeAll es)
  | .bytes es, some c => BaseTree.fromByteSliceWithConfig A b σ (encodeAll es) c

end Source

/-- What `root()`, `leafs()`, `len()` and `row_count()` return. -/
def BaseTree.summary {S E : Type} [StoreOps S E] (t : BaseTree S E) : E × Nat × Nat × Nat :=
  (t.root, t.leafs, t.length, t.rowCount)

/-- `f` lays out the `b`-ary Merkle tree of height `k` over `leaves`: first the leaves, then row by
row the hashes of `b` consecutive nodes of the row below. -/
structure Spec.IsLayout {E : Type} (H : List E → Nat → E) (b k : Nat) (leaves : List E) (f : Nat → E) :
    Prop where
  count : leaves.length = b ^ k
  leaf : ∀ i (h : i < leaves.length), f i = leaves[i]
  step : ∀ l j, l < k → j < b ^ (k - (l + 1)) →
    f (rowStart b k (l + 1) + j)
      = H ((List.range b).map fun c => f (rowStart b k l + (b * j + c))) l

/-- `t` is the Merkle tree of `leaves` and can be read back. -/
structure BaseTree.IsTreeOf {S E : Type} [StoreOps S E] (A : Alg E) (b k : Nat) (leaves : List E)
    (fs : FS) (t : BaseTree S E) : Prop where
  leafs : t.leafs = b ^ k
  len : t.length = nodes b k
  rows : t.rowCount = k + 1
  nodes : ∃ f, IsLayout A.nodeHash b k leaves f ∧
    (∀ i, i < nodes b k → t.readAt fs i = .ok (f i)) ∧ t.root = f (nodes b k - 1)

/-- `t` is a level-cache tree over `leaves`: it has the root and the sizes of the full tree, and the
file of its store holds the bytes of the cached rows, from row `rows_to_discard + 1` to the root. -/
structure BaseTree.IsCacheOf {E : Type} [Element E] (A : Alg E) (b k : Nat) (leaves : List E)
    (c : StoreConfig) (fs : FS) (t : BaseTree (LevelCacheStore E) E) : Prop where
  leafs : t.leafs = b ^ k
  len : t.length = nodes b k
  rows : t.rowCount = k + 1
  nodes : ∃ f, IsLayout A.nodeHash b k leaves f ∧ t.root = f (nodes b k - 1) ∧
    fs.file c.file = some (encodeAll ((List.range (nodes b (k - 1 - c.rowsToDiscard))).map
      fun i => f (rowStart b k (c.rowsToDiscard + 1) + i)))

end Verif
