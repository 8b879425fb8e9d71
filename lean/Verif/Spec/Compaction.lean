import Verif.Spec.Source
/-
Vocabulary for statements about trees in files, before and after compaction.
-/
namespace Verif
open Spec

/-- All nodes of a tree of height `k`, in index order. -/
def Spec.allNodes {E : Type} (b k : Nat) (f : Nat → E) : List E := (List.range (nodes b k)).map f

/-- The cached rows when `d` rows above the base are discarded: the nodes from row `d + 1` up. -/
def Spec.cachedRows {E : Type} (b k d : Nat) (f : Nat → E) : List E :=
  (List.range (nodes b (k - 1 - d))).map fun i => f (rowStart b k (d + 1) + i)

/-- `t` is the Merkle tree of `leaves`, with `f` the layout of its nodes, and the configured file
holds exactly the bytes of the nodes. -/
structure BaseTree.IsFileTree {E : Type} [Element E] (A : Alg E) (b k : Nat) (leaves : List E)
    (f : Nat → E) (c : StoreConfig) (fs : FS) (t : BaseTree (DiskStore E) E) : Prop where
  leafs : t.leafs = b ^ k
  len : t.length = nodes b k
  rows : t.rowCount = k + 1
  layout : IsLayout A.nodeHash b k leaves f
  root : t.root = f (nodes b k - 1)
  handle : t.store.file = c.file
  size : t.store.storeSize = nodes b k * Element.byteLen E
  file : fs.file c.file = some (encodeAll (allNodes b k f))

/-- What compaction must leave in the file. -/
def Spec.compacted {E : Type} [Element E] (version b k d : Nat) (leaves : List E) (f : Nat → E) : Bytes :=
  if version = 1 then encodeAll (leaves ++ cachedRows b k d f) else encodeAll (cachedRows b k d f)

/-- The number of elements compaction must leave. -/
def Spec.compactedLen (version b k d : Nat) : Nat :=
  if version = 1 then b ^ k + nodes b (k - 1 - d) else nodes b (k - 1 - d)

/-- The external reader delivers these leaves: asked for the bytes of a run of them, it fills the
buffer with exactly those. -/
def ExternalReader.Serves {E : Type} [Element E] (r : ExternalReader) (fs : FS) (leaves : List E) :
    Prop :=
  ∀ a n, a + n ≤ leaves.length → ∀ buf : Bytes, buf.length = n * Element.byteLen E →
    r.read fs (a * Element.byteLen E) ((a + n) * Element.byteLen E) buf
      = .ok (encodeAll ((leaves.drop a).take n))

/-- `r` is what reading leaf `j` from the bytes `bs` at offset `o` must give: the element encoded in
bytes `o + j * byteLen` to `o + (j + 1) * byteLen`, or `Err` if there are not that many. -/
def Spec.ReplicaRead {E : Type} [Element E] (bs : Bytes) (o j : Nat) (r : Res E) : Prop :=
  (o + (j + 1) * Element.byteLen E ≤ bs.length →
    r = .ok (Element.decode (region bs (o + j * Element.byteLen E) (Element.byteLen E)))) ∧
  (bs.length < o + (j + 1) * Element.byteLen E → Res.IsErr r)

end Verif
