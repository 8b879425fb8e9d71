import Verif.Spec.Source
/-
The byte strings hashed for leaves and nodes by the default methods of `trait Algorithm`,
independent of how they are written to the hasher.
-/
namespace Verif
variable {E : Type}

namespace Spec
variable [Element E]

/-- What is hashed for a leaf: the leaf prefix and the item. -/
def leafInput (e : E) : Bytes := leafPrefix :: Element.toBytes e

/-- What is hashed for an interior node: the interior prefix and the children in order. -/
def nodeInput (ns : List E) : Bytes := interiorPrefix :: encodeAll ns

/-- A hasher seen as a function of the bytes written: the hash after writing them in one piece. -/
def digest {σ : Type} (init : σ) (write : σ → Bytes → σ) (hash : σ → E × σ) (bs : Bytes) : E :=
  (hash (write init bs)).1

/-- The hasher's state depends only on the bytes written so far, however they were cut up. -/
def Streaming {σ : Type} (write : σ → Bytes → σ) : Prop :=
  (∀ s x y, write (write s x) y = write s (x ++ y)) ∧ ∀ s, write s [] = s

/-- The byte strings hashed while building the `b`-ary tree of height `k` over `items` with the hash
function `D` on byte strings: one for each item and one for each interior node. -/
def Hashed (D : Bytes → E) (b k : Nat) (items : List E) (x : Bytes) : Prop :=
  (∃ e ∈ items, x = leafInput e) ∨
  ∃ l j, l < k ∧ j < b ^ (k - (l + 1)) ∧
    x = nodeInput ((List.range b).map fun c =>
      node (fun ns _ => D (nodeInput ns)) b
        (fun i => D (leafInput (items.getD i Element.default))) l (b * j + c))

end Spec

/-- The algorithm `A`, with a fresh hasher for every leaf and node. -/
def Alg.fresh {E : Type} (A : Alg E) : Alg E :=
  { A with
    leaf := fun _ e => A.leaf A.init e
    multiNode := fun _ ns h => A.multiNode A.init ns h }

/-- The items a constructor hashes into leaves; none for `from_byte_slice`, which takes its input for
the leaves. -/
def Source.items {A : Alg E} : Source A → Option (List E)
  | .new items | .iter items | .par _ items => some items
  | .data ds => some (ds.map fun d => (A.hash (d A.init)).1)
  | .bytes _ => none

end Verif
