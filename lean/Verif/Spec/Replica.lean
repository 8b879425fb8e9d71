import Verif.Model.Merkle
import Verif.Spec.Sizes
/-! Words for what has to be on disk before a compound tree is opened over a replica. -/
namespace Verif.Spec
variable (E : Type) [Element E]

/-- The file of `c` is there and has the length of the rows kept of a tree of arity `b` and height `k`, when
`c.rowsToDiscard` rows above the leaves are left out; at least the root is kept. -/
def HoldsCache (b k : Nat) (fs : FS) (c : StoreConfig) : Prop :=
  c.rowsToDiscard < k ∧
    ∃ bs, fs.file c.file = some bs ∧ bs.length = nodes b (k - 1 - c.rowsToDiscard) * Element.byteLen E

/-- The last element in the file of `c`. -/
def storedRoot (fs : FS) (c : StoreConfig) : E :=
  let bs := (fs.file c.file).getD []
  Element.decode (bs.drop (bs.length - Element.byteLen E))

end Verif.Spec
