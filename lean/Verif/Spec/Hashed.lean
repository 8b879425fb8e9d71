import Verif.Spec.Source
/-! What was hashed to build a base tree. -/
namespace Verif
open Spec

/-- The list `y` is `b` neighbouring nodes of row `l` of the tree, as its store holds them; they were hashed with
height `l` for their parent. -/
def BaseTree.Hashed {S E : Type} [StoreOps S E] (t : BaseTree S E) (fs : FS) (b k : Nat) (y : List E) (l : Nat) :
    Prop :=
  l < k ∧ y.length = b ∧ ∃ j, j < b ^ (k - (l + 1)) ∧
    ∀ c (h : c < y.length), t.readAt fs (rowStart b k l + (j * b + c)) = .ok y[c]

end Verif
