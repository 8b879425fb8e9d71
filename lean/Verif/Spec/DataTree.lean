import Verif.Model.Hashable
/-
Trees over values of the types that implement `Hashable` (src/hash_impl.rs).
-/
namespace Verif.Spec

/-- What hashing the value `x` does to the hasher of the algorithm `A`; the arguments of `from_data` are of this kind
(src/merkle.rs:349-374). -/
def hashOf [Target] {E T : Type} (A : Alg E) [HashIn A.hasher T] (x : T) : HashableVal A :=
  HashIn.hash (H := A.hasher) x

end Verif.Spec
