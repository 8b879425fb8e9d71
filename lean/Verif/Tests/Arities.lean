import Verif.Tests.Common
/-
tests/test_arities.rs on the model.
-/
namespace Verif.Tests
open Verif
attribute [local instance] idealRows

/-- `instantiate_new` (tests/common.rs:309-315). -/
def instantiateNew (S : Type) [Store S Item] (A : Alg Item) (b leaves : Nat) : M (BaseTree S Item) :=
  BaseTree.new A b Sched.sequential (elements leaves)

/-! `test_base_tree_arities` (tests/test_arities.rs:14-50) -/
def baseArity (b leaves : Nat) (root : List UInt8) (A : Alg Item := sha) : Bool :=
  run (instantiateNew (VecStore Item) A b leaves) (baseOk A b (item root) leaves)

#guard baseArity 2 4 [142, 226, 200, 91, 184, 251, 142, 223, 219, 43, 122, 241, 23, 37, 97, 46]
#guard baseArity 4 16 [128, 59, 187, 58, 199, 144, 7, 238, 128, 146, 124, 33, 241, 16, 92, 221]
#guard baseArity 8 64 [252, 61, 163, 229, 140, 223, 198, 165, 200, 137, 59, 43, 83, 136, 197, 63]

/-! `test_compound_tree_arities` (tests/test_arities.rs:53-122) -/
def compoundArity (b sub leaves : Nat) (root : List UInt8) : Bool :=
  run (do
    let ts ← times sub fun _ => instantiateNew (VecStore Item) sha b leaves
    M.ofRes (fromTrees sha sub ts)) (subOk sha b sub (item root) leaves)

#guard compoundArity 2 2 4 [57, 201, 227, 235, 242, 179, 108, 46, 157, 200, 126, 217, 134, 232, 141, 223]
#guard compoundArity 4 4 16 [146, 59, 189, 83, 119, 102, 147, 207, 178, 121, 11, 190, 241, 152, 67, 0]
#guard compoundArity 8 8 64 [32, 129, 168, 134, 58, 233, 155, 225, 88, 230, 247, 63, 18, 38, 194, 230]
#guard compoundArity 2 4 4 [81, 96, 135, 96, 165, 113, 149, 203, 222, 86, 102, 127, 139, 194, 78, 22]
#guard compoundArity 8 4 64 [149, 57, 53, 8, 68, 184, 94, 209, 244, 218, 43, 172, 185, 215, 193, 99]
#guard compoundArity 2 5 4 [127, 19, 226, 22, 109, 131, 88, 30, 221, 228, 251, 183, 147, 248, 2, 186]
#guard compoundArity 4 3 16 [67, 94, 188, 238, 85, 194, 96, 252, 163, 54, 119, 99, 218, 210, 231, 190]

/-! `test_compound_compound_tree_arities` (tests/test_arities.rs:125-179) -/
def topArity (b sub top leaves : Nat) (root : List UInt8) : Bool :=
  run (do
    let ts ← times (top * sub) fun _ => instantiateNew (VecStore Item) sha b leaves
    M.ofRes (fromSubTreesAsTrees sha sub top ts)) (topOk sha b sub top (item root) leaves)

#guard topArity 2 2 2 4 [77, 96, 160, 26, 181, 161, 25, 63, 24, 181, 60, 43, 45, 20, 246, 181]
#guard topArity 8 8 2 64 [52, 152, 123, 224, 174, 42, 152, 12, 199, 4, 105, 245, 176, 59, 230, 86]

/-- The smallest ones again, by the kernel's own evaluation instead of the interpreter's. -/
example : baseArity 2 4
    [142, 226, 200, 91, 184, 251, 142, 223, 219, 43, 122, 241, 23, 37, 97, 46] shaKernel = true := by
  decide +kernel

end Verif.Tests
