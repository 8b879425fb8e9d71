import Verif.Model.Merkle
import Verif.Spec.Source
/-
Vocabulary for statements about which files an operation may change.
-/
namespace Verif

/-- Running `x` changes no file outside `F`, whether it succeeds or fails. -/
def M.Touches {α : Type} (F : FileId → Prop) (x : M α) : Prop :=
  ∀ fs g, ¬ F g → (x fs).2.file g = fs.file g

/-- A path split at the slashes. -/
def splitSlash : List Char → List (List Char)
  | [] => [[]]
  | c :: cs =>
    if c = '/' then [] :: splitSlash cs
    else match splitSlash cs with
      | [] => [[c]]
      | w :: ws => (c :: w) :: ws

/-- The components of a path as the operating system sees them: empty ones and `.` do not count.
Two paths that agree on being absolute and on their components name the same file. -/
def pathComponents (p : String) : List (List Char) :=
  (splitSlash p.toList).filter fun w => w ≠ [] ∧ w ≠ ['.']

/-- One of the things a user can do with a store or tree whose configuration is `c`, through a store
`s` that was created or opened with it. -/
inductive ConfigOp {E : Type} (S : Type) (A : Alg E) where
  /-- build a base tree with one of the constructors -/
  | build (b : Nat) (σ : Sched) (src : Source A)
  /-- build from an iterator that may fail and whose size hint may be wrong -/
  | iterate (b : Nat) (σ : Sched) (hint : Option Nat) (items : List (Res E))
  /-- build from arbitrary bytes -/
  | byteSlice (b : Nat) (σ : Sched) (data : Bytes)
  /-- take a whole tree from a slice -/
  | treeSlice (b sub top : Nat) (data : Bytes) (leafs : Nat)
  /-- create or open a store -/
  | create (size b : Nat)
  /-- open an existing store -/
  | openDisk (size b : Nat)
  /-- create a store from a slice -/
  | fromSlice (size b : Nat) (data : Bytes)
  /-- write one element -/
  | writeAt (s : S) (e : E) (i : Nat)
  /-- write several elements -/
  | copyFromSlice (s : S) (data : Bytes) (i : Nat)
  /-- append an element -/
  | push (s : S) (e : E)
  /-- hash the rows above the leaves -/
  | buildStore (b : Nat) (σ : Sched) (s : S) (leafs rows : Nat)
  /-- compact -/
  | compact (s : S) (b version : Nat)
  /-- map again -/
  | reinit (s : S)
  /-- delete -/
  | delete

namespace ConfigOp
variable {S E : Type} {A : Alg E} [Element E] [Store S E] [FloatRows]

/-- The store the operation uses, if it uses one. -/
def handle : ConfigOp S A → Option S
  | .writeAt s _ _ | .copyFromSlice s _ _ | .push s _ | .buildStore _ _ s _ _ | .compact s _ _
  | .reinit s => some s
  | _ => none

/-- The file system after the operation. -/
def after (c : StoreConfig) : ConfigOp S A → FS → FS
  | .build b σ src, fs => (src.build (S := S) b σ (some c) fs).2
  | .iterate b σ hint items, fs =>
    (BaseTree.tryFromIterWithConfig (S := S) A b σ hint items c fs).2
  | .byteSlice b σ data, fs => (BaseTree.fromByteSliceWithConfig (S := S) A b σ data c fs).2
  | .treeSlice b sub top data leafs, fs =>
    (BaseTree.fromTreeSliceWithConfig (S := S) b sub top data leafs c fs).2
  | .create size b, fs => ((Store.newWithConfig size b c : M S) fs).2
  | .openDisk size b, fs => ((Store.newFromDisk size b c : M S) fs).2
  | .fromSlice size b data, fs => ((Store.newFromSliceWithConfig size b data c : M S) fs).2
  | .writeAt s e i, fs => (StoreOps.writeAt s e i fs).2
  | .copyFromSlice s data i, fs => (StoreOps.copyFromSlice s data i fs).2
  | .push s e, fs => (StoreOps.push s e fs).2
  | .buildStore b σ s leafs rows, fs => (Store.build A b σ s leafs rows (some c) fs).2
  | .compact s b version, fs => (Store.compact s b c version fs).2.2
  | .reinit s, fs => (Store.reinit s fs).2
  | .delete, fs => (Store.delete S c fs).2

/-- The file system after some operations, each with its configuration. -/
def run (ops : List (StoreConfig × ConfigOp S A)) (fs : FS) : FS :=
  ops.foldl (fun fs p => p.2.after p.1 fs) fs

end ConfigOp

/-- Everything that can be read from the tree, and every proof, is in `fs'` what it was in `fs`. -/
structure BaseTree.Undisturbed {S E : Type} [Element E] [StoreOps S E] (fs fs' : FS)
    (t : BaseTree S E) : Prop where
  reads : ∀ i, t.readAt fs' i = t.readAt fs i
  ranges : ∀ i j, t.readRange fs' i j = t.readRange fs i j
  readsInto : ∀ i buf, t.readInto fs' i buf = t.readInto fs i buf
  rangesInto : ∀ i j buf, t.readRangeInto fs' i j buf = t.readRangeInto fs i j buf
  proofs : ∀ b sub top i, t.genProof b sub top fs' i = t.genProof b sub top fs i
  cachedProofs : ∀ [FloatRows] (A : Alg E) b sub top σ i rows,
    (t.genCachedProof A b sub top σ i rows fs').1 = (t.genCachedProof A b sub top σ i rows fs).1

/-- `t'` in `fs'` answers every question as `t` does in `fs`: sizes, root, reads and proofs. -/
structure BaseTree.SameAnswers {S E : Type} [Element E] [StoreOps S E] (fs : FS) (t : BaseTree S E)
    (fs' : FS) (t' : BaseTree S E) : Prop where
  summary : t'.summary = t.summary
  reads : ∀ i, t'.readAt fs' i = t.readAt fs i
  ranges : ∀ i j, t'.readRange fs' i j = t.readRange fs i j
  readsInto : ∀ i buf, t'.readInto fs' i buf = t.readInto fs i buf
  rangesInto : ∀ i j buf, t'.readRangeInto fs' i j buf = t.readRangeInto fs i j buf
  proofs : ∀ b sub top i, t'.genProof b sub top fs' i = t.genProof b sub top fs i
  cachedProofs : ∀ [FloatRows] (A : Alg E) b sub top σ i rows,
    (t'.genCachedProof A b sub top σ i rows fs').1 = (t.genCachedProof A b sub top σ i rows fs).1

end Verif
