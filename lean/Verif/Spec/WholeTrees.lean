import Verif.Spec.Files
import Verif.Spec.Build64
import Verif.Spec.MayFail
import Verif.Model.Unlink
/-! Whole trees, compound ones included, that answer as before. -/
namespace Verif

/-- `t'` in `fs'` answers every question as `t` does in `fs`: sizes, root, reads and proofs. -/
structure Tree1.SameAnswers {S E : Type} [Element E] [StoreOps S E] (fs : FS) (t : Tree1 S E)
    (fs' : FS) (t' : Tree1 S E) : Prop where
  root : t'.root = t.root
  leafs : t'.leafs = t.leafs
  length : t'.length = t.length
  rows : t'.rowCount = t.rowCount
  reads : ∀ sub i, t'.readAt sub fs' i = t.readAt sub fs i
  ranges : ∀ i j, t'.readRange fs' i j = t.readRange fs i j
  proofs : ∀ b sub i, t'.genProof b sub fs' i = t.genProof b sub fs i
  cachedProofs : ∀ [FloatRows] (A : Alg E) b sub σ i rows,
    (t'.genCachedProof A b sub σ i rows fs').1 = (t.genCachedProof A b sub σ i rows fs).1

/-- `t'` in `fs'` answers every question as `t` does in `fs`: sizes, root, reads and proofs. -/
structure Tree2.SameAnswers {S E : Type} [Element E] [StoreOps S E] (fs : FS) (t : Tree2 S E)
    (fs' : FS) (t' : Tree2 S E) : Prop where
  root : t'.root = t.root
  leafs : t'.leafs = t.leafs
  length : t'.length = t.length
  rows : t'.rowCount = t.rowCount
  reads : ∀ sub top i, t'.readAt sub top fs' i = t.readAt sub top fs i
  proofs : ∀ b sub top i, t'.genProof b sub top fs' i = t.genProof b sub top fs i
  cachedProofs : ∀ [FloatRows] (A : Alg E) b sub top σ i rows,
    (t'.genCachedProof A b sub top σ i rows fs').1 = (t.genCachedProof A b sub top σ i rows fs).1

/-- `delete` of a file (src/merkle.rs:1394-1396) while the whole tree `t` is open.  Returns `t` as it is
afterwards: the base trees that have the file open go on with it under an anonymous name. -/
def Tree2.deleteOpen {S E : Type} [FileHandle S] (t : Tree2 S E) (config : StoreConfig) :
    M (Tree2 S E) := do
  let g ← FS.unlink config.file
  pure (t.mapStore (FileHandle.follow config.file g))

end Verif
