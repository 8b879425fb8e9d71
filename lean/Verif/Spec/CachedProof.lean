import Verif.Model.Merkle
import Verif.Spec.ProofTranscript
/-
Vocabulary for statements about cached proofs.
-/
namespace Verif
open Spec
variable {S S' E : Type} [Element E] [StoreOps S E] [StoreOps S' E] [FloatRows]

/-- `u`, read in file system `fs'`, has the sizes and the root of the full tree `t`, read in `fs`, and
`u.gen_cached_proof(i, rows)` returns exactly what `t.gen_proof(i)` returns, for every leaf, without
touching any file. -/
def BaseTree.CachedProofsAgree (A : Alg E) (b : Nat) (σ : Sched) (rows : Option Nat) (fs fs' : FS)
    (t : BaseTree S E) (u : BaseTree S' E) : Prop :=
  u.leafs = t.leafs ∧ u.root = t.root ∧ ∀ i, i < t.leafs →
    ∃ p, t.genProof b 0 0 fs i = .ok p ∧ u.genCachedProof A b 0 0 σ i rows fs' = (.ok p, fs')

/-- The same for compound trees. -/
def Tree1.CachedProofsAgree (A : Alg E) (b sub : Nat) (σ : Sched) (rows : Option Nat) (fs fs' : FS)
    (t : Tree1 S E) (u : Tree1 S' E) : Prop :=
  u.leafs = t.leafs ∧ u.root = t.root ∧ ∀ i, i < t.leafs →
    ∃ p, t.genProof b sub fs i = .ok p ∧ u.genCachedProof A b sub σ i rows fs' = (.ok p, fs')

/-- Whatever `u` reads in file system `fs'`: a proof that `u.gen_cached_proof(i, rows)` returns and that
validates is the proof of the full tree `t`, or its transcript and that of the full tree's proof contain
a hash collision. -/
def BaseTree.CachedProofsBind [DecidableEq E] (A : Alg E) (b : Nat) (σ : Sched) (rows : Option Nat)
    (fs fs' : FS) (t : BaseTree S E) (u : BaseTree S' E) : Prop :=
  ∀ (i : Nat) (p : Proof E) (fs'' : FS), u.genCachedProof A b 0 0 σ i rows fs' = (.ok p, fs'') →
    fs'' = fs' ∧ (p.validate A b = .ok true → ∃ q, t.genProof b 0 0 fs i = .ok q ∧
      (p = q ∨ Collision A.nodeHash (proofTranscript A.nodeHash b p) (proofTranscript A.nodeHash b q)))

/-- The same for compound trees. -/
def Tree1.CachedProofsBind [DecidableEq E] (A : Alg E) (b sub : Nat) (σ : Sched) (rows : Option Nat)
    (fs fs' : FS) (t : Tree1 S E) (u : Tree1 S' E) : Prop :=
  ∀ (i : Nat) (p : Proof E) (fs'' : FS), u.genCachedProof A b sub σ i rows fs' = (.ok p, fs'') →
    fs'' = fs' ∧ (p.validate A b = .ok true → ∃ q, t.genProof b sub fs i = .ok q ∧
      (p = q ∨ Collision A.nodeHash (proofTranscript A.nodeHash b p) (proofTranscript A.nodeHash b q)))

end Verif
