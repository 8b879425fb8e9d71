import Verif.Spec.Compaction
/-
Vocabulary for statements about opening trees again.
-/
namespace Verif

/-- The source is `from_byte_slice(_with_config)`. -/
def Source.isBytes {E : Type} {A : Alg E} : Source A → Bool
  | .bytes _ => true
  | _ => false

/-- `u` is the same tree as `t` to everybody who asks it for its root and sizes, reads it, or has it
prove something. -/
structure BaseTree.SameAs {S E : Type} [Element E] [StoreOps S E] (b : Nat) (fs : FS)
    (t u : BaseTree S E) : Prop where
  summary : u.summary = t.summary
  reads : ∀ i, u.readAt fs i = t.readAt fs i
  ranges : ∀ i j, u.readRange fs i j = t.readRange fs i j
  proofs : ∀ i, u.genProof b 0 0 fs i = t.genProof b 0 0 fs i

end Verif
