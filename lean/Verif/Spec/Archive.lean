import Verif.Spec.Compaction
/-
Archiving the parts of a compound tree: each part is compacted, and the compound tree is opened again
from the compacted files and one replica of the leaves.
-/
namespace Verif
open Spec

/-- A tree on disk, its configuration, its leaves, and where the replica has them. -/
structure Spec.ArchivePart (E : Type) where
  tree : BaseTree (DiskStore E) E
  config : StoreConfig
  leaves : List E
  offset : Nat

/-- Compacts one tree after the other and stops at the first that is not compacted. -/
def Spec.compactAll {E : Type} [Element E] [FloatRows] (b version : Nat) :
    List (ArchivePart E) → FS → Bool × FS
  | [], fs => (true, fs)
  | p :: ps, fs =>
    match p.tree.compact b p.config version fs with
    | (.ok true, _, fs) => compactAll b version ps fs
    | (_, _, fs) => (false, fs)

/-- The parts are trees of height `k`, each in a file of its own, with fewer than `k` rows to discard;
the replica is another file and has the leaves of every part at its offset. -/
structure Spec.Archivable {E : Type} [Element E] (A : Alg E) (b k : Nat) (path : String)
    (ps : List (ArchivePart E)) (fs : FS) : Prop where
  tree : ∀ p ∈ ps, ∃ f, p.tree.IsFileTree A b k p.leaves f p.config fs
  discard : ∀ p ∈ ps, p.config.rowsToDiscard < k
  distinct : (ps.map fun p => p.config.file).Nodup
  apart : ∀ p ∈ ps, p.config.file ≠ .named path
  replica : ∃ bs, fs.file (.named path) = some bs ∧
    ∀ p ∈ ps, region bs p.offset (p.leaves.length * Element.byteLen E) = encodeAll p.leaves

end Verif
