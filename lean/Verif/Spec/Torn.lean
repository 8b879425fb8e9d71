import Verif.Model.Flaky
import Verif.Spec.Crash
/-
What a failing copy can leave behind, and which read a level cache makes.
-/
namespace Verif

/-- A copy within a file that fails has copied some of the bytes, in blocks of any size; a `set_len` that fails has
changed nothing. -/
structure IoPlan.Torn (p : IoPlan) : Prop where
  copy : ∀ f src dst fs bs, fs.file f = some bs →
    ∃ n cur, CopyState bs src dst n cur ∧ p.left (.copy f src dst) fs = fs.set f (some cur)
  setLen : ∀ f n fs, p.left (.setLen f n) fs = fs

/-- No operation fails. -/
def IoPlan.Quiet (p : IoPlan) : Prop := ∀ op fs, p.fails op fs = false

/-- Opening a file for writing does not fail. -/
class IoPlan.Writable (p : IoPlan) : Prop where
  opens : ∀ f fs, p.fails (.open f true) fs = false

/-- The read of `n` bytes that the range `start..stop` of a level cache needs: of the replica below the end of the
leaves, of the file otherwise. -/
def LevelCacheStore.readOp {E : Type} [Element E] (s : LevelCacheStore E) (start stop n : Nat) : IoOp :=
  if s.reader.isSome ∧ start < s.dataWidth * Element.byteLen E then .ext start stop
  else .read s.file (s.adjustedStart start) n

/-- Number of nodes in the `j` lowest layers over `n` leaves, when each layer is `log2 b` bits narrower than the one
below. -/
def layersBelow (b n : Nat) : Nat → Nat
  | 0 => 0
  | j + 1 => layersBelow b n j + n >>> (j * log2Pow2 b)

end Verif
