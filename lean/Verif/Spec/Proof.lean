/-
Specification of Merkle inclusion proofs, independent of the code.

A proof step is a position among the children and the list of the other children.  Climbing from an
item hashes, step after step, the list obtained by inserting the current value among its siblings.
-/
namespace Verif.Spec
variable {E : Type}

/-- `x` inserted before position `p` of `sibs`. -/
def insertAt (p : Nat) (x : E) (sibs : List E) : List E := sibs.take p ++ x :: sibs.drop p

/-- The value reached from `x` through the given steps; step number `l` hashes with height
`hgt l`. -/
def climb (H : List E → Nat → E) (hgt : Nat → Nat) : Nat → E → List (Nat × List E) → E
  | _, x, [] => x
  | l, x, (p, s) :: rest => climb H hgt (l + 1) (H (insertAt p x s) (hgt l)) rest

/-- The lists (with height) hashed while climbing: the transcript of the computation. -/
def transcript (H : List E → Nat → E) (hgt : Nat → Nat) :
    Nat → E → List (Nat × List E) → List (List E × Nat)
  | _, _, [] => []
  | l, x, (p, s) :: rest =>
    (insertAt p x s, hgt l) ::
      transcript H hgt (l + 1) (H (insertAt p x s) (hgt l)) rest

/-- Cut a flat list of siblings into one group of `b - 1` per path entry. -/
def steps (b : Nat) : List Nat → List E → List (Nat × List E)
  | [], _ => []
  | p :: ps, sibs => (p, sibs.take (b - 1)) :: steps b ps (sibs.drop (b - 1))

/-- Two transcripts exhibit a collision: at some common position they hash different lists at the
same height to the same value.  (Given the two transcripts the collision can be read off, so this is
not the trivial "some collision exists".) -/
def Collision (H : List E → Nat → E) (t u : List (List E × Nat)) : Prop :=
  ∃ (j : Nat) (x y : List E) (h : Nat),
    t[j]? = some (x, h) ∧ u[j]? = some (y, h) ∧ x ≠ y ∧ H x h = H y h

end Verif.Spec
