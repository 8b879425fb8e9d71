import Verif.Model.Merkle
import Verif.Model.Hashable
import Verif.Spec.Ideal
import Verif.Tests.Sha256
/-
Tests, not proofs.  The repository's own integration tests state exact roots, sizes and error cases
for particular inputs.  The modules in this directory run the model on the same inputs and compare.
They tie the model to numbers computed by the real program, which no theorem about the model can do.

This file models the shared test code tests/common.rs: the element, the two hashers, the data sets
and the two checks.
-/
namespace Verif.Tests

/-- `TestItem` (tests/common.rs:48-75): 16 bytes. -/
structure Item where
  bytes : Bytes
  deriving DecidableEq, Repr

instance : Element Item where
  byteLen := 16
  toBytes e := e.bytes
  decode bs := ⟨bs⟩
  default := ⟨List.replicate 16 0⟩

/-- `TestSha256Hasher` (tests/common.rs:119-169): SHA-256 cut to 16 bytes; `hash` resets the
engine. -/
def sha : Alg Item :=
  Alg.ofHasher Bytes [] (· ++ ·)
    (fun s => (⟨(Sha256.fast s).take 16⟩, []))

/-- The same with the version of SHA-256 that the kernel can evaluate. -/
def shaKernel : Alg Item :=
  Alg.ofHasher Bytes [] (· ++ ·)
    (fun s => (⟨((Sha256.hash (s.map UInt8.toNat)).take 16).map UInt8.ofNat⟩, []))

/-- `TestXOR128` (tests/common.rs:78-116): byte number `i` written is xored into byte `i mod 16`. -/
def xor128 : Alg Item :=
  Alg.ofHasher (Bytes × Nat) (List.replicate 16 0, 0)
    (fun s bs => bs.foldl (fun s x => (s.1.modify (s.2 % 16) (· ^^^ x), s.2 + 1)) s)
    (fun s => (⟨s.1⟩, s))

/-- `generate_vector_of_elements` (tests/common.rs:182-189). -/
def elements (leaves : Nat) : List Item :=
  (List.range leaves).map fun i => ⟨(List.range 16).map fun x => UInt8.ofNat (i + x)⟩

/-- `generate_vector_of_usizes` (tests/common.rs:192-194): element `i` is `93 i`, and its `Hashable`
instance writes the eight bytes of the `usize`, least significant first. -/
def usizes (A : Alg Item) (leaves : Nat) : List (HashableVal A) :=
  (List.range leaves).map fun i s =>
    A.write s ((List.range 8).map fun j => UInt8.ofNat ((93 * i) >>> (8 * j)))

/-- `generate_byte_slice_tree` (tests/common.rs:197-219). -/
def byteSlice (A : Alg Item) (leaves : Nat) : Bytes :=
  (usizes A leaves).flatMap fun f => (A.leafHash (A.hash (f A.init)).1).bytes

def item (bs : List UInt8) : Item := ⟨bs⟩

/-- What `test_disk_mmap_vec_tree_functionality` (tests/common.rs:222-252) asserts, as one Boolean. -/
def checks (A : Alg Item) (b leafs len : Nat) (root : Item) (gen : Nat → Res (Proof Item))
    (expectLeafs expectLen : Nat) (expectRoot : Item) : Bool :=
  leafs = expectLeafs && len = expectLen && root = expectRoot &&
    (List.range leafs).all fun i =>
      match gen i with
      | .ok p => (match p.validate A b with | .ok true => true | _ => false)
      | .error _ => false

/-- Runs a computation in an empty file system. -/
def run {α : Type} (x : M α) (f : α → FS → Bool) (fs : FS := FS.empty) : Bool :=
  match x fs with
  | (.ok a, fs) => f a fs
  | (.error _, _) => false

section
variable {S : Type} [StoreOps S Item]

/-- The check on a base tree. -/
def baseOk (A : Alg Item) (b : Nat) (root : Item) (leafs : Nat) (t : BaseTree S Item) (fs : FS) :
    Bool :=
  match merkleTreeLenGeneric b 0 0 leafs with
  | .ok n => checks A b t.leafs t.length t.root (t.genProof b 0 0 fs) leafs n root
  | .error _ => false

/-- The check on a compound tree. -/
def subOk (A : Alg Item) (b sub : Nat) (root : Item) (leafs : Nat) (t : Node (BaseTree S Item) Item)
    (fs : FS) : Bool :=
  let t := Tree1.sub t
  match merkleTreeLenGeneric b sub 0 leafs with
  | .ok n => checks A b t.leafs t.length t.root (t.genProof b sub fs) (leafs * sub) n root
  | .error _ => false

/-- The check on a compound-compound tree. -/
def topOk (A : Alg Item) (b sub top : Nat) (root : Item) (leafs : Nat)
    (t : Node (Tree1 S Item) Item) (fs : FS) : Bool :=
  let t := Tree2.top t
  match merkleTreeLenGeneric b sub top leafs with
  | .ok n => checks A b t.leafs t.length t.root (t.genProof b sub top fs) (leafs * sub * top) n root
  | .error _ => false

/-- `serialize_tree` (tests/common.rs:290-307). -/
def serialize (fs : FS) (t : BaseTree S Item) : Res Bytes := do
  let es ← StoreOps.readRange fs t.store 0 t.length
  .ok (encodeAll es)

end

/-- `n` trees, one after the other (`get_vector_of_base_trees`, tests/common.rs:363-377, and the loops
in the other tests). -/
def times {α : Type} (n : Nat) (x : Nat → M α) : M (List α) := collectM x (List.range n)

end Verif.Tests
