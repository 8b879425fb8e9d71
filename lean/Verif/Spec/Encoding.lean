import Verif.Model.Hashable
/-
What bytes a value contributes to a hash, independent of how the instances feed the hasher.
-/
namespace Verif
variable [Target]

/-- Writing two byte strings equals writing their concatenation. -/
def Hasher.Concat (H : Hasher) : Prop := ∀ s x y, H.write (H.write s x) y = H.write s (x ++ y)

/-- The state depends only on the bytes written so far, however they were cut up. -/
def Hasher.Streaming (H : Hasher) : Prop := H.Concat ∧ ∀ s, H.write s [] = s

/-- The encoding of values of a type. -/
class Enc (T : Type) where
  enc : T → Bytes

instance (t : IntTy) : Enc (IntVal t) := ⟨IntVal.neBytes⟩
instance (n : Nat) : Enc (ByteArr n) := ⟨ByteArr.val⟩
instance : Enc VecU8 := ⟨VecU8.val⟩
instance : Enc Bool := ⟨fun x => [if x then 1 else 0]⟩
/-- The code point as four bytes. -/
instance : Enc Char :=
  ⟨fun x => if Target.bigEndian then (leBytes 4 x.toNat).reverse else leBytes 4 x.toNat⟩
instance : Enc String := ⟨strBytes⟩
instance : Enc Unit := ⟨fun _ => []⟩
instance {T U : Type} [Enc T] [Enc U] : Enc (T × U) := ⟨fun x => Enc.enc x.1 ++ Enc.enc x.2⟩
instance {T : Type} [Enc T] : Enc (Slice T) := ⟨fun x => x.val.flatMap Enc.enc⟩
instance {T : Type} [Enc T] : Enc (Ref T) := ⟨fun x => Enc.enc x.val⟩
instance : Enc RawPtr := ⟨fun
  | .thin a => a.neBytes
  | .fat a b => a.neBytes ++ b.neBytes⟩

/-- The instance `HashIn H T` writes exactly the encoding, and hashes slices element by element. -/
class EncodesIn (H : Hasher) (T : Type) [HashIn H T] [Enc T] : Prop where
  hash_eq : H.ProvidedInts → H.Streaming → ∀ (x : T) (s : H.σ), HashIn.hash x s = H.write s (Enc.enc x)
  slice_eq : H.ProvidedInts → H.Streaming → ∀ (xs : List T) (s : H.σ),
    HashIn.hashSlice xs s = xs.foldl (fun (s : H.σ) x => HashIn.hash x s) s

end Verif
