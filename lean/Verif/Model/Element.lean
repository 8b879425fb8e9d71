import Verif.Model.Res
/-
Tree elements: `trait Element` (src/merkle.rs:192-200) and its instance for `[u8; 32]`
(src/merkle.rs:1820-1835).
-/
namespace Verif

/-- Raw bytes (`&[u8]`, `Vec<u8>`, file contents). -/
abbrev Bytes := List UInt8

/-- `trait Element` (src/merkle.rs:192-200).  `toBytes` is `as_ref`, `default` is
`Default::default`.  `decode` is what `from_slice` does with a slice of the right length. -/
class Element (E : Type) where
  byteLen : Nat
  toBytes : E → Bytes
  decode : Bytes → E
  default : E

/-- `Element::from_slice` (src/merkle.rs:197, instance 1825-1829): panics on a wrong length
(the trait requires it: "Panics if the slice is not appropriately sized"). -/
def Element.fromSlice {E : Type} [Element E] (bs : Bytes) : Res E :=
  if bs.length = Element.byteLen E then .ok (Element.decode bs)
  else .error (.panic "assertion failed: bytes.len() == byte_len")

/-- The contract an `Element` instance must obey: a fixed positive length and a byte representation
from which the element can be recovered. -/
class LawfulElement (E : Type) [Element E] : Prop where
  byteLen_pos : 0 < Element.byteLen E
  length_toBytes : ∀ e : E, (Element.toBytes e).length = Element.byteLen E
  decode_toBytes : ∀ e : E, Element.decode (Element.toBytes e) = e

/-- `[u8; 32]`: a list of bytes of length 32. -/
structure Bytes32 where
  val : Bytes
  len : val.length = 32
  deriving DecidableEq

/-- `impl Element for [u8; 32]` (src/merkle.rs:1820-1835).  `decode` copies the 32 bytes; on a slice
of another length it is never reached. -/
instance : Element Bytes32 where
  byteLen := 32
  toBytes e := e.val
  decode bs := if h : bs.length = 32 then ⟨bs, h⟩ else ⟨List.replicate 32 0, by simp⟩
  default := ⟨List.replicate 32 0, by simp⟩

/-- `copy_to_slice` for `[u8; 32]` (src/merkle.rs:1832-1834): `bytes.copy_from_slice(self)`, which
panics when the lengths differ.  Returns the new contents of the destination. -/
def Bytes32.copyToSlice (e : Bytes32) (dst : Bytes) : Res Bytes :=
  if dst.length = 32 then .ok e.val
  else .error (.panic "source slice length does not match destination slice length")

end Verif
