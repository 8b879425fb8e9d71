import Verif.Model.Hash
/-
`Hashable` and its instances (src/hash.rs:79-96, src/hash_impl.rs).
-/
namespace Verif

/-- What the instances depend on of the machine compiled for: the size of `usize` in bytes and the
byte order. -/
class Target where
  usizeBytes : Nat
  bigEndian : Bool

/-- The integer types of `impl_write!` (src/hash_impl.rs:24-37). -/
inductive IntTy where
  | u8 | u16 | u32 | u64 | usize | i8 | i16 | i32 | i64 | isize | u128 | i128
  deriving DecidableEq, Repr

/-- `mem::size_of` of an integer type. -/
def IntTy.size [Target] : IntTy → Nat
  | u8 | i8 => 1
  | u16 | i16 => 2
  | u32 | i32 => 4
  | u64 | i64 => 8
  | u128 | i128 => 16
  | usize | isize => Target.usizeBytes

/-- A value of an integer type: its bits, in two's complement for the signed ones. -/
structure IntVal [Target] (t : IntTy) where
  bits : BitVec (8 * t.size)

/-- The `n` lowest bytes of `x`, least significant first. -/
def leBytes : (n x : Nat) → Bytes
  | 0, _ => []
  | n + 1, x => UInt8.ofNat x :: leBytes n (x / 256)

/-- `to_ne_bytes`: the bytes of an integer as they lie in memory. -/
def IntVal.neBytes [Target] {t : IntTy} (x : IntVal t) : Bytes :=
  if Target.bigEndian then (leBytes t.size x.bits.toNat).reverse else leBytes t.size x.bits.toNat

/-- `std::hash::Hasher`: `write` and the twelve `write_u8`, `write_u16`, ...; `finish` is not used by
the instances. -/
structure Hasher [Target] where
  σ : Type
  write : σ → Bytes → σ
  writeInt : (t : IntTy) → σ → IntVal t → σ

/-- The integer methods are the provided ones of `std::hash::Hasher`: they write the bytes of the
integer in native order. -/
def Hasher.ProvidedInts [Target] (H : Hasher) : Prop :=
  ∀ t s x, H.writeInt t s x = H.write s x.neBytes

/-- The `Hasher` part of an `Algorithm` that overrides none of the integer methods. -/
def Alg.hasher [Target] {E : Type} (A : Alg E) : Hasher where
  σ := A.σ
  write := A.write
  writeInt _ s x := A.write s x.neBytes

/-- `trait Hashable<H>` (src/hash.rs:79-96).  The default `hash_slice` hashes piece by piece. -/
class HashIn [Target] (H : Hasher) (T : Type) where
  hash : T → H.σ → H.σ
  hashSlice : List T → H.σ → H.σ := fun data s => data.foldl (fun s x => hash x s) s

/-- The byte at an offset into a slice, as a raw pointer to its first element sees it: elements of
`size` bytes lie one after the other without padding. -/
def rawByte {T : Type} (size : Nat) (enc : T → Bytes) (data : List T) (offset : Nat) : UInt8 :=
  match data[offset / size]? with
  | some x => (enc x).getD (offset % size) 0
  | none => 0

/-- `slice::from_raw_parts(data.as_ptr() as *const u8, data.len() * size_of::<T>())`
(src/hash_impl.rs:16-18, 46-48). -/
def rawView {T : Type} (size : Nat) (enc : T → Bytes) (data : List T) : Bytes :=
  (List.range (data.length * size)).map (rawByte size enc data)

section
variable [Target] {H : Hasher}

/-- `impl_write!` (src/hash_impl.rs:7-22). -/
instance (t : IntTy) : HashIn H (IntVal t) where
  hash x s := H.writeInt t s x
  hashSlice data s := H.write s (rawView t.size IntVal.neBytes data)

/-- `[u8; N]`. -/
structure ByteArr (n : Nat) where
  val : Bytes
  len : val.length = n

/-- `impl Hashable<H> for [u8; N]` (src/hash_impl.rs:39-50). -/
instance (n : Nat) : HashIn H (ByteArr n) where
  hash x s := H.write s x.val
  hashSlice data s := H.write s (rawView n ByteArr.val data)

/-- `Vec<u8>`. -/
structure VecU8 where
  val : Bytes

/-- `impl Hashable<H> for Vec<u8>` (src/hash_impl.rs:52-56). -/
instance : HashIn H VecU8 where
  hash x s := H.write s x.val

/-- `impl Hashable<H> for bool` (src/hash_impl.rs:58-62). -/
instance : HashIn H Bool where
  hash x s := H.writeInt .u8 s ⟨if x then 1 else 0⟩

/-- `impl Hashable<H> for char` (src/hash_impl.rs:64-68). -/
instance : HashIn H Char where
  hash x s := H.writeInt .u32 s ⟨x.val.toBitVec⟩

/-- The UTF-8 bytes of a string (`as_bytes`). -/
def strBytes (x : String) : Bytes := x.toUTF8.data.toList

/-- `impl Hashable<H> for str` and `for String` (src/hash_impl.rs:70-82): no terminator. -/
instance : HashIn H String where
  hash x s := H.write s (strBytes x)

/-- `impl_hash_tuple! {}` (src/hash_impl.rs:85-89). -/
instance : HashIn H Unit where
  hash _ s := s

/-- `impl_hash_tuple! { A B ... }` (src/hash_impl.rs:91-103): the components in order.  A tuple
`(a, b, c)` is `(a, (b, (c, ())))`. -/
instance {T U : Type} [HashIn H T] [HashIn H U] : HashIn H (T × U) where
  hash x s := HashIn.hash x.2 (HashIn.hash x.1 s)

/-- `[T]`. -/
structure Slice (T : Type) where
  val : List T

/-- `impl Hashable<H> for [T]` (src/hash_impl.rs:124-128). -/
instance {T : Type} [HashIn H T] : HashIn H (Slice T) where
  hash x s := HashIn.hashSlice x.val s

/-- `&T` and `&mut T`. -/
structure Ref (T : Type) where
  val : T

/-- `impl Hashable<H> for &T` and `for &mut T` (src/hash_impl.rs:130-140). -/
instance {T : Type} [HashIn H T] : HashIn H (Ref T) where
  hash x s := HashIn.hash x.val s

/-- A raw pointer: one machine word, or two for a pointer to an unsized type. -/
inductive RawPtr where
  | thin (addr : IntVal .usize)
  | fat (addr extra : IntVal .usize)

/-- `impl Hashable<H> for *const T` and `for *mut T` (src/hash_impl.rs:142-170). -/
instance : HashIn H RawPtr where
  hash
    | .thin a, s => H.writeInt .usize s a
    | .fat a b, s => H.writeInt .usize (H.writeInt .usize s a) b

end
end Verif
