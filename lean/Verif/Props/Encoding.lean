import Verif.Lemmas.Encoding
import Verif.Lemmas.Digest
import Verif.Model.VecStore
/-
C44: `Hashable` encodings are concatenations (src/hash.rs:79-96, src/hash_impl.rs).
C45: the byte codec of elements (src/merkle.rs:192-200, 1820-1835).
-/
namespace Verif

/-! ### C44 -/
section
variable [Target] {H : Hasher}

/-- **C44** for slices of integers, which are hashed through a raw view of memory: it equals hashing
element by element. -/
theorem C44_int_slice (hi : H.ProvidedInts) (hs : H.Streaming) {t : IntTy} (xs : List (IntVal t))
    (s : H.σ) : HashIn.hashSlice xs s = xs.foldl (fun s x => HashIn.hash x s) s :=
  EncodesIn.slice_eq hi hs xs s

/-- **C44** for slices of byte arrays. -/
theorem C44_array_slice (hi : H.ProvidedInts) (hs : H.Streaming) {n : Nat} (xs : List (ByteArr n))
    (s : H.σ) : HashIn.hashSlice xs s = xs.foldl (fun s x => HashIn.hash x s) s :=
  EncodesIn.slice_eq hi hs xs s

/-- **C44** for non-empty slices, of integers, when empty writes may leave a trace. -/
theorem C44_int_slice_nonempty (hi : H.ProvidedInts) (hs : H.Concat) {t : IntTy} (x : IntVal t)
    (xs : List (IntVal t)) (s : H.σ) :
    HashIn.hashSlice (x :: xs) s = (x :: xs).foldl (fun s x => HashIn.hash x s) s := by
  show H.write s (rawView t.size IntVal.neBytes (x :: xs)) = _
  rw [rawView_eq IntVal.length_neBytes, ← hs.foldl]
  exact foldl_hash_congr (fun s x => (hi t s x).symm) _ s

/-- **C44** for non-empty slices of byte arrays, when empty writes may leave a trace. -/
theorem C44_array_slice_nonempty (hs : H.Concat) {n : Nat} (x : ByteArr n) (xs : List (ByteArr n))
    (s : H.σ) :
    HashIn.hashSlice (x :: xs) s = (x :: xs).foldl (fun s x => HashIn.hash x s) s := by
  show H.write s (rawView n ByteArr.val (x :: xs)) = _
  rw [rawView_eq ByteArr.len, ← hs.foldl]
  rfl

/-- **C44** for a slice of any type of the library's instances. -/
theorem C44_slice {T : Type} [HashIn H T] [Enc T] [EncodesIn H T] (hi : H.ProvidedInts)
    (hs : H.Streaming) (xs : List T) (s : H.σ) :
    HashIn.hash (Slice.mk xs) s = xs.foldl (fun s x => HashIn.hash x s) s :=
  EncodesIn.slice_eq hi hs xs s

/-- **C44** for slices of types that keep the default `hash_slice`: no assumption on the hasher. -/
theorem C44_default_slice (s : H.σ) :
    (∀ xs : List VecU8, HashIn.hashSlice xs s = xs.foldl (fun (s : H.σ) x => HashIn.hash x s) s) ∧
    (∀ xs : List Bool, HashIn.hashSlice xs s = xs.foldl (fun (s : H.σ) x => HashIn.hash x s) s) ∧
    (∀ xs : List Char, HashIn.hashSlice xs s = xs.foldl (fun (s : H.σ) x => HashIn.hash x s) s) ∧
    (∀ xs : List String, HashIn.hashSlice xs s = xs.foldl (fun (s : H.σ) x => HashIn.hash x s) s) :=
  ⟨fun _ => rfl, fun _ => rfl, fun _ => rfl, fun _ => rfl⟩

/-- **C44** for tuples: the first component, then the rest in order, any hasher.  A tuple
`(a, b, c)` is `(a, (b, (c, ())))`. -/
theorem C44_tuple {T U : Type} [HashIn H T] [HashIn H U] (x : T) (rest : U) (s : H.σ) :
    HashIn.hash (x, rest) s = HashIn.hash rest (HashIn.hash x s) ∧ HashIn.hash () s = s := ⟨rfl, rfl⟩

/-- **C44** for references, any hasher. -/
theorem C44_ref {T : Type} [HashIn H T] (x : T) (s : H.σ) :
    HashIn.hash (Ref.mk x) s = HashIn.hash x s := rfl

/-- **C44**, all instances: hashing a value writes its encoding, in which the parts of tuples and slices
are concatenated. -/
theorem C44_encoding {T : Type} [HashIn H T] [Enc T] [EncodesIn H T] (hi : H.ProvidedInts)
    (hs : H.Streaming) (x : T) (s : H.σ) : HashIn.hash x s = H.write s (Enc.enc x) :=
  EncodesIn.hash_eq hi hs x s

/-- The encoding of a slice of integers determines the slice (if integers are not empty). -/
theorem C44_int_slice_injective {t : IntTy} (ht : 0 < t.size) {xs ys : List (IntVal t)}
    (h : Enc.enc (Slice.mk xs) = Enc.enc (Slice.mk ys)) : xs = ys := by
  have h' : xs.flatMap IntVal.neBytes = ys.flatMap IntVal.neBytes := h
  clear h
  have nil : ∀ {z : IntVal t} {zs : List (IntVal t)}, (z :: zs).flatMap IntVal.neBytes ≠ [] := by
    intro z zs h0
    have := congrArg List.length h0
    simp [IntVal.length_neBytes] at this
    omega
  induction xs generalizing ys with
  | nil =>
    cases ys with
    | nil => rfl
    | cons y ys => exact absurd h'.symm nil
  | cons x xs ih =>
    cases ys with
    | nil => exact absurd h' nil
    | cons y ys =>
      rw [List.flatMap_cons, List.flatMap_cons] at h'
      obtain ⟨h1, h2⟩ := List.append_inj h' (by rw [IntVal.length_neBytes, IntVal.length_neBytes])
      rw [IntVal.neBytes_inj h1, ih h2]

end

section
/-- A 64-bit little-endian machine. -/
local instance littleEndian64 : Target := ⟨8, false⟩

/-- A hasher that only remembers whether `write` was called. -/
def touchHasher : Hasher := ⟨Bool, fun _ _ => true, fun _ _ _ => true⟩

/-- C44 with the law on concatenation alone: an empty slice of integers is written as an empty byte
string, which a hasher may notice, while hashing its elements one after another does nothing. -/
theorem C44_empty_slice_refuted : ∃ H : Hasher, H.Concat ∧ H.ProvidedInts ∧
    ∃ s : H.σ, HashIn.hashSlice ([] : List (IntVal .u64)) s
      ≠ ([] : List (IntVal .u64)).foldl (fun (s : H.σ) x => HashIn.hash x s) s :=
  ⟨touchHasher, fun _ _ _ => rfl, fun _ _ _ => rfl, false, by
    show (true : Bool) ≠ false
    decide⟩

/-- A hasher that remembers the bytes written. -/
def logHasher : Hasher := ⟨Bytes, fun s bs => s ++ bs, fun _ s x => s ++ x.neBytes⟩

-- the hypotheses of C44 can be met
example : logHasher.Streaming := ⟨fun s x y => List.append_assoc s x y, fun s => List.append_nil s⟩
example : logHasher.ProvidedInts := fun _ _ _ => rfl
example : HashIn.hashSlice (H := logHasher) [(⟨0x0102⟩ : IntVal .u16), ⟨0x0304⟩] ([] : Bytes)
    = ([2, 1, 4, 3] : Bytes) := rfl
example : HashIn.hash (H := logHasher) ((⟨0x0102⟩ : IntVal .u16), true, ()) ([] : Bytes)
    = ([2, 1, 1] : Bytes) := rfl

/-- Beside C44: the encoding of a tuple or slice of strings does not determine the strings. -/
theorem C44_strings_ambiguous {H : Hasher} (hs : H.Streaming) (s : H.σ) :
    HashIn.hash ("a", "bc", ()) s = HashIn.hash ("ab", "c", ()) s := by
  show H.write (H.write s (strBytes "a")) (strBytes "bc") = H.write (H.write s (strBytes "ab")) (strBytes "c")
  rw [hs.1, hs.1]
  congr 1

end

/-! ### C45 -/

instance : LawfulElement Bytes32 where
  byteLen_pos := by decide
  length_toBytes e := e.len
  decode_toBytes e := by
    show (if h : e.val.length = 32 then _ else _) = e
    rw [dif_pos e.len]
    rfl

section
variable {E : Type} [Element E] [LawfulElement E]

/-- **C45**: an element is recovered from its bytes. -/
theorem C45_from_as_ref (e : E) : Element.fromSlice (Element.toBytes e) = .ok e := by
  unfold Element.fromSlice
  rw [if_pos (LawfulElement.length_toBytes e), LawfulElement.decode_toBytes]

/-- **C45**: an element copied into a buffer is recovered from the buffer, whatever was there. -/
theorem C45_copy_then_from (e : E) {buf : Bytes} (h : buf.length = Element.byteLen E) :
    ∃ bs, Element.copyToSlice e buf = .ok bs ∧ bs.length = buf.length ∧ Element.fromSlice bs = .ok e :=
  ⟨Element.toBytes e, by rw [Element.copyToSlice, if_pos h], by rw [LawfulElement.length_toBytes, h],
    C45_from_as_ref e⟩

omit [LawfulElement E] in
/-- **C45**: `from_slice` and `copy_to_slice` panic on any other length. -/
theorem C45_wrong_length (e : E) {bs : Bytes} (h : bs.length ≠ Element.byteLen E) :
    (∃ m, Element.fromSlice (E := E) bs = .error (.panic m)) ∧
      ∃ m, Element.copyToSlice e bs = .error (.panic m) :=
  ⟨⟨_, by rw [Element.fromSlice, if_neg h]⟩, ⟨_, by rw [Element.copyToSlice, if_neg h]⟩⟩

end

/-- **C45** for `[u8; 32]`: the bytes are recovered from the element as well, so elements and byte
strings of length 32 are in bijection. -/
theorem C45_bytes32 (bs : Bytes) :
    (bs.length = 32 → ∃ e : Bytes32, Element.fromSlice bs = .ok e ∧ Element.toBytes e = bs ∧
      e.copyToSlice bs = .ok bs) ∧
    (bs.length ≠ 32 → (∃ m, Element.fromSlice (E := Bytes32) bs = .error (.panic m)) ∧
      ∀ e : Bytes32, ∃ m, e.copyToSlice bs = .error (.panic m)) := by
  constructor
  · intro h
    refine ⟨⟨bs, h⟩, ?_, rfl, ?_⟩
    · show Element.fromSlice (Element.toBytes (⟨bs, h⟩ : Bytes32)) = _
      exact C45_from_as_ref _
    · unfold Bytes32.copyToSlice
      rw [if_pos h]
  · intro h
    refine ⟨⟨_, by rw [Element.fromSlice, if_neg (show ¬ bs.length = Element.byteLen Bytes32 from h)]⟩,
      fun e => ⟨_, by rw [Bytes32.copyToSlice, if_neg h]⟩⟩

/-- The generic `copy_to_slice` of the model is that of `[u8; 32]`. -/
theorem C45_copy_bytes32 (e : Bytes32) (buf : Bytes) : Element.copyToSlice e buf = e.copyToSlice buf := rfl

example : ∃ e : Bytes32, Element.fromSlice (List.replicate 32 7) = .ok e :=
  ⟨⟨List.replicate 32 7, by decide⟩, by decide⟩
example : Element.fromSlice (E := Bytes32) (List.replicate 31 7)
    = .error (.panic "assertion failed: bytes.len() == byte_len") := by decide

end Verif
