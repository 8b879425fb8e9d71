import Verif.Lemmas.DataTree
import Verif.Props.Digest
import Verif.Props.RootBinding
import Verif.Props.ProofInTree
/-
C92: what the root of a tree over data says about the data (`from_data`, `from_data_with_config`,
`validate_with_data`; the `Hashable` instances of src/hash_impl.rs).
-/
namespace Verif
open Spec

section
variable [Target] {E : Type} [Element E] {σ : Type} {init : σ} {write : σ → Bytes → σ} {hash : σ → E × σ}

/-- **C92**, the leaves: leaf `i` of a tree over data is the leaf hash of the hash of the encoding of value `i`. -/
theorem C92_leaves (hw : Streaming write) {T : Type} [HashIn (Alg.ofHasher σ init write hash).hasher T] [Enc T]
    [EncodesIn (Alg.ofHasher σ init write hash).hasher T] (ds : List T) :
    (Source.data (ds.map (hashOf (Alg.ofHasher σ init write hash)))).leaves =
      (ds.map fun d => digest init write hash (Enc.enc d)).map (Alg.ofHasher σ init write hash).leafHash := by
  show (ds.map _).map _ = _
  rw [List.map_map, List.map_map]
  refine List.map_congr_left fun d _ => ?_
  show (Alg.ofHasher σ init write hash).leafHash (hash (hashOf (Alg.ofHasher σ init write hash) d init)).1 = _
  rw [hashOf_eq hw]
  rfl

/-- **C92**: two trees over data, base trees or compound ones, of whatever types, arities, sizes and stores, that have
the same root have the same arities row for row and the same encodings of the data one by one, or two different byte
strings hashed for them collide. -/
theorem C92_binding [LawfulElement E] (hw : Streaming write) {T U : Type}
    [HashIn (Alg.ofHasher σ init write hash).hasher T] [Enc T] [EncodesIn (Alg.ofHasher σ init write hash).hasher T]
    [HashIn (Alg.ofHasher σ init write hash).hasher U] [Enc U] [EncodesIn (Alg.ofHasher σ init write hash).hasher U]
    {ds : List T} {es : List U} {shape shape' : List Nat} {r : E}
    (h : TreeRoot (Alg.ofHasher σ init write hash) shape
      (Source.data (ds.map (hashOf (Alg.ofHasher σ init write hash)))).leaves r)
    (h' : TreeRoot (Alg.ofHasher σ init write hash) shape'
      (Source.data (es.map (hashOf (Alg.ofHasher σ init write hash)))).leaves r) :
    (shape = shape' ∧ ds.map Enc.enc = es.map Enc.enc) ∨
      ∃ x y, (ShapeHashed (digest init write hash) shape
            (ds.map fun d => digest init write hash (Enc.enc d)) x ∨ x ∈ ds.map Enc.enc) ∧
        (ShapeHashed (digest init write hash) shape'
            (es.map fun d => digest init write hash (Enc.enc d)) y ∨ y ∈ es.map Enc.enc) ∧
        x ≠ y ∧ digest init write hash x = digest init write hash y := by
  rw [C92_leaves hw] at h h'
  rcases C59_binding hw h h' with ⟨e1, e2⟩ | ⟨x, y, h1, h2, h3, h4⟩
  · rcases enc_or_collision e2 with he | ⟨x, y, h1, h2, h3⟩
    · exact .inl ⟨e1, he⟩
    · exact .inr ⟨x, y, .inr h1, .inr h2, h3⟩
  · exact .inr ⟨x, y, .inl h1, .inl h2, h3, h4⟩

/-- **C92** for two calls of `from_data` or `from_data_with_config`, on any two stores. -/
theorem C92_built [LawfulElement E] [FloatRows] (hw : Streaming write) {S S' : Type} [Store S E] [RejectingStore S E]
    [NoArityOne S E] [Store S' E] [RejectingStore S' E] [NoArityOne S' E] {T U : Type}
    [HashIn (Alg.ofHasher σ init write hash).hasher T] [Enc T] [EncodesIn (Alg.ofHasher σ init write hash).hasher T]
    [HashIn (Alg.ofHasher σ init write hash).hasher U] [Enc U] [EncodesIn (Alg.ofHasher σ init write hash).hasher U]
    {ds : List T} {es : List U} {b b' : Nat} {sch sch' : Sched} (hσ : sch.Valid) (hσ' : sch'.Valid)
    (hf : FloatRows.FloorAt b ds.length) (hf' : FloatRows.FloorAt b' es.length) {cfg cfg' : Option StoreConfig}
    {fs fs1 fs' fs1' : FS} {t : BaseTree S E} {t' : BaseTree S' E}
    (hc : ∀ c ∈ cfg, fs.file c.file = none) (hc' : ∀ c ∈ cfg', fs'.file c.file = none)
    (h : (Source.data (ds.map (hashOf (Alg.ofHasher σ init write hash)))).build b sch cfg fs = (.ok t, fs1))
    (h' : (Source.data (es.map (hashOf (Alg.ofHasher σ init write hash)))).build b' sch' cfg' fs' = (.ok t', fs1'))
    (hr : t.root = t'.root) :
    (b = b' ∧ ds.map Enc.enc = es.map Enc.enc) ∨
      ∃ k k' x y, (Hashed (digest init write hash) b k (ds.map fun d => digest init write hash (Enc.enc d)) x ∨
          x ∈ ds.map Enc.enc) ∧
        (Hashed (digest init write hash) b' k' (es.map fun d => digest init write hash (Enc.enc d)) y ∨
          y ∈ es.map Enc.enc) ∧
        x ≠ y ∧ digest init write hash x = digest init write hash y := by
  have hi : ∀ (V : Type) [HashIn (Alg.ofHasher σ init write hash).hasher V] [Enc V]
      [EncodesIn (Alg.ofHasher σ init write hash).hasher V] (vs : List V),
      (Source.data (vs.map (hashOf (Alg.ofHasher σ init write hash)))).items =
        some (vs.map fun d => digest init write hash (Enc.enc d)) := by
    intro V _ _ _ vs
    show some ((vs.map _).map _) = _
    rw [List.map_map]
    refine congrArg some (List.map_congr_left fun d _ => ?_)
    show (hash (hashOf (Alg.ofHasher σ init write hash) d init)).1 = _
    rw [hashOf_eq hw]
    rfl
  rcases C51_built hw hσ hσ' (src := .data (ds.map (hashOf (Alg.ofHasher σ init write hash))))
      (src' := .data (es.map (hashOf (Alg.ofHasher σ init write hash)))) trivial trivial
      (by simpa [Source.leaves] using hf) (by simpa [Source.leaves] using hf') hc hc' h h' (hi T ds) (hi U es) hr with
    ⟨e1, e2⟩ | ⟨k, k', x, y, h1, h2, h3⟩
  · rcases enc_or_collision e2 with he | ⟨x, y, h1, h2, h3⟩
    · exact .inl ⟨e1, he⟩
    · exact .inr ⟨0, 0, x, y, .inr h1, .inr h2, h3⟩
  · exact .inr ⟨k, k', x, y, .inl h1, .inl h2, h3⟩

/-- **C92** for `validate_with_data`: if a base proof with the root of a tree over data validates with the value `x`,
then the value the path leads to has the encoding of `x`, or two different byte strings collide. -/
theorem C92_with_data [LawfulElement E] [DecidableEq E] (hw : Streaming write) {T U : Type}
    [HashIn (Alg.ofHasher σ init write hash).hasher T] [Enc T] [EncodesIn (Alg.ofHasher σ init write hash).hasher T]
    [HashIn (Alg.ofHasher σ init write hash).hasher U] [Enc U] [EncodesIn (Alg.ofHasher σ init write hash).hasher U]
    {ds : List T} {x : U} {shape : List Nat} {r : E} {b : Nat}
    (ht : TreeRoot (Alg.ofHasher σ init write hash) shape
      (Source.data (ds.map (hashOf (Alg.ofHasher σ init write hash)))).leaves r)
    {top subn : Nat} {l : List E} {path : List Nat} (hp : Obtainable b (.base top subn l path))
    (hv : Proof.validateWithData (Alg.ofHasher σ init write hash) b (.base top subn l path)
      (hashOf (Alg.ofHasher σ init write hash) x) = .ok true)
    (hr : (Proof.base top subn l path).root = .ok r) :
    (∃ d, ds[position shape path.reverse]? = some d ∧ (Enc.enc d : Bytes) = Enc.enc x) ∨
      ∃ u v, (ShapeHashed (digest init write hash) shape
            (ds.map fun d => digest init write hash (Enc.enc d)) u ∨ u ∈ ds.map Enc.enc) ∧
        (v = Enc.enc x ∨ v = leafInput (digest init write hash (Enc.enc x)) ∨
          ∃ z h, (z, h) ∈ baseTranscript (Alg.ofHasher σ init write hash).nodeHash b l path ∧ v = nodeInput z) ∧
        u ≠ v ∧ digest init write hash u = digest init write hash v := by
  rw [C92_leaves hw] at ht
  rcases C69_data hw ht hp hv hr with ⟨-, h2⟩ | ⟨u, v, h1, h2, h3, h4⟩
  · rw [List.getElem?_map, Option.map_eq_some_iff] at h2
    obtain ⟨d, hd, h3⟩ := h2
    rw [hashOf_eq hw] at h3
    by_cases he : (Enc.enc d : Bytes) = Enc.enc x
    · exact .inl ⟨d, hd, he⟩
    · exact .inr ⟨_, _, .inr (List.mem_map.2 ⟨d, List.mem_of_getElem? hd, rfl⟩), .inl rfl, he, h3⟩
  · rw [hashOf_eq hw] at h2
    exact .inr ⟨u, v, .inl h1, .inr h2, h3, h4⟩

/-- **C92**, the types whose encoding determines the value: integers, byte arrays, byte vectors, booleans, characters,
strings, and references to such. -/
theorem C92_injective :
    (∀ t : IntTy, Function.Injective (Enc.enc (T := IntVal t))) ∧
    (∀ n, Function.Injective (Enc.enc (T := ByteArr n))) ∧ Function.Injective (Enc.enc (T := VecU8)) ∧
    Function.Injective (Enc.enc (T := Bool)) ∧ Function.Injective (Enc.enc (T := Char)) ∧
    Function.Injective (Enc.enc (T := String)) ∧
    ∀ (T : Type) [Enc T], Function.Injective (Enc.enc (T := T)) → Function.Injective (Enc.enc (T := Ref T)) := by
  refine ⟨fun t x y h => IntVal.neBytes_inj h, fun n => ?_, ?_, ?_, ?_, ?_, fun T _ hT => ?_⟩
  · rintro ⟨x, hx⟩ ⟨y, hy⟩ (rfl : x = y)
    rfl
  · rintro ⟨x⟩ ⟨y⟩ (rfl : x = y)
    rfl
  · intro x y h
    cases x <;> cases y <;> first | rfl | exact absurd h (by decide)
  · intro x y h
    have h' : leBytes 4 x.toNat = leBytes 4 y.toNat := by
      change (if Target.bigEndian then (leBytes 4 x.toNat).reverse else leBytes 4 x.toNat) =
        if Target.bigEndian then (leBytes 4 y.toNat).reverse else leBytes 4 y.toNat at h
      split at h
      · exact List.reverse_inj.1 h
      · exact h
    exact Char.toNat_inj.1 (leBytes_inj 4 _ _ (x.val.toNat_lt) (y.val.toNat_lt) h')
  · exact fun x y h => String.toByteArray_inj.1 (ByteArray.ext (Array.toList_inj.1 h))
  · rintro ⟨x⟩ ⟨y⟩ h
    exact congrArg Ref.mk (hT h)

/-- **C92**, the converse: data with the same encodings one by one are the same to `from_data`, whatever their types. -/
theorem C92_same (hw : Streaming write) {T U : Type}
    [HashIn (Alg.ofHasher σ init write hash).hasher T] [Enc T] [EncodesIn (Alg.ofHasher σ init write hash).hasher T]
    [HashIn (Alg.ofHasher σ init write hash).hasher U] [Enc U] [EncodesIn (Alg.ofHasher σ init write hash).hasher U]
    {ds : List T} {es : List U} (h : ds.map Enc.enc = es.map Enc.enc) :
    ds.map (hashOf (Alg.ofHasher σ init write hash)) = es.map (hashOf (Alg.ofHasher σ init write hash)) := by
  have e : ∀ (V : Type) [HashIn (Alg.ofHasher σ init write hash).hasher V] [Enc V]
      [EncodesIn (Alg.ofHasher σ init write hash).hasher V] (vs : List V),
      vs.map (hashOf (Alg.ofHasher σ init write hash)) = (vs.map Enc.enc).map fun bs s => write s bs := by
    intro V _ _ _ vs
    rw [List.map_map]
    exact List.map_congr_left fun v _ => funext fun s => hashOf_eq hw v s
  rw [e T, e U, h]

/-- **C92**, tuples and slices whose encoding determines the value: pairs whose first component has encodings of one
length, and slices of values with encodings of one length that is not zero (so tuples and slices of integers, of byte
arrays, of booleans and of characters). -/
theorem C92_fixed_length {T U : Type} [Enc T] [Enc U] {n : Nat} (hT : Function.Injective (Enc.enc (T := T)))
    (hn : ∀ x : T, (Enc.enc x).length = n) :
    (Function.Injective (Enc.enc (T := U)) → Function.Injective (Enc.enc (T := T × U))) ∧
    (0 < n → Function.Injective (Enc.enc (T := Slice T))) := by
  refine ⟨fun hU => ?_, fun h0 => ?_⟩
  · rintro ⟨x, u⟩ ⟨y, v⟩ h
    obtain ⟨h1, h2⟩ := List.append_inj (show Enc.enc x ++ Enc.enc u = Enc.enc y ++ Enc.enc v from h)
      ((hn x).trans (hn y).symm)
    exact Prod.ext (hT h1) (hU h2)
  · rintro ⟨xs⟩ ⟨ys⟩ h
    refine congrArg Slice.mk ?_
    change xs.flatMap Enc.enc = ys.flatMap Enc.enc at h
    induction xs generalizing ys with
    | nil =>
      cases ys with
      | nil => rfl
      | cons y ys =>
        have := congrArg List.length h
        simp [hn] at this
        omega
    | cons x xs ih =>
      cases ys with
      | nil =>
        have := congrArg List.length h
        simp [hn] at this
        omega
      | cons y ys =>
        rw [List.flatMap_cons, List.flatMap_cons] at h
        obtain ⟨h1, h2⟩ := List.append_inj h ((hn x).trans (hn y).symm)
        rw [hT h1, ih ys h2]

/-- **C92**: the lengths of the encodings of integers, byte arrays, booleans and characters do not depend on the value. -/
theorem C92_lengths :
    (∀ (t : IntTy) (x : IntVal t), (Enc.enc x).length = t.size) ∧ (∀ n (x : ByteArr n), (Enc.enc x).length = n) ∧
    (∀ x : Bool, (Enc.enc x).length = 1) ∧ ∀ x : Char, (Enc.enc x).length = 4 := by
  refine ⟨fun t x => IntVal.length_neBytes x, fun n x => x.2, fun x => rfl, fun x => ?_⟩
  show (if Target.bigEndian then (leBytes 4 x.toNat).reverse else leBytes 4 x.toNat).length = 4
  split
  · rw [List.length_reverse, length_leBytes]
  · rw [length_leBytes]

/-- **C92** fails for slices of strings: the slices `["a", "bc"]`, `["ab", "c"]` and `["", "abc"]` are the same to
`from_data`, and so are any two ways to cut one text. -/
theorem C92_slices_refuted (hw : Streaming write) :
    (∀ xs ys : List String, String.join xs = String.join ys →
      hashOf (Alg.ofHasher σ init write hash) (Slice.mk xs) = hashOf (Alg.ofHasher σ init write hash) (Slice.mk ys)) ∧
    ["a", "bc"] ≠ ["ab", "c"] ∧ String.join ["a", "bc"] = String.join ["ab", "c"] := by
  refine ⟨fun xs ys h => ?_, by decide, by decide⟩
  have e : ∀ zs : List String, zs.flatMap strBytes = strBytes (String.join zs) := by
    intro zs
    induction zs with
    | nil => rfl
    | cons z zs ih =>
      rw [List.flatMap_cons, ih]
      simp [strBytes]
  funext s
  refine (hashOf_eq hw (Slice.mk xs) s).trans (Eq.trans ?_ (hashOf_eq hw (Slice.mk ys) s).symm)
  show write s (xs.flatMap strBytes) = write s (ys.flatMap strBytes)
  rw [e, e, h]

/-- **C92** fails for tuples of strings: a tree over `("a", "bc")` and others is also the tree over
`("ab", "c")` and the others, and a proof for the one validates with the other. -/
theorem C92_tuples_refuted (hw : Streaming write) (rest : List (String × String × Unit)) :
    (("a", "bc", ()) : String × String × Unit) ≠ ("ab", "c", ()) ∧
    (("a", "bc", ()) :: rest).map (hashOf (Alg.ofHasher σ init write hash)) =
      (("ab", "c", ()) :: rest).map (hashOf (Alg.ofHasher σ init write hash)) ∧
    ∀ [DecidableEq E] (b : Nat) (p : Proof E),
      p.validateWithData (Alg.ofHasher σ init write hash) b (hashOf (Alg.ofHasher σ init write hash) ("a", "bc", ())) =
      p.validateWithData (Alg.ofHasher σ init write hash) b
        (hashOf (Alg.ofHasher σ init write hash) ("ab", "c", ())) := by
  have he : Enc.enc (("a", "bc", ()) : String × String × Unit) = Enc.enc (("ab", "c", ()) : String × String × Unit) := by
    decide +kernel
  have h1 := C92_same hw (init := init) (hash := hash) (ds := [(("a", "bc", ()) : String × String × Unit)])
    (es := [(("ab", "c", ()) : String × String × Unit)]) (by rw [List.map_cons, List.map_cons, he])
  rw [List.map_cons, List.map_cons, List.cons.injEq] at h1
  refine ⟨by decide, by rw [List.map_cons, List.map_cons, h1.1], fun b p => by rw [h1.1]⟩

/-- **C92** fails for every pair of strings of which one can be cut further left or right. -/
theorem C92_tuples_every_refuted (hw : Streaming write) (x y z : String) (hy : y ≠ "") :
    ((x ++ y, z, ()) : String × String × Unit) ≠ (x, y ++ z, ()) ∧
    hashOf (Alg.ofHasher σ init write hash) ((x ++ y, z, ()) : String × String × Unit) =
      hashOf (Alg.ofHasher σ init write hash) ((x, y ++ z, ()) : String × String × Unit) := by
  refine ⟨fun h => hy ?_, ?_⟩
  · have : (x ++ y).length = x.length := congrArg String.length (congrArg Prod.fst h)
    rw [String.length_append] at this
    exact String.length_eq_zero_iff.1 (by omega)
  · funext s
    refine (hashOf_eq hw _ s).trans (Eq.trans ?_ (hashOf_eq hw _ s).symm)
    show write s (strBytes (x ++ y) ++ (strBytes z ++ [])) = write s (strBytes x ++ (strBytes (y ++ z) ++ []))
    simp [strBytes]

end

/-! ### The hypotheses can be met -/

section examples
local instance littleEndian : Target := ⟨8, false⟩
local instance : FloatRows := idealRows

example : Streaming (fun (s : UInt8) (bs : Bytes) => bs.foldl (fun s x => 31 * s + x) s) :=
  ⟨fun _ _ _ => List.foldl_append.symm, fun _ => rfl⟩
-- a tree over four strings, and a proof that validates with the third of them and not with the fourth
example : ∃ (t : BaseTree (VecStore UInt8) UInt8) (p : Proof UInt8),
    (BaseTree.fromData (S := VecStore UInt8) toyAlg 2 Sched.sequential (["a", "b", "cd", "e"].map (hashOf toyAlg))
      FS.empty).1 = .ok t ∧ t.genProof 2 0 0 FS.empty 2 = .ok p ∧
    p.validateWithData toyAlg 2 (hashOf toyAlg "cd") = .ok true ∧
    p.validateWithData toyAlg 2 (hashOf toyAlg "e") = .ok false :=
  ⟨_, _, rfl, rfl, by decide +kernel, by decide +kernel⟩
-- an integer and the array of its bytes are the same to `from_data`
example : Enc.enc (⟨0x0102⟩ : IntVal .u16) = Enc.enc (⟨[2, 1], rfl⟩ : ByteArr 2) := by decide +kernel

end examples
end Verif
