import Verif.Lemmas.Digest
import Verif.Props.Construct
/-
C42: leaf and interior hashes are domain separated (src/hash.rs:98-152).
C51: what a root says about the items below it, with the default hash methods.

`Alg.ofHasher σ init write hash` is an algorithm that supplies only `write` and `hash` and keeps all
default methods.
-/
namespace Verif
open Spec

section
variable {E : Type} [Element E] {σ : Type} (init : σ) (write : σ → Bytes → σ) (hash : σ → E × σ)

/-! ### C42 -/

/-- **C42**, any hasher: what `leaf` does is write the pieces of `leafInput e` in order and hash. -/
theorem C42_leaf_writes (e : E) :
    ∃ ws : List Bytes, ws.flatten = leafInput e ∧
      (Alg.ofHasher σ init write hash).leafHash e = (hash (ws.foldl write init)).1 :=
  ⟨[[leafPrefix], Element.toBytes e], by simp [leafInput], rfl⟩

/-- **C42**, any hasher: what `multi_node` does is write the pieces of `nodeInput ns` in order and
hash. -/
theorem C42_node_writes (ns : List E) (height : Nat) :
    ∃ ws : List Bytes, ws.flatten = nodeInput ns ∧
      (Alg.ofHasher σ init write hash).nodeHash ns height = (hash (ws.foldl write init)).1 := by
  refine ⟨[interiorPrefix] :: ns.map Element.toBytes, ?_, ?_⟩
  · simp [nodeInput, encodeAll, List.flatMap_def]
  · rw [List.foldl_cons, List.foldl_map]
    rfl

/-- **C42**: the default two-child `node` is `multi_node` of two children. -/
theorem C42_node_two (s : σ) (left right : E) (height : Nat) :
    (Alg.ofHasher σ init write hash).defaultNode s left right height
      = (Alg.ofHasher σ init write hash).multiNode s [left, right] height := rfl

/-- **C42**: with a streaming hasher the hash of a leaf is that of the byte string `leafInput e`. -/
theorem C42_leaf_digest {write : σ → Bytes → σ} (h : Streaming write) (e : E) :
    (Alg.ofHasher σ init write hash).leafHash e = digest init write hash (leafInput e) :=
  leafHash_ofHasher init hash h e

/-- **C42**: with a streaming hasher the hash of a node is that of the byte string `nodeInput ns`. -/
theorem C42_node_digest {write : σ → Bytes → σ} (h : Streaming write) (ns : List E) (height : Nat) :
    (Alg.ofHasher σ init write hash).nodeHash ns height = digest init write hash (nodeInput ns) :=
  nodeHash_ofHasher init hash h ns height

/-- **C42**: no byte string is hashed both for a leaf and for a node. -/
theorem C42_disjoint (e : E) (ns : List E) : leafInput e ≠ nodeInput ns := leafInput_ne_nodeInput e ns

/-- **C42**: the byte string hashed for a leaf determines the item. -/
theorem C42_leaf_injective [LawfulElement E] {x y : E} (h : leafInput x = leafInput y) : x = y :=
  leafInput_inj h

/-- **C42**: the byte string hashed for a node determines the children and their number. -/
theorem C42_node_injective [LawfulElement E] {xs ys : List E} (h : nodeInput xs = nodeInput ys) :
    xs = ys := nodeInput_inj h

/-- **C42**, in terms of hashes: a leaf and a node with the same hash are a collision of the byte
hash. -/
theorem C42_leaf_node_collision {write : σ → Bytes → σ} (h : Streaming write) {e : E} {ns : List E}
    {height : Nat}
    (he : (Alg.ofHasher σ init write hash).leafHash e
      = (Alg.ofHasher σ init write hash).nodeHash ns height) :
    leafInput e ≠ nodeInput ns ∧
      digest init write hash (leafInput e) = digest init write hash (nodeInput ns) :=
  ⟨C42_disjoint e ns, by rw [← leafHash_ofHasher init hash h, he, nodeHash_ofHasher init hash h]⟩

/-! ### C51 -/

variable [LawfulElement E] {init write hash}

/-- **C51**, on the layouts of two trees, of whatever arities and heights: if the roots are equal, then
arities and items are equal, or two different byte strings hashed in the two trees collide. -/
theorem C51_layout (hw : Streaming write) {b b' k k' : Nat} {xs ys : List E} {f g : Nat → E}
    (hb : 1 ≤ b) (hb' : 1 ≤ b') (hk : 1 ≤ k)
    (hf : IsLayout (Alg.ofHasher σ init write hash).nodeHash b k
      (xs.map (Alg.ofHasher σ init write hash).leafHash) f)
    (hg : IsLayout (Alg.ofHasher σ init write hash).nodeHash b' k'
      (ys.map (Alg.ofHasher σ init write hash).leafHash) g)
    (h : f (nodes b k - 1) = g (nodes b' k' - 1)) :
    (b = b' ∧ xs = ys) ∨
      ∃ x y, Hashed (digest init write hash) b k xs x ∧ Hashed (digest init write hash) b' k' ys y ∧
        x ≠ y ∧ digest init write hash x = digest init write hash y := by
  have eH : (Alg.ofHasher σ init write hash).nodeHash
      = fun ns _ => digest init write hash (nodeInput ns) :=
    funext fun ns => funext fun l => nodeHash_ofHasher init hash hw ns l
  have eL : ∀ zs : List E, (fun i => (zs.map (Alg.ofHasher σ init write hash).leafHash).getD i
      ((Alg.ofHasher σ init write hash).leafHash Element.default))
      = fun i => digest init write hash (leafInput (zs.getD i Element.default)) := by
    intro zs
    funext i
    rw [← leafHash_ofHasher init hash hw]
    simp only [List.getD_eq_getElem?_getD, List.getElem?_map]
    cases zs[i]? <;> rfl
  rw [hf.root_eq ((Alg.ofHasher σ init write hash).leafHash Element.default),
    hg.root_eq ((Alg.ofHasher σ init write hash).leafHash Element.default), eL, eL, eH] at h
  exact root_binds hb hb' hk (by simpa using hf.count) (by simpa using hg.count) h

section
variable [FloatRows] {S S' : Type} [Store S E] [RejectingStore S E] [NoArityOne S E]
  [Store S' E] [RejectingStore S' E] [NoArityOne S' E]

/-- **C51** for trees built from items or data by whatever constructors, in stores of whatever kinds that
keep all nodes: trees with the same root have the same arity and were built from the same items, or
two different byte strings hashed in the two trees collide. -/
theorem C51_built (hw : Streaming write) {b b' : Nat} {sch sch' : Sched} (hσ : sch.Valid)
    (hσ' : sch'.Valid) {src src' : Source (Alg.ofHasher σ init write hash)} (hs : src.Valid)
    (hs' : src'.Valid) (hf : FloatRows.FloorAt b src.leaves.length)
    (hf' : FloatRows.FloorAt b' src'.leaves.length) {cfg cfg' : Option StoreConfig}
    {fs fs1 fs' fs1' : FS} {t : BaseTree S E} {t' : BaseTree S' E}
    (hc : ∀ c ∈ cfg, fs.file c.file = none) (hc' : ∀ c ∈ cfg', fs'.file c.file = none)
    (h : src.build b sch cfg fs = (.ok t, fs1)) (h' : src'.build b' sch' cfg' fs' = (.ok t', fs1'))
    {xs ys : List E} (hx : src.items = some xs) (hy : src'.items = some ys) (hr : t.root = t'.root) :
    (b = b' ∧ xs = ys) ∨
      ∃ k k' x y, Hashed (digest init write hash) b k xs x ∧ Hashed (digest init write hash) b' k' ys y ∧
        x ≠ y ∧ digest init write hash x = digest init write hash y := by
  have hA : (Alg.ofHasher σ init write hash).LawfulReset := fun _ => rfl
  obtain ⟨hb, _, k, d, hk, _, hn, hm, _⟩ := Source.build_sound hA hσ hs hf hc h
  obtain ⟨hb', _, k', d', hk', _, hn', hm', _⟩ := Source.build_sound hA hσ' hs' hf' hc' h'
  obtain ⟨f, g1, _, g2⟩ := (hm.isTreeOf hn).nodes
  obtain ⟨f', g1', _, g2'⟩ := (hm'.isTreeOf hn').nodes
  rw [Source.leaves_of_items hx] at g1
  rw [Source.leaves_of_items hy] at g1'
  rcases C51_layout hw (by have := hb.two_le; omega) (by have := hb'.two_le; omega) hk g1 g1'
    (by rw [← g2, ← g2', hr]) with r | ⟨x, y, r⟩
  · exact Or.inl r
  · exact Or.inr ⟨k, k', x, y, r⟩

end

/-- **C51** for `LevelCacheStore`, against a tree in any store that keeps all nodes. -/
theorem C51_level_cache [FloatRows] {S : Type} [StoreOps S E] (hw : Streaming write) {b b' k k' : Nat}
    (hb : 1 ≤ b) (hb' : 1 ≤ b') (hk : 1 ≤ k) {xs ys : List E} {c : StoreConfig} {fs fs' : FS}
    {t : BaseTree (LevelCacheStore E) E} {t' : BaseTree S E}
    (h : t.IsCacheOf (Alg.ofHasher σ init write hash) b k
      (xs.map (Alg.ofHasher σ init write hash).leafHash) c fs)
    (h' : t'.IsTreeOf (Alg.ofHasher σ init write hash) b' k'
      (ys.map (Alg.ofHasher σ init write hash).leafHash) fs') (hr : t.root = t'.root) :
    (b = b' ∧ xs = ys) ∨
      ∃ x y, Hashed (digest init write hash) b k xs x ∧ Hashed (digest init write hash) b' k' ys y ∧
        x ≠ y ∧ digest init write hash x = digest init write hash y := by
  obtain ⟨f, g1, g2, _⟩ := h.nodes
  obtain ⟨f', g1', _, g2'⟩ := h'.nodes
  exact C51_layout hw hb hb' hk g1 g1' (by rw [← g2, ← g2', hr])

end

/-! ### C51 fails for `from_byte_slice` -/

section
variable {E : Type} [Element E] [LawfulElement E] [FloatRows] {A : Alg E}

/-- The nodes of row 1 above the given leaves. -/
def rowAbove (A : Alg E) (b : Nat) (leaves : List E) : List E :=
  (List.range (leaves.length / b)).map fun j =>
    A.nodeHash ((List.range b).map fun c => leaves.getD (b * j + c) Element.default) 0

/-- Beside C51: `from_byte_slice` does not hash its input, so the items do not bind.  With any
algorithm that ignores heights, as the default one does, the bytes of row 1 of a tree give a tree of
one row less with the same root, and no collision is needed for that. -/
theorem C51_byte_slice_refuted {S : Type} [Store S E] [RejectingStore S E] [NoArityOne S E]
    (hA : A.LawfulReset) (hh : A.IgnoresHeight) {b k : Nat} (hb : Arity b) (hb' : b ≤ buildChunkNodes)
    (hk : 1 ≤ k) (he : FloatRows.ExactAt b k) (he' : FloatRows.ExactAt b (k + 1)) {σ : Sched}
    (hσ : σ.Valid) {leaves : List E} (hn : leaves.length = b ^ (k + 1)) (fs : FS) :
    ∃ (t : BaseTree S E) (fs1 : FS) (t' : BaseTree S E) (fs2 : FS),
      BaseTree.fromByteSlice A b σ (encodeAll leaves) fs = (.ok t, fs1) ∧
      BaseTree.fromByteSlice A b σ (encodeAll (rowAbove A b leaves)) fs1 = (.ok t', fs2) ∧
      t.root = t'.root ∧ t.rowCount = k + 2 ∧ t'.rowCount = k + 1 := by
  have h2 := hb.two_le
  have hl : (rowAbove A b leaves).length = b ^ k := by
    rw [rowAbove, List.length_map, List.length_range, hn, Nat.pow_succ,
      Nat.mul_div_cancel _ (show 0 < b by omega)]
  obtain ⟨t, fs1, d, a1, a2, _⟩ := Source.build_ok (S := S) (fs := fs) hA hb hb' (k := k + 1) (by omega)
    he' hσ (.bytes leaves) trivial hn none (by simp)
  obtain ⟨t', fs2, d', b1, b2, _⟩ := Source.build_ok (S := S) (fs := fs1) hA hb hb' hk he hσ
    (.bytes (rowAbove A b leaves)) trivial hl none (by simp)
  refine ⟨t, fs1, t', fs2, a1, b1, ?_, a2.rows, b2.rows⟩
  rw [a2.root, b2.root]
  unfold root
  rw [← node_above hh]
  apply node_congr_leaves
  intro i hi
  have hi' : i < (rowAbove A b leaves).length := by rw [hl]; exact hi
  show node A.nodeHash b (fun i => leaves.getD i d) 1 (b ^ k * 0 + i)
    = (rowAbove A b leaves).getD (b ^ k * 0 + i) d'
  rw [Nat.mul_zero, Nat.zero_add, getD_of_lt hi']
  simp only [rowAbove, List.getElem_map, List.getElem_range, node]
  congr 1
  apply List.map_congr_left
  intro c hc
  have hc := List.mem_range.1 hc
  have hlt : b * i + c < leaves.length := by
    rw [hn, Nat.pow_succ, Nat.mul_comm _ b]
    calc b * i + c < b * (i + 1) := by rw [Nat.mul_succ]; omega
      _ ≤ b * b ^ k := Nat.mul_le_mul_left _ hi
  rw [getD_of_lt hlt, getD_of_lt hlt]

end

/-! Concrete instances, with the toy hash over one byte. -/
section
attribute [local instance] idealRows

-- the toy hasher is a streaming hasher
example : Streaming (fun (s : UInt8) (bs : Bytes) => bs.foldl (fun s x => 31 * s + x) s) :=
  ⟨fun _ _ _ => (List.foldl_append ..).symm, fun _ => rfl⟩
example : leafInput (5 : UInt8) = [0, 5] ∧ nodeInput [(5 : UInt8), 6] = [1, 5, 6] := by decide
example : toyAlg.leafHash 5 = 76 ∧ toyAlg.nodeHash [5, 6] 3 = 251 := by decide
-- one byte of hash collides soon: both alternatives of C51 occur
example : (BaseTree.new (S := VecStore UInt8) toyAlg 2 Sched.sequential [1, 2] FS.empty).1.map (·.root)
    = (BaseTree.new (S := VecStore UInt8) toyAlg 2 Sched.sequential [0, 33] FS.empty).1.map (·.root) := by
  decide +kernel
-- the tree over four leaves and the tree over its row 1
example : rowAbove toyAlg 2 [1, 2, 3, 4] = [123, 187] := by decide
example : (BaseTree.fromByteSlice (S := VecStore UInt8) toyAlg 2 Sched.sequential [1, 2, 3, 4]
      FS.empty).1.map (·.root)
    = (BaseTree.fromByteSlice (S := VecStore UInt8) toyAlg 2 Sched.sequential
      (rowAbove toyAlg 2 [1, 2, 3, 4]) FS.empty).1.map (·.root) := by
  decide +kernel

end
end Verif
