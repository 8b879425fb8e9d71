import Verif.Model.Cached64
import Verif.Spec.Source
import Verif.Spec.MayFail
/-
Vocabulary for statements about building trees on 64-bit words.
-/
namespace Verif

/-- Run the constructor on words, with or without a configuration. -/
def Source.build64 {S E : Type} {A : Alg E} [Element E] [Store S E] [FloatRows] (o : Overflow) (b : Nat)
    (σ : Sched) : Source A → Option StoreConfig → M (BaseTree S E)
  | .new items, none => BaseTree.tryFromIter64 o A b σ (some items.length) (items.map .ok)
  | .new items, some c => BaseTree.tryFromIterWithConfig64 o A b σ (some items.length) (items.map .ok) c
  | .iter items, none => BaseTree.tryFromIter64 o A b σ (some items.length) (items.map .ok)
  | .iter items, some c => BaseTree.tryFromIterWithConfig64 o A b σ (some items.length) (items.map .ok) c
  | .par π items, none => BaseTree.fromParIter64 o A b σ π items
  | .par π items, some c => BaseTree.fromParIterWithConfig64 o A b σ π items c
  | .data ds, none =>
    BaseTree.tryFromIter64 o A b σ (some ds.length) ((BaseTree.dataItems A ds A.init).map .ok)
  | .data ds, some c =>
    BaseTree.tryFromIterWithConfig64 o A b σ (some ds.length) ((BaseTree.dataItems A ds A.init).map .ok) c
  | .bytes es, none => BaseTree.fromByteSlice64 o A b σ (encodeAll es)
  | .bytes es, some c => BaseTree.fromByteSliceWithConfig64 o A b σ (encodeAll es) c

/-- `x'` runs as `x`: the same files, and the same result, a store of type `S` being wrapped by `w`. -/
def M.RunsAs {α' α : Type} (w : α → α') (x' : M α') (x : M α) : Prop :=
  ∀ fs, x' fs = ((x fs).1.map w, (x fs).2)

/-- What `LevelCacheStore` needs in addition for `n` leaves of arity `b`: some full tree of that arity has at
least as many leaves, and less than 2^64, and the computation of the number of rows counts at least one. -/
structure CacheFits [FloatRows] (n b : Nat) : Prop where
  full : ∃ K, n ≤ b ^ K ∧ b ^ K < wordSize
  rows : ∀ m, b ≤ m → m < 2 ^ 63 → 1 ≤ merkleTreeRowCount m b

/-- Every base tree of the tree satisfies `P`. -/
def Tree1.AllBase {S E : Type} (P : BaseTree S E → Prop) : Tree1 S E → Prop
  | .base t => P t
  | .sub t => ∀ c ∈ t.children, P c

/-- Every base tree of the tree satisfies `P`. -/
def Tree2.AllBase {S E : Type} (P : BaseTree S E → Prop) : Tree2 S E → Prop
  | .base t => P t
  | .sub t => ∀ c ∈ t.children, P c
  | .top t => ∀ c ∈ t.children, c.AllBase P

/-- The sizes recorded in a tree are those of a full tree with `b ^ k` leaves.  Nothing is said about the nodes. -/
structure BaseTree.FullSizes {S E : Type} [Element E] [StoreOps S E] (b k : Nat) (t : BaseTree S E) : Prop where
  leafs : t.leafs = b ^ k
  rows : t.rowCount = k + 1
  len : t.length = Spec.nodes b k

/-- Every constructor of a compound tree that makes its own stores runs on words as it runs on natural numbers: from
slices of base trees, each of them shorter than 2^63 bytes by at least one element, with configurations or without,
and from configurations, with a layer of sub-trees or two.  `n` is the number of leaves of a base tree. -/
structure LayersRunAs {S' S : Type} (E : Type) [Element E] [FloatRows] [Store S' E] [Store S E] (o : Overflow)
    (w : S → S') (b n : Nat) : Prop where
  slices : ∀ (A : Alg E) (sub : Nat) (datas : List Bytes), 2 * (n * sub) < wordSize →
    (∀ d ∈ datas, d.length + Element.byteLen E ≤ 2 ^ 63) →
    M.RunsAs (Node.mapChildren (BaseTree.mapStore w)) (fromSlices64 o A b sub datas n) (fromSlices A b sub datas n)
  slicesWithConfigs : ∀ (A : Alg E) (sub : Nat) (datas : List Bytes) (cs : List StoreConfig),
    2 * (n * sub) < wordSize → (∀ d ∈ datas, d.length + Element.byteLen E ≤ 2 ^ 63) →
    M.RunsAs (Node.mapChildren (BaseTree.mapStore w)) (fromSlicesWithConfigs64 o A b sub datas n cs)
      (fromSlicesWithConfigs A b sub datas n cs)
  configs : ∀ (A : Alg E) (sub : Nat) (cs : List StoreConfig), 2 * (n * sub) < wordSize →
    M.RunsAs (Node.mapChildren (BaseTree.mapStore w)) (fromStoreConfigs64 o A b sub n cs)
      (fromStoreConfigs A b sub n cs)
  subConfigs : ∀ (A : Alg E) (sub top : Nat) (cs : List StoreConfig), 2 * (n * sub * top) + 1 < wordSize →
    M.RunsAs (Node.mapChildren (Tree1.mapStore w)) (fromSubTreeStoreConfigs64 o A b sub top n cs)
      (fromSubTreeStoreConfigs A b sub top n cs)

end Verif
