import Verif.Model.Element
/-
Hash algorithms: `trait Algorithm` (src/hash.rs:114-153) and `trait Hashable` (src/hash.rs:79-96).
-/
namespace Verif

/-- `trait Algorithm<T>: Hasher + Default` (src/hash.rs:114-153) as an explicit state machine.
Every method takes the hasher state and returns the new one.  `node` (136-142) is not used by the
library outside tests and is omitted here (see `Alg.ofHasher` for its default). -/
structure Alg (E : Type) where
  /-- the hasher's state -/
  σ : Type
  /-- `Default::default()` -/
  init : σ
  /-- `Hasher::write` -/
  write : σ → Bytes → σ
  /-- `hash(&mut self) -> T` (119) -/
  hash : σ → E × σ
  /-- `reset(&mut self)` (123) -/
  reset : σ → σ
  /-- `leaf(&mut self, leaf: T) -> T` (129) -/
  leaf : σ → E → E × σ
  /-- `multi_node(&mut self, nodes: &[T], height: usize) -> T` (146) -/
  multiNode : σ → List E → Nat → E × σ

/-- The default `reset` puts the hasher back in its initial state (src/hash.rs:123-125); an
implementation that overrides it must do the same. -/
def Alg.LawfulReset {E : Type} (A : Alg E) : Prop := ∀ s, A.reset s = A.init

/-- Hash of a node computed with a fresh hasher: `A::default().multi_node(nodes, height)`. -/
def Alg.nodeHash {E : Type} (A : Alg E) (ns : List E) (height : Nat) : E :=
  (A.multiNode A.init ns height).1

/-- Hash of a leaf computed with a fresh hasher: `A::default().leaf(item)`. -/
def Alg.leafHash {E : Type} (A : Alg E) (e : E) : E := (A.leaf A.init e).1

/-- The algorithm ignores the height argument (as the default `multi_node` does). -/
def Alg.IgnoresHeight {E : Type} (A : Alg E) : Prop :=
  ∀ ns h h', A.nodeHash ns h = A.nodeHash ns h'

/-- `LEAF` (src/hash.rs:99). -/
def leafPrefix : UInt8 := 0x00
/-- `INTERIOR` (src/hash.rs:102). -/
def interiorPrefix : UInt8 := 0x01

/-- The algorithm obtained from a `Hasher` with only `write` and `hash` supplied, i.e. with all the
default methods of `trait Algorithm` (src/hash.rs:122-152). -/
def Alg.ofHasher {E : Type} [Element E] (σ : Type) (init : σ) (write : σ → Bytes → σ)
    (hash : σ → E × σ) : Alg E where
  σ := σ
  init := init
  write := write
  hash := hash
  reset _ := init
  leaf s e := hash (write (write s [leafPrefix]) (Element.toBytes e))
  multiNode s ns _ :=
    hash (ns.foldl (fun s n => write s (Element.toBytes n)) (write s [interiorPrefix]))

/-- Default `node` (src/hash.rs:137-142). -/
def Alg.defaultNode {E : Type} [Element E] (A : Alg E) (s : A.σ) (left right : E) (_height : Nat) :
    E × A.σ :=
  A.hash (A.write (A.write (A.write s [interiorPrefix]) (Element.toBytes left))
    (Element.toBytes right))

/-- A value implementing `Hashable<A>` (src/hash.rs:79-96), reduced to what `hash` does to the
hasher's state. -/
abbrev HashableVal {E : Type} (A : Alg E) := A.σ → A.σ

end Verif
