import Verif.Lemmas.HasherState
import Verif.Props.Construct
/-
C43: hasher state never leaks between leaves or nodes (src/hash.rs:121-125, src/merkle.rs:349-374,
2013-2087, src/proof.rs:97-210).

`A.fresh` is the algorithm `A` with every leaf and node hash computed by a hasher in its initial
state, whatever was hashed before with it.  The code reuses one hasher and resets it in between; the
theorems say that this makes no difference.
-/
namespace Verif
open Spec

section
variable {E : Type} {A : Alg E}

/-- **C43**: the default `reset` is lawful, whatever the hasher. -/
theorem C43_default_reset [Element E] (σ : Type) (init : σ) (write : σ → Bytes → σ) (hash : σ → E × σ) :
    (Alg.ofHasher σ init write hash).LawfulReset := fun _ => rfl

/-- **C43**: a hash computed after `reset` is the hash of a fresh hasher, whatever the state before. -/
theorem C43_after_reset (hA : A.LawfulReset) (a : A.σ) (e : E) (ns : List E) (height : Nat) :
    (A.leaf (A.reset a) e).1 = A.leafHash e ∧ (A.multiNode (A.reset a) ns height).1 = A.nodeHash ns height :=
  by rw [hA]; exact ⟨rfl, rfl⟩

section populate
variable [Element E] {S : Type} [StoreOps S E]

/-- **C43** for `populate_data` on any store, without assumptions about the store or the items. -/
theorem C43_populate (hA : A.LawfulReset) (s : S) (items : List (Res E)) :
    populateData A s items = populateData A.fresh s items := by
  unfold populateData
  rw [populateLoop_fresh hA items A.init A.fresh.init [] s]

/-- **C43** for a task of `populate_data_par`: it writes the hashes fresh hashers would give. -/
theorem C43_populate_par_task (hA : A.LawfulReset) (es : List E) (a : A.σ) :
    leafChunkBytes A es a = encodeAll (es.map A.leafHash) := leafChunkBytes_fresh hA es a

/-- **C43** for `populate_data_par` on any store, in any order of its tasks. -/
theorem C43_populate_par (hA : A.LawfulReset) (π : ParOrder) (s : S) (items : List E) :
    populateDataPar A π s items = populateDataPar A.fresh π s items := by
  have hF : A.fresh.LawfulReset := hA
  have key : ∀ (cs : List (List E)) (ts : List Nat) (s : S),
      populateTasks A cs ts s = populateTasks A.fresh cs ts s := by
    intro cs ts
    induction ts with
    | nil => intro s; rfl
    | cons t ts ih =>
      intro s
      rw [populateTasks, populateTasks, leafChunkBytes_fresh hA, leafChunkBytes_fresh hF]
      congr 1
      funext s'
      exact ih s'
  unfold populateDataPar
  dsimp only
  rw [key]

end populate

/-- **C43** for `from_data`: each datum is hashed as if the hasher were fresh. -/
theorem C43_data [Element E] (hA : A.LawfulReset) : ∀ (ds : List (HashableVal A)) (a : A.σ),
    BaseTree.dataItems A ds a = ds.map fun d => (A.hash (d A.init)).1
  | [], _ => rfl
  | d :: ds, a => by
    rw [BaseTree.dataItems, List.map_cons, ← C43_data hA ds (A.hash (d (A.reset a))).2, hA]

section proofs
variable [DecidableEq E]

/-- **C43** for `Proof::validate`, of base and compound proofs, honest or not. -/
theorem C43_validate (hA : A.LawfulReset) (b : Nat) : ∀ p : Proof E,
    p.validate A b = p.validate A.fresh b := by
  have hbase : ∀ p : Proof E, p.validateBase A b = p.validateBase A.fresh b := by
    intro p
    unfold Proof.validateBase
    simp only [validateLoop_fresh hA b p.lem p.path p.lem.length 1 0 A.init A.fresh.init]
  have htop : ∀ (n : Nat) (s p : Proof E),
      Proof.validateTopLayer A n s p = Proof.validateTopLayer A.fresh n s p := by
    intro n s p
    unfold Proof.validateTopLayer
    rw [hA]
    rfl
  intro p
  induction p with
  | base t n l q => rw [Proof.validate, Proof.validate, hbase]
  | nested s t n l q ih => rw [Proof.validate, Proof.validate, ih, htop, htop]

/-- **C43** for `validate_with_data`: the datum is hashed by a fresh hasher, its hash made a leaf by a
fresh hasher, and the rest is `validate`. -/
theorem C43_validate_with_data (hA : A.LawfulReset) (b : Nat) (p : Proof E) (d : HashableVal A) :
    p.validateWithData A b d = (do
      let x ← p.item
      if A.leafHash (A.hash (d A.init)).1 = x then p.validate A.fresh b else .ok false) := by
  unfold Proof.validateWithData
  rw [← C43_validate hA]
  dsimp only
  rw [hA]
  rfl

end proofs

section trees
variable [Element E] [LawfulElement E] [FloatRows] {S : Type} [Store S E] [RejectingStore S E]
  [NoArityOne S E]

/-- **C43**, seen from outside: in a tree built from items or data, leaf `i` is the hash, by a fresh
hasher, of item `i` alone. -/
theorem C43_leaf (hA : A.LawfulReset) {b : Nat} {σ : Sched} (hσ : σ.Valid) {src : Source A}
    (hs : src.Valid) (hf : FloatRows.FloorAt b src.leaves.length) {cfg : Option StoreConfig}
    {fs fs' : FS} {t : BaseTree S E} (hc : ∀ c ∈ cfg, fs.file c.file = none)
    (h : src.build b σ cfg fs = (.ok t, fs')) {xs : List E} (hx : src.items = some xs) {i : Nat}
    (hi : i < xs.length) : t.readAt fs' i = .ok (A.leafHash xs[i]) := by
  obtain ⟨k, _, ht⟩ := C08_built_tree hA hσ hs hf hc h
  obtain ⟨f, h1, h2, _⟩ := ht.nodes
  have hl := Source.leaves_of_items hx
  have hi' : i < src.leaves.length := by rw [hl]; simpa using hi
  have hn : i < nodes b k := by
    have h3 : b ^ k ≤ nodes b k := pow_le_nodes b k
    have h4 := h1.count
    omega
  rw [h2 i hn, h1.leaf i hi']
  simp [hl]

end trees
end

/-! Concrete instances. -/
section
attribute [local instance] idealRows

/-- A hasher whose `reset` does nothing. -/
def leakyAlg : Alg UInt8 := { toyAlg with reset := fun s => s }

-- `LawfulReset` is needed: without it leaf 1 depends on item 0.
example : (BaseTree.new (S := VecStore UInt8) leakyAlg 2 Sched.sequential [1, 2] FS.empty).1.map
      (fun t => t.store.els.getD 1 0)
    ≠ (BaseTree.new (S := VecStore UInt8) leakyAlg 2 Sched.sequential [5, 2] FS.empty).1.map
      (fun t => t.store.els.getD 1 0) := by decide +kernel
example : (BaseTree.new (S := VecStore UInt8) toyAlg 2 Sched.sequential [1, 2] FS.empty).1.map
      (fun t => t.store.els.getD 1 0) = .ok (toyAlg.leafHash 2) := by decide +kernel
example : toyAlg.fresh.LawfulReset := toyAlg_reset
-- hashing twice without a reset gives different values, so the reset matters
example : (toyAlg.leaf toyAlg.init 1).1 ≠ (toyAlg.leaf (toyAlg.leaf toyAlg.init 1).2 1).1 := by decide

end
end Verif
