import Verif.Props.Construct
import Verif.Props.Files
import Verif.Lemmas.Interrupted
/-
C53, C54, C55: compact and reinit of memory-mapped trees (src/store/mmap.rs:263-280,
src/merkle.rs:1374-1390), delete (src/merkle.rs:1394-1396) and derived configurations
(src/store/mod.rs:184-197).
-/
set_option linter.unusedSectionVars false
namespace Verif
open Spec

section
variable {E : Type} [Element E] [LawfulElement E] [FloatRows] {A : Alg E} {b : Nat}

/-! ### C53 -/

/-- **C53.** `MmapStore`: `compact` changes nothing but the mapping, and says whether there was one;
until the file is mapped again every read is an `Err`; `reinit` maps the file, whatever the store
was mapped to before. -/
theorem C53_mmap_store (s : MmapStore E) (c : StoreConfig) (v : Nat) (fs : FS) :
    ∃ s₁ : MmapStore E, Store.compact s b c v fs = (.ok s.map.isSome, s₁, fs) ∧
      Store.compact s₁ b c v fs = (.ok false, s₁, fs) ∧
      StoreOps.len (E := E) s₁ = StoreOps.len (E := E) s ∧
      (∀ i, ∃ m, StoreOps.readAt fs s₁ i = .error (.err m)) ∧
      (∀ i j, ∃ m, StoreOps.readRange fs s₁ i j = .error (.err m)) ∧
      ∀ bs, fs.file s.file = some bs →
        Store.reinit s₁ fs = (.ok { s with map := some bs.length }, fs) := by
  have hmap : ∀ a b, MmapStore.mapRead (E := E) fs { s with map := none } a b
      = .error (.err "Internal map needs to be initialized") := fun _ _ => rfl
  refine ⟨{ s with map := none }, rfl, rfl, rfl, fun i => ?_, fun i j => ?_, fun bs h => ?_⟩
  · show ∃ m, MmapStore.readAt (E := E) fs { s with map := none } i = _
    unfold MmapStore.readAt MmapStore.checkRange
    dsimp only
    by_cases h1 : i * Element.byteLen E < s.len * Element.byteLen E
    · rw [ensure_true h1, Res.ok_bind]
      by_cases h2 : i * Element.byteLen E + Element.byteLen E ≤ s.len * Element.byteLen E
      · rw [ensure_true h2, Res.ok_bind, hmap]; exact ⟨_, rfl⟩
      · rw [ensure_false h2]; exact ⟨_, rfl⟩
    · rw [ensure_false h1]; exact ⟨_, rfl⟩
  · show ∃ m, MmapStore.readRange (E := E) fs { s with map := none } i j = _
    unfold MmapStore.readRange MmapStore.checkRange
    dsimp only
    by_cases h1 : i * Element.byteLen E < s.len * Element.byteLen E
    · rw [ensure_true h1, Res.ok_bind]
      by_cases h2 : j * Element.byteLen E ≤ s.len * Element.byteLen E
      · rw [ensure_true h2, Res.ok_bind, hmap]; exact ⟨_, rfl⟩
      · rw [ensure_false h2]; exact ⟨_, rfl⟩
    · rw [ensure_false h1]; exact ⟨_, rfl⟩
  · show MmapStore.reinit (E := E) { s with map := none } fs = _
    unfold MmapStore.reinit
    rw [M.bind_ok (a := bs.length) (fs' := fs) (by
      rw [M.get_run]; simp only [FS.fileLen]; rw [FS.contents_ok h]; rfl)]
    rfl

/-- **C53.** Writing to a compacted `MmapStore` maps the file again: all three writing operations do
what they do after `reinit`. -/
theorem C53_mmap_writes {s : MmapStore E} {fs : FS} {bs : Bytes} (hm : s.map = none)
    (hf : fs.file s.file = some bs) :
    (∀ e i, StoreOps.writeAt s e i fs
      = StoreOps.writeAt ({ s with map := some bs.length } : MmapStore E) e i fs) ∧
    (∀ data i, StoreOps.copyFromSlice (E := E) s data i fs
      = StoreOps.copyFromSlice (E := E) ({ s with map := some bs.length } : MmapStore E) data i fs) ∧
    ∀ e, StoreOps.push s e fs = StoreOps.push ({ s with map := some bs.length } : MmapStore E) e fs := by
  have he : MmapStore.ensureMap s fs = (.ok { s with map := some bs.length }, fs) := by
    unfold MmapStore.ensureMap
    rw [hm]
    show MmapStore.reinit s fs = _
    unfold MmapStore.reinit
    rw [M.bind_ok (a := bs.length) (fs' := fs) (by
      rw [M.get_run]; simp only [FS.fileLen]; rw [FS.contents_ok hf]; rfl)]
    rfl
  have he' : MmapStore.ensureMap ({ s with map := some bs.length } : MmapStore E) fs
      = (.ok { s with map := some bs.length }, fs) := rfl
  refine ⟨fun e i => ?_, fun data i => ?_, fun e => ?_⟩
  · show MmapStore.writeAt s e i fs = MmapStore.writeAt _ e i fs
    unfold MmapStore.writeAt
    rw [M.bind_ok he, M.bind_ok he']
  · show MmapStore.copyFromSlice s data i fs = MmapStore.copyFromSlice _ data i fs
    unfold MmapStore.copyFromSlice
    rw [M.bind_ok (a := data.length % Element.byteLen E) (fs' := fs) (by
      rw [M.ofRes_run, modP_ok LawfulElement.byteLen_pos])]
    rw [M.bind_ok (a := data.length % Element.byteLen E) (fs' := fs) (by
      rw [M.ofRes_run, modP_ok LawfulElement.byteLen_pos])]
    by_cases h0 : data.length % Element.byteLen E = 0
    · rw [M.bind_ok (mEnsure_true h0 _ _), M.bind_ok (mEnsure_true h0 _ _), M.bind_ok he, M.bind_ok he']
    · rw [M.bind_error (mEnsure_false h0 _ _), M.bind_error (mEnsure_false h0 _ _)]
  · show MmapStore.push s e fs = MmapStore.push _ e fs
    unfold MmapStore.push
    rw [M.bind_ok he, M.bind_ok he']

/-- **C53.** A memory-mapped tree, compacted: it keeps its root and sizes, and asking it for a node or
a proof gives `Err`; `reinit` gives back the tree as it was. -/
theorem C53_mmap_tree (hA : A.LawfulReset) {σ : Sched} (hσ : σ.Valid) {src : Source A}
    (hs : src.Valid) (hf : FloatRows.FloorAt b src.leaves.length) {cfg : Option StoreConfig}
    {fs fs' : FS} {t : BaseTree (MmapStore E) E} (hc : ∀ c ∈ cfg, fs.file c.file = none)
    (h : src.build b σ cfg fs = (.ok t, fs')) (c : StoreConfig) (v : Nat) :
    ∃ t₁, t.compact b c v fs' = (.ok true, t₁, fs') ∧ t₁.summary = t.summary ∧
      (∀ i, ∃ m, t₁.readAt fs' i = .error (.err m)) ∧
      (∀ i, ∃ m, t₁.genProof b 0 0 fs' i = .error (.err m)) ∧
      t₁.compact b c v fs' = (.ok false, t₁, fs') ∧ t₁.reinit fs' = (.ok t, fs') := by
  obtain ⟨hb, _, k, d, hk, _, hn, hm, _⟩ := Source.build_sound hA hσ hs hf hc h
  have ht := hm.isTreeOf hn
  obtain ⟨bs, h1, h2, h3⟩ := hm.filled.inv
  obtain ⟨s₁, e1, e2, e3, e4, _, e5⟩ := C53_mmap_store (b := b) t.store c v fs'
  have hred : ∀ i, ∃ m, (⟨s₁, t.leafs, t.len, t.rowCount, t.root⟩ : BaseTree (MmapStore E) E).readAt fs' i
      = .error (.err m) := e4
  refine ⟨⟨s₁, t.leafs, t.len, t.rowCount, t.root⟩, ?_, ?_, hred, fun i => ?_, ?_, ?_⟩
  · unfold BaseTree.compact
    rw [e1, h2]; rfl
  · unfold BaseTree.summary
    simp [BaseTree.length, e3]
  · unfold BaseTree.genProof
    have h2 := hb.two_le
    simp only [ht.leafs, ht.rows]
    by_cases hi : i < b ^ k
    · obtain ⟨m, hm⟩ := hred i
      simp only [ht.leafs, ht.rows] at hm
      rw [ensure_true hi, Res.ok_bind, ensure_true ((eq_nextPow2_iff _).2 (hb.pow_isPow2 k)),
        Res.ok_bind, ensure_true ((eq_nextPow2_iff _).2 hb.pow2), Res.ok_bind]
      have h1 : merkleProofLemmaLen (k + 1) b = .ok (2 + (b - 1) * k) := by
        unfold merkleProofLemmaLen
        rw [subP_ok (by omega), Res.ok_bind, subP_ok (by omega), Res.ok_bind, Nat.add_sub_cancel]
      rw [h1, Res.ok_bind, subP_ok (by omega), Res.ok_bind, ensure_true trivial, Res.ok_bind,
        ensure_true trivial, Res.ok_bind, hm]
      exact ⟨m, rfl⟩
    · rw [ensure_false hi]; exact ⟨_, rfl⟩
  · unfold BaseTree.compact
    rw [e2]
  · unfold BaseTree.reinit
    rw [M.bind_ok (e5 bs h1), ← h2]
    rfl

/-- **C53.** `VecStore`: neither changes the tree; `compact` returns true. -/
theorem C53_vec (t : BaseTree (VecStore E) E) (c : StoreConfig) (v : Nat) (fs : FS) :
    t.compact b c v fs = (.ok true, t, fs) ∧ t.reinit fs = (.ok t, fs) := ⟨rfl, rfl⟩

/-- **C53.** `DiskStore` and `LevelCacheStore`: `reinit` changes nothing, and a `LevelCacheStore`
cannot be compacted. -/
theorem C53_disk_level_cache (t : BaseTree (DiskStore E) E) (u : BaseTree (LevelCacheStore E) E)
    (c : StoreConfig) (v : Nat) (fs : FS) :
    t.reinit fs = (.ok t, fs) ∧ u.reinit fs = (.ok u, fs) ∧
      ∃ m, u.compact b c v fs = (.error (.err m), u, fs) := ⟨rfl, rfl, _, rfl⟩

/-! ### C54 -/

/-- **C54.** Deleting a `DiskStore` tree removes the file its configuration names and no other; if there
is none it returns `Err` and changes nothing. -/
theorem C54_delete_disk (t : BaseTree (DiskStore E) E) (c : StoreConfig) (fs : FS) :
    (∀ bs, fs.file c.file = some bs → ∃ fs', t.delete c fs = (.ok (), fs') ∧
      fs'.file c.file = none ∧ ∀ f, f ≠ c.file → fs'.file f = fs.file f) ∧
    (fs.file c.file = none → ∃ m, t.delete c fs = (.error (.err m), fs)) := by
  refine ⟨fun bs h => ⟨fs.set c.file none, ?_, FS.set_self _ _ _, fun f hf => FS.set_other _ hf _⟩,
    fun h => ⟨"Failed to delete", ?_⟩⟩
  · show FS.remove c.file fs = _
    unfold FS.remove; rw [h]
  · show FS.remove c.file fs = _
    unfold FS.remove; rw [h]

/-- **C54.** Deleting a `LevelCacheStore` tree. -/
theorem C54_delete_level_cache (t : BaseTree (LevelCacheStore E) E) (c : StoreConfig) (fs : FS) :
    (∀ bs, fs.file c.file = some bs → ∃ fs', t.delete c fs = (.ok (), fs') ∧
      fs'.file c.file = none ∧ ∀ f, f ≠ c.file → fs'.file f = fs.file f) ∧
    (fs.file c.file = none → ∃ m, t.delete c fs = (.error (.err m), fs)) := by
  refine ⟨fun bs h => ⟨fs.set c.file none, ?_, FS.set_self _ _ _, fun f hf => FS.set_other _ hf _⟩,
    fun h => ⟨"Failed to delete", ?_⟩⟩
  · show FS.remove c.file fs = _
    unfold FS.remove; rw [h]
  · show FS.remove c.file fs = _
    unfold FS.remove; rw [h]

/-- **C54.** Whatever the file of a configuration holds, after deleting it a `DiskStore` tree of any
leaves can be built with the configuration, and is the tree of those leaves. -/
theorem C54_rebuild_disk (hA : A.LawfulReset) (hb : Arity b) (hb' : b ≤ 4096) {k : Nat} (hk : 1 ≤ k)
    (he : FloatRows.ExactAt b k) {σ : Sched} (hσ : σ.Valid) {src : Source A} (hs : src.Valid)
    (hn : src.leaves.length = b ^ k) (t : BaseTree (DiskStore E) E) {c : StoreConfig} {fs : FS}
    {bs : Bytes} (hf : fs.file c.file = some bs) :
    ∃ fs₁ u fs₂, t.delete c fs = (.ok (), fs₁) ∧
      src.build (S := DiskStore E) b σ (some c) fs₁ = (.ok u, fs₂) ∧
      u.IsTreeOf A b k src.leaves fs₂ := by
  obtain ⟨fs₁, h1, h2, _⟩ := (C54_delete_disk t c fs).1 bs hf
  obtain ⟨u, fs₂, d, h3, h4⟩ := Source.build_ok (S := DiskStore E) hA hb hb' hk he hσ src hs hn
    (some c) (fs := fs₁) (by simpa using h2)
  exact ⟨fs₁, u, fs₂, h1, h3, h4.1.isTreeOf hn⟩

/-- **C54.** The same for `LevelCacheStore`. -/
theorem C54_rebuild_level_cache (hA : A.LawfulReset) (hb : Arity b) (hb' : b ≤ 4096) {k : Nat}
    (he : FloatRows.ExactAt b k) {σ : Sched} (hσ : σ.Valid) {src : Source A} (hs : src.Valid)
    (hn : src.leaves.length = b ^ k) (t : BaseTree (LevelCacheStore E) E) {c : StoreConfig} {fs : FS}
    (hd : c.rowsToDiscard < k) {bs : Bytes} (hf : fs.file c.file = some bs) :
    ∃ fs₁ u fs₂, t.delete c fs = (.ok (), fs₁) ∧
      src.build (S := LevelCacheStore E) b σ (some c) fs₁ = (.ok u, fs₂) ∧
      u.IsCacheOf A b k src.leaves c fs₂ := by
  obtain ⟨fs₁, h1, h2, _⟩ := (C54_delete_level_cache t c fs).1 bs hf
  obtain ⟨u, fs₂, d, h3, h4, _⟩ := Source.build_cached hA hb hb' he hσ src hs hn hd h2
  exact ⟨fs₁, u, fs₂, h1, h3, h4.isCacheOf hn⟩

/-- **C54 fails for `MmapStore`**: `delete` returns `Ok` and leaves the file where it is.  Building
another tree with the configuration then fails (from items), as if nothing had been deleted. -/
theorem C54_mmap_refuted (hb : Arity b) {k : Nat} (hk : 1 ≤ k) (he : FloatRows.ExactAt b k)
    (σ : Sched) {src : Source A} (hby : src.isBytes = false) (hn : src.leaves.length = b ^ k)
    (t : BaseTree (MmapStore E) E) {c : StoreConfig} {fs : FS} {bs : Bytes}
    (hf : fs.file c.file = some bs) (hl : bs.length = nodes b k * Element.byteLen E) :
    t.delete c fs = (.ok (), fs) ∧
      ∃ m, src.build (S := MmapStore E) b σ (some c) fs = (.error (.err m), fs) :=
  ⟨rfl, Source.build_mmap_nonempty (BaseTree.sizes_ok hb hk he) (pow_ne_nodes hk) (nodes_pos b k) hf hl
    σ hby hn⟩

/-- **C54.** `VecStore` trees have no file, and deleting them touches none. -/
theorem C54_vec (t : BaseTree (VecStore E) E) (c : StoreConfig) (fs : FS) :
    t.delete c fs = (.ok (), fs) := rfl

end

/-! ### C55 -/

/-- **C55.** A configuration derived with `from_config` keeps the directory and the number of rows to
discard, takes the new id, and keeps the size unless a new one is given.  It names the same file
exactly if the id is the same. -/
theorem C55_from_config (c : StoreConfig) (id : String) (size : Option Nat) :
    (c.fromConfig id size).path = c.path ∧ (c.fromConfig id size).id = id ∧
      (c.fromConfig id size).rowsToDiscard = c.rowsToDiscard ∧
      (∀ n, size = some n → (c.fromConfig id size).size = some n) ∧
      (size = none → (c.fromConfig id size).size = c.size) ∧
      ((c.fromConfig id size).file = c.file ↔ id = c.id) := by
  refine ⟨rfl, rfl, rfl, ?_, ?_, ?_⟩
  · rintro n rfl; rfl
  · rintro rfl; rfl
  · show FileId.named (dataPath c.path id) = .named (dataPath c.path c.id) ↔ _
    rw [FileId.named.injEq, C36_data_path_injective]

/-- **C55.** A fresh configuration has no size. -/
theorem C55_new (path id : String) (rows : Nat) :
    (StoreConfig.new path id rows).path = path ∧ (StoreConfig.new path id rows).id = id ∧
      (StoreConfig.new path id rows).size = none ∧
      (StoreConfig.new path id rows).rowsToDiscard = rows := ⟨rfl, rfl, rfl, rfl⟩

section
variable {E : Type} [Element E] [FloatRows] {A : Alg E} {b : Nat}

/-- **C55.** The size in a configuration is not used: two configurations with the same directory, id
and rows to discard make every constructor do the same, for every kind of store. -/
theorem C55_size_unused {c c' : StoreConfig} (hp : c'.path = c.path) (hi : c'.id = c.id)
    (hr : c'.rowsToDiscard = c.rowsToDiscard) (fs : FS) :
    (∀ size b, Store.newWithConfig (S := DiskStore E) size b c' fs
      = Store.newWithConfig (S := DiskStore E) size b c fs) ∧
    (∀ size b, Store.newFromDisk (S := DiskStore E) size b c' fs
      = Store.newFromDisk (S := DiskStore E) size b c fs) ∧
    (∀ size b, Store.newWithConfig (S := MmapStore E) size b c' fs
      = Store.newWithConfig (S := MmapStore E) size b c fs) ∧
    (∀ size b, Store.newFromDisk (S := MmapStore E) size b c' fs
      = Store.newFromDisk (S := MmapStore E) size b c fs) ∧
    (∀ size b, Store.newWithConfig (S := LevelCacheStore E) size b c' fs
      = Store.newWithConfig (S := LevelCacheStore E) size b c fs) ∧
    (∀ size b, Store.newFromDisk (S := LevelCacheStore E) size b c' fs
      = Store.newFromDisk (S := LevelCacheStore E) size b c fs) ∧
    (∀ size b data, Store.newFromSliceWithConfig (S := DiskStore E) size b data c' fs
      = Store.newFromSliceWithConfig (S := DiskStore E) size b data c fs) ∧
    (∀ size b data, Store.newFromSliceWithConfig (S := MmapStore E) size b data c' fs
      = Store.newFromSliceWithConfig (S := MmapStore E) size b data c fs) ∧
    (∀ size b data, Store.newFromSliceWithConfig (S := LevelCacheStore E) size b data c' fs
      = Store.newFromSliceWithConfig (S := LevelCacheStore E) size b data c fs) ∧
    (∀ size b r, LevelCacheStore.newFromDiskWithReader (E := E) size b c' r fs
      = LevelCacheStore.newFromDiskWithReader (E := E) size b c r fs) ∧
    (∀ (t : BaseTree (DiskStore E) E) v, t.compact b c' v fs = t.compact b c v fs) := by
  obtain ⟨p, i, s, r⟩ := c
  obtain ⟨p', i', s', r'⟩ := c'
  dsimp only at hp hi hr
  subst hp hi hr
  exact ⟨fun _ _ => rfl, fun _ _ => rfl, fun _ _ => rfl, fun _ _ => rfl, fun _ _ => rfl,
    fun _ _ => rfl, fun _ _ _ => rfl, fun _ _ _ => rfl, fun _ _ _ => rfl, fun _ _ _ => rfl,
    fun _ _ => rfl⟩

end

/-! Concrete instances: a tree over `1, 2, 3, 4`. -/
section
attribute [local instance] idealRows

/-- The tree, compacted and mapped again: reads of leaf 2 before, between and after, and what the two
calls of `compact` returned. -/
def remapReport : Option (Option UInt8 × Option UInt8 × Option UInt8 × Option Bool × Option Bool) :=
  match (Source.new [1, 2, 3, 4]).build (S := MmapStore UInt8) (A := toyAlg) 2 Sched.sequential
    (some (StoreConfig.new "d" "t" 0)) FS.empty with
  | (.ok t, fs) =>
    let c := t.compact 2 (StoreConfig.new "d" "t" 0) 2 fs
    let c' := c.2.1.compact 2 (StoreConfig.new "d" "t" 0) 2 fs
    match c.2.1.reinit fs with
    | (.ok u, fs') => some ((t.readAt fs 2).toOption, (c.2.1.readAt fs 2).toOption,
        (u.readAt fs' 2).toOption, c.1.toOption, c'.1.toOption)
    | _ => none
  | _ => none

example : remapReport = some (some 74, none, some 74, some true, some false) := by decide +kernel

/-- Whether the file is there before and after deleting, and whether the tree can be built again. -/
def deleteReport (S : Type) [Store S UInt8] : Option (Bool × Bool × Bool) :=
  let c := StoreConfig.new "d" "t" 0
  match (Source.new [1, 2, 3, 4]).build (S := S) (A := toyAlg) 2 Sched.sequential (some c) FS.empty with
  | (.ok t, fs) =>
    let fs' := (t.delete c fs).2
    some ((fs.file c.file).isSome, (fs'.file c.file).isSome,
      ((Source.new [5, 6, 7, 8]).build (S := S) (A := toyAlg) 2 Sched.sequential (some c) fs').1.toOption.isSome)
  | _ => none

example : deleteReport (DiskStore UInt8) = some (true, false, true) := by decide +kernel
example : deleteReport (LevelCacheStore UInt8) = some (true, false, true) := by decide +kernel
example : deleteReport (MmapStore UInt8) = some (true, true, false) := by decide +kernel

end
end Verif
