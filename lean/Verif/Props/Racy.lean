import Verif.Lemmas.RacyBuild
import Verif.Props.Construct
/-
C77: the workers of a parallel build of `DiskStore` and `LevelCacheStore`, interleaved byte by byte
(src/store/disk.rs:318-376, src/store/level_cache.rs:455-513).

The workers of these two stores read under a shared lock and write to the memory map under no lock.
`Racy.Disk τ E` and `Racy.Cache τ E` are the two stores with every byte read and every byte written a
step of its own, the steps of all workers taken in the order `τ` (Verif/Model/Racy.lean).
-/
namespace Verif
open Spec

section
variable {E : Type} [Element E] [LawfulElement E] [FloatRows] {A : Alg E} {b : Nat}

/-- C77, `DiskStore`: in whatever order the workers' byte accesses are interleaved, a constructor returns
a tree in the same cases, the same tree, and leaves the same files, as when each worker reads and writes
its chunk in one step. -/
theorem C77_disk {τ : Racy.ByteSched} (hτ : τ.Valid) {σ σ' : Sched} (hσ : σ.Valid) (src : Source A)
    (cfg : Option StoreConfig) (fs fs' : FS) (t : BaseTree (DiskStore E) E) :
    src.build (S := Racy.Disk τ E) b σ' cfg fs = (.ok t, fs') ↔
      src.build (S := DiskStore E) b σ cfg fs = (.ok t, fs') :=
  Racy.disk_source hτ hσ src cfg fs t fs'

/-- C77, `LevelCacheStore`. -/
theorem C77_level_cache {τ : Racy.ByteSched} (hτ : τ.Valid) {σ σ' : Sched} (hσ : σ.Valid) (src : Source A)
    (cfg : Option StoreConfig) (fs fs' : FS) (t : BaseTree (LevelCacheStore E) E) :
    src.build (S := Racy.Cache τ E) b σ' cfg fs = (.ok t, fs') ↔
      src.build (S := LevelCacheStore E) b σ cfg fs = (.ok t, fs') :=
  Racy.cache_source hτ hσ src cfg fs t fs'

/-- C77: the two orders need not be the same one either. -/
theorem C77_disk_orders {τ₁ τ₂ : Racy.ByteSched} (h₁ : τ₁.Valid) (h₂ : τ₂.Valid) (σ : Sched) (src : Source A)
    (cfg : Option StoreConfig) (fs fs' : FS) (t : BaseTree (DiskStore E) E) :
    src.build (S := Racy.Disk τ₁ E) b σ cfg fs = (.ok t, fs') ↔
      src.build (S := Racy.Disk τ₂ E) b σ cfg fs = (.ok t, fs') :=
  (C77_disk h₁ Sched.sequential_valid src cfg fs fs' t).trans
    (C77_disk h₂ Sched.sequential_valid src cfg fs fs' t).symm

/-- C77 for `LevelCacheStore`: the two orders need not be the same one either. -/
theorem C77_level_cache_orders {τ₁ τ₂ : Racy.ByteSched} (h₁ : τ₁.Valid) (h₂ : τ₂.Valid) (σ : Sched)
    (src : Source A) (cfg : Option StoreConfig) (fs fs' : FS) (t : BaseTree (LevelCacheStore E) E) :
    src.build (S := Racy.Cache τ₁ E) b σ cfg fs = (.ok t, fs') ↔
      src.build (S := Racy.Cache τ₂ E) b σ cfg fs = (.ok t, fs') :=
  (C77_level_cache h₁ Sched.sequential_valid src cfg fs fs' t).trans
    (C77_level_cache h₂ Sched.sequential_valid src cfg fs fs' t).symm

/-- C77 with C08 and C11: in every order of the byte accesses a constructor succeeds exactly for full
trees, and what it returns is the Merkle tree of its leaves. -/
theorem C77_disk_tree (hA : A.LawfulReset) (hb : Arity b) (hb' : b ≤ 4096) {τ : Racy.ByteSched} (hτ : τ.Valid)
    (σ : Sched) {src : Source A} (hs : src.Valid) (hf : FloatRows.FloorAt b src.leaves.length)
    {cfg : Option StoreConfig} {fs : FS} (hc : ∀ c ∈ cfg, fs.file c.file = none) :
    (Res.IsOk (src.build (S := Racy.Disk τ E) b σ cfg fs).1 ↔ ∃ k, 1 ≤ k ∧ src.leaves.length = b ^ k) ∧
    ∀ (t : BaseTree (DiskStore E) E) (fs' : FS), src.build (S := Racy.Disk τ E) b σ cfg fs = (.ok t, fs') →
      ∃ k, 1 ≤ k ∧ t.IsTreeOf A b k src.leaves fs' := by
  constructor
  · rw [← (C11_disk hA hb hb' Sched.sequential_valid hs hf hc).1]
    constructor
    · rintro ⟨t, ht⟩
      exact ⟨t, by rw [(C77_disk hτ Sched.sequential_valid src cfg fs _ t).1 (Prod.ext ht rfl)]⟩
    · rintro ⟨t, ht⟩
      exact ⟨t, by rw [(C77_disk (σ' := σ) hτ Sched.sequential_valid src cfg fs _ t).2 (Prod.ext ht rfl)]⟩
  · intro t fs' h
    exact C08_disk hA Sched.sequential_valid hs hf hc ((C77_disk hτ Sched.sequential_valid src cfg fs fs' t).1 h)

/-- C77 with C08 and C11 for `LevelCacheStore`. -/
theorem C77_level_cache_tree (hA : A.LawfulReset) (hb : Arity b) (hb' : b ≤ 4096) {τ : Racy.ByteSched}
    (hτ : τ.Valid) (σ : Sched) {src : Source A} (hs : src.Valid)
    (hf : FloatRows.FloorAt b src.leaves.length) {c : StoreConfig} {fs : FS} (hc : fs.file c.file = none) :
    (Res.IsOk (src.build (S := Racy.Cache τ E) b σ (some c) fs).1 ↔
      ∃ k, c.rowsToDiscard < k ∧ src.leaves.length = b ^ k) ∧
    ∀ (t : BaseTree (LevelCacheStore E) E) (fs' : FS),
      src.build (S := Racy.Cache τ E) b σ (some c) fs = (.ok t, fs') →
      ∃ k, c.rowsToDiscard < k ∧ t.IsCacheOf A b k src.leaves c fs' := by
  constructor
  · rw [← (C11_level_cache hA hb hb' Sched.sequential_valid hs hf hc).1]
    constructor
    · rintro ⟨t, ht⟩
      exact ⟨t, by rw [(C77_level_cache hτ Sched.sequential_valid src _ fs _ t).1 (Prod.ext ht rfl)]⟩
    · rintro ⟨t, ht⟩
      exact ⟨t, by rw [(C77_level_cache (σ' := σ) hτ Sched.sequential_valid src _ fs _ t).2 (Prod.ext ht rfl)]⟩
  · intro t fs' h
    exact C08_level_cache hA Sched.sequential_valid hs hf hc
      ((C77_level_cache hτ Sched.sequential_valid src _ fs fs' t).1 h)

end

section
variable {E : Type} [Element E] {A : Alg E} {b width level rs ws : Nat}

/-- C77, no data race in a layer of `DiskStore::build` that writes behind the row it reads: no byte of the
file is written by one worker and read or written by another one. -/
theorem C77_disk_no_sharing (h : rs + width ≤ ws) (s : DiskStore E) {t u : Nat}
    (ht : t < mmapTasks E b width) (hu : u < mmapTasks E b width) :
    let y := Racy.diskLayer A b s width level rs ws
    (∀ i j, i < y.size t → j < y.room u → y.start t + i ≠ y.dest u + j) ∧
    (t ≠ u → ∀ i j, i < y.room t → j < y.room u → y.dest t + i ≠ y.dest u + j) := by
  intro y
  have ha : y.Apart _ _ := Racy.diskLayer_apart h
  refine ⟨fun i j hi _ => ?_, fun hne i j hi hj => ?_⟩
  · have := ha.rw t u ht hu
    omega
  · rcases Nat.lt_or_gt_of_ne hne with hlt | hlt
    · have := ha.ww t u hlt hu
      omega
    · have := ha.ww u t hlt ht
      omega

/-- C77, no data race in a layer of `LevelCacheStore::build`. -/
theorem C77_level_cache_no_sharing (h : rs + width ≤ ws) (s : LevelCacheStore E) {t u : Nat}
    (ht : t < mmapTasks E b width) (hu : u < mmapTasks E b width) :
    let y := Racy.cacheLayer A b s width level rs ws
    (∀ i j, i < y.size t → j < y.room u → y.start t + i ≠ y.dest u + j) ∧
    (t ≠ u → ∀ i j, i < y.room t → j < y.room u → y.dest t + i ≠ y.dest u + j) := by
  intro y
  have ha : y.Apart _ _ := Racy.cacheLayer_apart h
  refine ⟨fun i j hi _ => ?_, fun hne i j hi hj => ?_⟩
  · have := ha.rw t u ht hu
    omega
  · rcases Nat.lt_or_gt_of_ne hne with hlt | hlt
    · have := ha.ww t u hlt hu
      omega
    · have := ha.ww u t hlt ht
      omega

end

/-! ### Non-vacuity -/
section examples

attribute [local instance] idealRows

-- There are possible orders, and they differ.
example : Racy.ByteSched.sequential.Valid := Racy.ByteSched.sequential_valid
example : Racy.ByteSched.phases.Valid := Racy.ByteSched.phases_valid
example : Racy.ByteSched.sequential 0 2 (fun _ => 1) (fun _ => 1)
    = [.read 0 0, .hash 0, .write 0 0, .read 1 0, .hash 1, .write 1 0] := by decide
example : Racy.ByteSched.phases 0 2 (fun _ => 1) (fun _ => 1)
    = [.read 0 0, .read 1 0, .hash 0, .hash 1, .write 0 0, .write 1 0] := by decide

-- Sixteen leaves are built by workers that all read before any of them writes.
example : Res.IsOk (exampleSource.build (S := Racy.Disk .phases UInt8) 4 Sched.sequential
    (some exampleConfig) FS.empty).1 :=
  ((C77_disk_tree (src := exampleSource) toyAlg_reset ⟨2, by decide, rfl⟩ (by decide) Racy.ByteSched.phases_valid _ trivial
    (idealRows_floor (by decide) (by decide)) (by intro c _; rfl)).1).2 ⟨2, by decide, rfl⟩
example : Res.IsOk (exampleSource.build (S := Racy.Cache .phases UInt8) 2 Sched.sequential
    (some exampleConfig) FS.empty).1 :=
  ((C77_level_cache_tree (src := exampleSource) toyAlg_reset ⟨1, by decide, rfl⟩ (by decide) Racy.ByteSched.phases_valid _ trivial
    (idealRows_floor (by decide) (by decide)) rfl).1).2 ⟨4, by decide, rfl⟩

-- Two workers of one layer: 8192 leaves.
example : mmapTasks UInt8 2 8192 = 2 := by decide

/-- A layer whose workers write where others read: worker `t` copies byte `t` to place `t + 1`. -/
def overlapping : Racy.Layer where
  file := .temp 0
  check _ := .ok ()
  start t := t
  size _ := 1
  hash _ bs := .ok bs
  dest t := t + 1
  room _ := 1

-- Control: for such a layer the order matters, so the agreement above is not built into the model.
example :
    ((overlapping.run (Racy.ByteSched.sequential 0 2 (fun _ => 1) (fun _ => 1)) .init
      (FS.empty.set (.temp 0) (some [1, 2, 3]))).2.file (.temp 0) = some [1, 1, 1]) ∧
    ((overlapping.run (Racy.ByteSched.phases 0 2 (fun _ => 1) (fun _ => 1)) .init
      (FS.empty.set (.temp 0) (some [1, 2, 3]))).2.file (.temp 0) = some [1, 1, 2]) := by
  constructor <;> rfl

end examples
end Verif
