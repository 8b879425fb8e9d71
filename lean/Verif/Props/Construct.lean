import Verif.Lemmas.Sources
import Verif.Spec.Toy
/-
C08-C13: construction of base trees from leaves (src/merkle.rs:334-374, 1499-1817,
src/store/mod.rs:261-422 and the `build` functions of the backends).

A `Source` is a constructor together with what it is given (Verif/Spec/Source.lean); the theorems
quantify over all of them, with and without a configuration.  Throughout, a configuration names a
file that does not exist yet; opening existing files is the subject of C32.
-/
namespace Verif
open Spec

section
variable {E : Type} [Element E] [LawfulElement E] [FloatRows] {A : Alg E}

/-! ### C08 -/

section
variable {S : Type} [Store S E] [RejectingStore S E] [NoArityOne S E]

/-- C08 for every store that keeps all nodes: whenever a constructor returns a tree, it is the Merkle
tree of its leaves, and all of it can be read back. -/
theorem C08_built_tree (hA : A.LawfulReset) {b : Nat} {σ : Sched} (hσ : σ.Valid) {src : Source A}
    (hs : src.Valid) (hf : FloatRows.FloorAt b src.leaves.length) {cfg : Option StoreConfig}
    {fs fs' : FS} {t : BaseTree S E} (hc : ∀ c ∈ cfg, fs.file c.file = none)
    (h : src.build b σ cfg fs = (.ok t, fs')) :
    ∃ k, 1 ≤ k ∧ t.IsTreeOf A b k src.leaves fs' := by
  obtain ⟨_, _, k, d, hk, _, hn, hm, _⟩ := Source.build_sound hA hσ hs hf hc h
  exact ⟨k, hk, hm.isTreeOf hn⟩

end

/-- C08 for `VecStore`. -/
theorem C08_vec (hA : A.LawfulReset) {b : Nat} {σ : Sched} (hσ : σ.Valid) {src : Source A}
    (hs : src.Valid) (hf : FloatRows.FloorAt b src.leaves.length) {cfg : Option StoreConfig}
    {fs fs' : FS} {t : BaseTree (VecStore E) E} (hc : ∀ c ∈ cfg, fs.file c.file = none)
    (h : src.build b σ cfg fs = (.ok t, fs')) :
    ∃ k, 1 ≤ k ∧ t.IsTreeOf A b k src.leaves fs' := C08_built_tree hA hσ hs hf hc h

/-- C08 for `DiskStore`. -/
theorem C08_disk (hA : A.LawfulReset) {b : Nat} {σ : Sched} (hσ : σ.Valid) {src : Source A}
    (hs : src.Valid) (hf : FloatRows.FloorAt b src.leaves.length) {cfg : Option StoreConfig}
    {fs fs' : FS} {t : BaseTree (DiskStore E) E} (hc : ∀ c ∈ cfg, fs.file c.file = none)
    (h : src.build b σ cfg fs = (.ok t, fs')) :
    ∃ k, 1 ≤ k ∧ t.IsTreeOf A b k src.leaves fs' := C08_built_tree hA hσ hs hf hc h

/-- C08 for `MmapStore`. -/
theorem C08_mmap (hA : A.LawfulReset) {b : Nat} {σ : Sched} (hσ : σ.Valid) {src : Source A}
    (hs : src.Valid) (hf : FloatRows.FloorAt b src.leaves.length) {cfg : Option StoreConfig}
    {fs fs' : FS} {t : BaseTree (MmapStore E) E} (hc : ∀ c ∈ cfg, fs.file c.file = none)
    (h : src.build b σ cfg fs = (.ok t, fs')) :
    ∃ k, 1 ≤ k ∧ t.IsTreeOf A b k src.leaves fs' := C08_built_tree hA hσ hs hf hc h

/-- C08 for `LevelCacheStore`, which keeps only the rows above the discarded ones: the file holds
exactly those rows of the Merkle tree. -/
theorem C08_level_cache (hA : A.LawfulReset) {b : Nat} {σ : Sched} (hσ : σ.Valid) {src : Source A}
    (hs : src.Valid) (hf : FloatRows.FloorAt b src.leaves.length) {c : StoreConfig}
    {fs fs' : FS} {t : BaseTree (LevelCacheStore E) E} (hc : fs.file c.file = none)
    (h : src.build b σ (some c) fs = (.ok t, fs')) :
    ∃ k, c.rowsToDiscard < k ∧ t.IsCacheOf A b k src.leaves c fs' := by
  obtain ⟨_, _, k, d, hk, _, hn, hm, _⟩ := Source.build_cached_sound hA hσ hs hf hc h
  exact ⟨k, hk, hm.isCacheOf hn⟩

/-! ### C09 -/

section
variable {S : Type} [Store S E] [RejectingStore S E] [NoArityOne S E]

/-- C09.  Whatever the order of the workers' reads and writes (`σ`) and of the tasks that write the
leaves (`π`), the construction succeeds or not alike, and a tree has the same root, sizes and
nodes. -/
theorem C09_schedule_independent (hA : A.LawfulReset) {b : Nat} {σ₁ σ₂ : Sched} (h₁ : σ₁.Valid)
    (h₂ : σ₂.Valid) {π₁ π₂ : ParOrder} (hπ₁ : π₁.Valid) (hπ₂ : π₂.Valid) (src : Source A)
    (hf : FloatRows.FloorAt b src.leaves.length) {cfg : Option StoreConfig}
    {fs fs₁ : FS} {t₁ : BaseTree S E} (hc : ∀ c ∈ cfg, fs.file c.file = none)
    (h : (src.withOrder π₁).build b σ₁ cfg fs = (.ok t₁, fs₁)) :
    ∃ (t₂ : BaseTree S E) (fs₂ : FS), (src.withOrder π₂).build b σ₂ cfg fs = (.ok t₂, fs₂) ∧
      t₁.summary = t₂.summary ∧
      ∀ i, i < t₁.length → t₁.readAt fs₁ i = t₂.readAt fs₂ i := by
  obtain ⟨hb, hb', k, d, hk, he, hn, hm, _⟩ := Source.build_sound hA h₁
    (Source.valid_withOrder hπ₁ src) (by simpa using hf) hc h
  rw [Source.leaves_withOrder] at hn
  obtain ⟨t₂, fs₂, d₂, g1, g2, _⟩ := Source.build_ok (S := S) hA hb hb' hk he h₂ _
    (Source.valid_withOrder hπ₂ src) (by simpa using hn) cfg hc
  rw [Source.leaves_withOrder] at hm g2
  have v₁ := hm.isTreeOf hn
  have v₂ := g2.isTreeOf hn
  exact ⟨t₂, fs₂, g1, v₁.hasSummary.unique hb.two_le v₂.hasSummary, v₁.reads v₂⟩

end

/-- C09 for `VecStore`. -/
theorem C09_vec (hA : A.LawfulReset) {b : Nat} {σ₁ σ₂ : Sched} (h₁ : σ₁.Valid)
    (h₂ : σ₂.Valid) {π₁ π₂ : ParOrder} (hπ₁ : π₁.Valid) (hπ₂ : π₂.Valid) (src : Source A)
    (hf : FloatRows.FloorAt b src.leaves.length) {cfg : Option StoreConfig}
    {fs fs₁ : FS} {t₁ : BaseTree (VecStore E) E} (hc : ∀ c ∈ cfg, fs.file c.file = none)
    (h : (src.withOrder π₁).build b σ₁ cfg fs = (.ok t₁, fs₁)) :
    ∃ (t₂ : BaseTree (VecStore E) E) (fs₂ : FS),
      (src.withOrder π₂).build b σ₂ cfg fs = (.ok t₂, fs₂) ∧ t₁.summary = t₂.summary ∧
      ∀ i, i < t₁.length → t₁.readAt fs₁ i = t₂.readAt fs₂ i :=
  C09_schedule_independent hA h₁ h₂ hπ₁ hπ₂ src hf hc h

/-- C09 for `DiskStore`. -/
theorem C09_disk (hA : A.LawfulReset) {b : Nat} {σ₁ σ₂ : Sched} (h₁ : σ₁.Valid)
    (h₂ : σ₂.Valid) {π₁ π₂ : ParOrder} (hπ₁ : π₁.Valid) (hπ₂ : π₂.Valid) (src : Source A)
    (hf : FloatRows.FloorAt b src.leaves.length) {cfg : Option StoreConfig}
    {fs fs₁ : FS} {t₁ : BaseTree (DiskStore E) E} (hc : ∀ c ∈ cfg, fs.file c.file = none)
    (h : (src.withOrder π₁).build b σ₁ cfg fs = (.ok t₁, fs₁)) :
    ∃ (t₂ : BaseTree (DiskStore E) E) (fs₂ : FS),
      (src.withOrder π₂).build b σ₂ cfg fs = (.ok t₂, fs₂) ∧ t₁.summary = t₂.summary ∧
      ∀ i, i < t₁.length → t₁.readAt fs₁ i = t₂.readAt fs₂ i :=
  C09_schedule_independent hA h₁ h₂ hπ₁ hπ₂ src hf hc h

/-- C09 for `MmapStore`. -/
theorem C09_mmap (hA : A.LawfulReset) {b : Nat} {σ₁ σ₂ : Sched} (h₁ : σ₁.Valid)
    (h₂ : σ₂.Valid) {π₁ π₂ : ParOrder} (hπ₁ : π₁.Valid) (hπ₂ : π₂.Valid) (src : Source A)
    (hf : FloatRows.FloorAt b src.leaves.length) {cfg : Option StoreConfig}
    {fs fs₁ : FS} {t₁ : BaseTree (MmapStore E) E} (hc : ∀ c ∈ cfg, fs.file c.file = none)
    (h : (src.withOrder π₁).build b σ₁ cfg fs = (.ok t₁, fs₁)) :
    ∃ (t₂ : BaseTree (MmapStore E) E) (fs₂ : FS),
      (src.withOrder π₂).build b σ₂ cfg fs = (.ok t₂, fs₂) ∧ t₁.summary = t₂.summary ∧
      ∀ i, i < t₁.length → t₁.readAt fs₁ i = t₂.readAt fs₂ i :=
  C09_schedule_independent hA h₁ h₂ hπ₁ hπ₂ src hf hc h

/-- C09 for `LevelCacheStore`: same summary and the same bytes in the file. -/
theorem C09_level_cache (hA : A.LawfulReset) {b : Nat} {σ₁ σ₂ : Sched} (h₁ : σ₁.Valid)
    (h₂ : σ₂.Valid) {π₁ π₂ : ParOrder} (hπ₁ : π₁.Valid) (hπ₂ : π₂.Valid) (src : Source A)
    (hf : FloatRows.FloorAt b src.leaves.length) {c : StoreConfig}
    {fs fs₁ : FS} {t₁ : BaseTree (LevelCacheStore E) E} (hc : fs.file c.file = none)
    (h : (src.withOrder π₁).build b σ₁ (some c) fs = (.ok t₁, fs₁)) :
    ∃ (t₂ : BaseTree (LevelCacheStore E) E) (fs₂ : FS),
      (src.withOrder π₂).build b σ₂ (some c) fs = (.ok t₂, fs₂) ∧ t₁.summary = t₂.summary ∧
      fs₁.file c.file = fs₂.file c.file := by
  obtain ⟨hb, hb', k, d, hk, he, hn, hm, _⟩ := Source.build_cached_sound hA h₁
    (Source.valid_withOrder hπ₁ src) (by simpa using hf) hc h
  rw [Source.leaves_withOrder] at hn
  obtain ⟨t₂, fs₂, d₂, g1, g2, _⟩ := Source.build_cached hA hb hb' he h₂ _
    (Source.valid_withOrder hπ₂ src) (by simpa using hn) hk hc
  rw [Source.leaves_withOrder] at hm g2
  have v₁ := hm.isCacheOf hn
  have v₂ := g2.isCacheOf hn
  exact ⟨t₂, fs₂, g1, v₁.hasSummary.unique hb.two_le v₂.hasSummary, v₁.file_eq v₂ hk⟩

/-! ### C10 -/

section
variable {S₁ S₂ : Type} [Store S₁ E] [RejectingStore S₁ E] [NoArityOne S₁ E]
  [Store S₂ E] [RejectingStore S₂ E] [NoArityOne S₂ E]

/-- C10.  Any two constructors, with or without configuration, on any two of `VecStore`, `DiskStore`
and `MmapStore`, agree on root, leafs, len and row count when the logical leaves are the same. -/
theorem C10_constructors_agree (hA : A.LawfulReset) {b : Nat} {σ₁ σ₂ : Sched} (h₁ : σ₁.Valid)
    (h₂ : σ₂.Valid) {src₁ src₂ : Source A} (hs₁ : src₁.Valid) (hs₂ : src₂.Valid)
    (heq : src₁.leaves = src₂.leaves) (hf : FloatRows.FloorAt b src₁.leaves.length)
    {cfg₁ cfg₂ : Option StoreConfig} {fs₁ fs₁' fs₂ fs₂' : FS}
    {t₁ : BaseTree S₁ E} {t₂ : BaseTree S₂ E} (hc₁ : ∀ c ∈ cfg₁, fs₁.file c.file = none)
    (hc₂ : ∀ c ∈ cfg₂, fs₂.file c.file = none)
    (b₁ : src₁.build b σ₁ cfg₁ fs₁ = (.ok t₁, fs₁'))
    (b₂ : src₂.build b σ₂ cfg₂ fs₂ = (.ok t₂, fs₂')) : t₁.summary = t₂.summary := by
  obtain ⟨hb, _, k, d, _, _, hn, hm, _⟩ := Source.build_sound hA h₁ hs₁ hf hc₁ b₁
  obtain ⟨_, _, k₂, d₂, _, _, hn₂, hm₂, _⟩ := Source.build_sound hA h₂ hs₂ (heq ▸ hf) hc₂ b₂
  have v₂ := (hm₂.isTreeOf hn₂).hasSummary
  rw [← heq] at v₂
  exact (hm.isTreeOf hn).hasSummary.unique hb.two_le v₂

omit [NoArityOne S₂ E] in
/-- C10, acceptance: where one constructor succeeds, every other does. -/
theorem C10_constructors_accept_alike (hA : A.LawfulReset) {b : Nat} {σ₁ σ₂ : Sched} (h₁ : σ₁.Valid)
    (h₂ : σ₂.Valid) {src₁ src₂ : Source A} (hs₁ : src₁.Valid) (hs₂ : src₂.Valid)
    (heq : src₁.leaves = src₂.leaves) (hf : FloatRows.FloorAt b src₁.leaves.length)
    {cfg₁ cfg₂ : Option StoreConfig} {fs₁ fs₁' fs₂ : FS}
    {t₁ : BaseTree S₁ E} (hc₁ : ∀ c ∈ cfg₁, fs₁.file c.file = none)
    (hc₂ : ∀ c ∈ cfg₂, fs₂.file c.file = none)
    (b₁ : src₁.build b σ₁ cfg₁ fs₁ = (.ok t₁, fs₁')) :
    ∃ (t₂ : BaseTree S₂ E) (fs₂' : FS), src₂.build b σ₂ cfg₂ fs₂ = (.ok t₂, fs₂') := by
  obtain ⟨hb, hb', k, d, hk, he, hn, hm, _⟩ := Source.build_sound hA h₁ hs₁ hf hc₁ b₁
  obtain ⟨t₂, fs₂', _, g1, _⟩ := Source.build_ok (S := S₂) hA hb hb' hk he h₂ src₂ hs₂ (heq ▸ hn) cfg₂
    hc₂
  exact ⟨t₂, fs₂', g1⟩

/-- C10 between `LevelCacheStore` and any other store. -/
theorem C10_level_cache_agrees (hA : A.LawfulReset) {b : Nat} {σ₁ σ₂ : Sched} (h₁ : σ₁.Valid)
    (h₂ : σ₂.Valid) {src₁ src₂ : Source A} (hs₁ : src₁.Valid) (hs₂ : src₂.Valid)
    (heq : src₁.leaves = src₂.leaves) (hf : FloatRows.FloorAt b src₁.leaves.length)
    {cfg₁ : Option StoreConfig} {c₂ : StoreConfig} {fs₁ fs₁' fs₂ fs₂' : FS}
    {t₁ : BaseTree S₁ E} {t₂ : BaseTree (LevelCacheStore E) E}
    (hc₁ : ∀ c ∈ cfg₁, fs₁.file c.file = none) (hc₂ : fs₂.file c₂.file = none)
    (b₁ : src₁.build b σ₁ cfg₁ fs₁ = (.ok t₁, fs₁'))
    (b₂ : src₂.build b σ₂ (some c₂) fs₂ = (.ok t₂, fs₂')) : t₁.summary = t₂.summary := by
  obtain ⟨hb, _, k, d, _, _, hn, hm, _⟩ := Source.build_sound hA h₁ hs₁ hf hc₁ b₁
  obtain ⟨_, _, k₂, d₂, _, _, hn₂, hm₂, _⟩ := Source.build_cached_sound hA h₂ hs₂ (heq ▸ hf) hc₂ b₂
  have v₂ := (hm₂.isCacheOf hn₂).hasSummary
  rw [← heq] at v₂
  exact (hm.isTreeOf hn).hasSummary.unique hb.two_le v₂

end

/-- C10 between two level-cache trees, which may discard different numbers of rows. -/
theorem C10_level_caches_agree (hA : A.LawfulReset) {b : Nat} {σ₁ σ₂ : Sched} (h₁ : σ₁.Valid)
    (h₂ : σ₂.Valid) {src₁ src₂ : Source A} (hs₁ : src₁.Valid) (hs₂ : src₂.Valid)
    (heq : src₁.leaves = src₂.leaves) (hf : FloatRows.FloorAt b src₁.leaves.length)
    {c₁ c₂ : StoreConfig} {fs₁ fs₁' fs₂ fs₂' : FS}
    {t₁ t₂ : BaseTree (LevelCacheStore E) E}
    (hc₁ : fs₁.file c₁.file = none) (hc₂ : fs₂.file c₂.file = none)
    (b₁ : src₁.build b σ₁ (some c₁) fs₁ = (.ok t₁, fs₁'))
    (b₂ : src₂.build b σ₂ (some c₂) fs₂ = (.ok t₂, fs₂')) : t₁.summary = t₂.summary := by
  obtain ⟨hb, _, k, d, _, _, hn, hm, _⟩ := Source.build_cached_sound hA h₁ hs₁ hf hc₁ b₁
  obtain ⟨_, _, k₂, d₂, _, _, hn₂, hm₂, _⟩ := Source.build_cached_sound hA h₂ hs₂ (heq ▸ hf) hc₂ b₂
  have v₂ := (hm₂.isCacheOf hn₂).hasSummary
  rw [← heq] at v₂
  exact (hm.isCacheOf hn).hasSummary.unique hb.two_le v₂

/-! ### C11 -/

section
variable {S : Type} [Store S E] [RejectingStore S E]

/-- C11 for every store that keeps all nodes: `Ok` exactly for full trees, and never a tree
otherwise. -/
theorem C11_ok_iff_full (hA : A.LawfulReset) {b : Nat} (hb : Arity b) (hb' : b ≤ 4096) {σ : Sched}
    (hσ : σ.Valid) {src : Source A} (hs : src.Valid) (hf : FloatRows.FloorAt b src.leaves.length)
    {cfg : Option StoreConfig} {fs : FS} (hc : ∀ c ∈ cfg, fs.file c.file = none) :
    Res.IsOk (src.build (S := S) b σ cfg fs).1 ↔ ∃ k, 1 ≤ k ∧ src.leaves.length = b ^ k := by
  constructor
  · rintro ⟨t, ht⟩
    by_contra hno
    obtain ⟨e, he, _⟩ := Source.build_err (S := S) hA (by have := hb.two_le; omega) hσ src hs hf
      (fun ⟨_, _, h⟩ => hno h) cfg hc
    rw [he] at ht
    simp at ht
  · rintro ⟨k, hk, hn⟩
    obtain ⟨t, fs', _, h, _⟩ := Source.build_ok (S := S) hA hb hb' hk ((hn ▸ hf).exact hb (by omega)) hσ src hs
      hn cfg hc
    exact ⟨t, by rw [h]⟩

/-- In every case but a full tree, the store reports an ordinary error provided it is `clean`. -/
theorem C11_err_of_clean (hA : A.LawfulReset) {b : Nat} (hb : Arity b) {σ : Sched}
    (hσ : σ.Valid) {src : Source A} (hs : src.Valid) (hf : FloatRows.FloorAt b src.leaves.length)
    (hcl : RejectingStore.clean S src.leaves.length)
    {cfg : Option StoreConfig} {fs : FS} (hc : ∀ c ∈ cfg, fs.file c.file = none)
    (hno : ¬ ∃ k, 1 ≤ k ∧ src.leaves.length = b ^ k) :
    Res.IsErr (src.build (S := S) b σ cfg fs).1 := by
  obtain ⟨e, he, h⟩ := Source.build_err (S := S) hA (by have := hb.two_le; omega) hσ src hs hf
    (fun ⟨_, _, h⟩ => hno h) cfg hc
  obtain ⟨m, rfl⟩ := h.1 (Or.inl hcl)
  exact ⟨m, he⟩

end

/-- C11 for `VecStore`. -/
theorem C11_vec (hA : A.LawfulReset) {b : Nat} (hb : Arity b) (hb' : b ≤ 4096) {σ : Sched}
    (hσ : σ.Valid) {src : Source A} (hs : src.Valid) (hf : FloatRows.FloorAt b src.leaves.length)
    {cfg : Option StoreConfig} {fs : FS} (hc : ∀ c ∈ cfg, fs.file c.file = none) :
    (Res.IsOk (src.build (S := VecStore E) b σ cfg fs).1 ↔ ∃ k, 1 ≤ k ∧ src.leaves.length = b ^ k) ∧
    ((¬ ∃ k, 1 ≤ k ∧ src.leaves.length = b ^ k) →
      Res.IsErr (src.build (S := VecStore E) b σ cfg fs).1) :=
  ⟨C11_ok_iff_full hA hb hb' hσ hs hf hc, C11_err_of_clean hA hb hσ hs hf trivial hc⟩

/-- C11 for `DiskStore`. -/
theorem C11_disk (hA : A.LawfulReset) {b : Nat} (hb : Arity b) (hb' : b ≤ 4096) {σ : Sched}
    (hσ : σ.Valid) {src : Source A} (hs : src.Valid) (hf : FloatRows.FloorAt b src.leaves.length)
    {cfg : Option StoreConfig} {fs : FS} (hc : ∀ c ∈ cfg, fs.file c.file = none) :
    (Res.IsOk (src.build (S := DiskStore E) b σ cfg fs).1 ↔ ∃ k, 1 ≤ k ∧ src.leaves.length = b ^ k) ∧
    ((¬ ∃ k, 1 ≤ k ∧ src.leaves.length = b ^ k) →
      Res.IsErr (src.build (S := DiskStore E) b σ cfg fs).1) :=
  ⟨C11_ok_iff_full hA hb hb' hσ hs hf hc, C11_err_of_clean hA hb hσ hs hf trivial hc⟩

/-- C11 for `MmapStore`: exact acceptance for all sizes, but `Err` only above 1024 leaves (see
`C11_mmap_small_refuted`). -/
theorem C11_mmap_partial (hA : A.LawfulReset) {b : Nat} (hb : Arity b) (hb' : b ≤ 4096) {σ : Sched}
    (hσ : σ.Valid) {src : Source A} (hs : src.Valid) (hf : FloatRows.FloorAt b src.leaves.length)
    {cfg : Option StoreConfig} {fs : FS} (hc : ∀ c ∈ cfg, fs.file c.file = none) :
    (Res.IsOk (src.build (S := MmapStore E) b σ cfg fs).1 ↔ ∃ k, 1 ≤ k ∧ src.leaves.length = b ^ k) ∧
    ((¬ ∃ k, 1 ≤ k ∧ src.leaves.length = b ^ k) → 1024 < src.leaves.length →
      Res.IsErr (src.build (S := MmapStore E) b σ cfg fs).1) :=
  ⟨C11_ok_iff_full hA hb hb' hσ hs hf hc, fun hno hl => C11_err_of_clean hA hb hσ hs hf hl hc hno⟩

/-- C11 fails for `MmapStore` in exactly these cases: a power of two that is not a power of the arity,
at least the arity and at most 1024, makes every constructor panic.  Every other count that is not a
power of the arity is refused with `Err`. -/
theorem C11_mmap_exact_refuted (hA : A.LawfulReset) {b : Nat} (hb : Arity b) (hb' : b ≤ 4096) {σ : Sched}
    (hσ : σ.Valid) {src : Source A} (hs : src.Valid) (hf : FloatRows.FloorAt b src.leaves.length)
    {cfg : Option StoreConfig} {fs : FS} (hc : ∀ c ∈ cfg, fs.file c.file = none)
    (hno : ¬ ∃ k, 1 ≤ k ∧ src.leaves.length = b ^ k) :
    (IsPow2 src.leaves.length ∧ b ≤ src.leaves.length ∧ src.leaves.length ≤ 1024 →
      ∃ m, (src.build (S := MmapStore E) b σ cfg fs).1 = .error (.panic m)) ∧
    (¬ (IsPow2 src.leaves.length ∧ b ≤ src.leaves.length ∧ src.leaves.length ≤ 1024) →
      Res.IsErr (src.build (S := MmapStore E) b σ cfg fs).1) := by
  obtain ⟨e, he, h1, h2⟩ := Source.build_err (S := MmapStore E) hA (by have := hb.two_le; omega) hσ src hs hf
    (fun ⟨_, _, h⟩ => hno h) cfg hc
  refine ⟨fun ⟨g1, g2, g3⟩ => ?_, fun hg => ?_⟩
  · obtain ⟨m, rfl⟩ := h2 (fun h : 1024 < _ => by omega) ⟨hb, hb', g1, g2, hno⟩
    exact ⟨m, he⟩
  · obtain ⟨m, rfl⟩ := h1 (by
      by_cases hl : 1024 < src.leaves.length
      · exact .inl hl
      · exact .inr fun ⟨_, _, g1, g2, _⟩ => hg ⟨g1, g2, by omega⟩)
    exact ⟨m, he⟩

/-- C11 for `LevelCacheStore` with a configuration: `Ok` exactly for full trees with a row left to
cache below the root, else `Err`. -/
theorem C11_level_cache (hA : A.LawfulReset) {b : Nat} (hb : Arity b) (hb' : b ≤ 4096) {σ : Sched}
    (hσ : σ.Valid) {src : Source A} (hs : src.Valid) (hf : FloatRows.FloorAt b src.leaves.length)
    {c : StoreConfig} {fs : FS} (hc : fs.file c.file = none) :
    (Res.IsOk (src.build (S := LevelCacheStore E) b σ (some c) fs).1 ↔
      ∃ k, c.rowsToDiscard < k ∧ src.leaves.length = b ^ k) ∧
    ((¬ ∃ k, c.rowsToDiscard < k ∧ src.leaves.length = b ^ k) →
      Res.IsErr (src.build (S := LevelCacheStore E) b σ (some c) fs).1) := by
  have key : (¬ ∃ k, c.rowsToDiscard < k ∧ src.leaves.length = b ^ k) →
      Res.IsErr (src.build (S := LevelCacheStore E) b σ (some c) fs).1 := fun hno =>
    Source.build_cached_err hA (by have := hb.two_le; omega) σ src hs hf (fun ⟨_, _, h⟩ => hno h) hc
  refine ⟨⟨?_, ?_⟩, key⟩
  · rintro ⟨t, ht⟩
    by_contra hno
    obtain ⟨m, hm⟩ := key hno
    rw [hm] at ht
    simp at ht
  · rintro ⟨k, hk, hn⟩
    obtain ⟨t, fs', _, h, _⟩ := Source.build_cached hA hb hb' ((hn ▸ hf).exact hb (by omega)) hσ src hs hn hk hc
    exact ⟨t, by rw [h]⟩

/-- C11 for `LevelCacheStore` without a configuration: such a tree cannot be built. -/
theorem C11_level_cache_no_config (hA : A.LawfulReset) {b : Nat} (hb : b ≠ 1) (σ : Sched)
    {src : Source A} (hs : src.Valid) (hf : FloatRows.FloorAt b src.leaves.length) (fs : FS) :
    Res.IsErr (src.build (S := LevelCacheStore E) b σ none fs).1 :=
  Source.build_noConfig hA hb σ src hs hf fs

/-! ### C12 -/

section
variable {S : Type} [Store S E] [RejectingStore S E] [CountingStore S E]

/-- C12: a tree is returned only if the iterator yielded no error and exactly the number of leaves its
size hint announced. -/
theorem C12_honest {b : Nat} {σ : Sched} {hint : Option Nat} {items : List (Res E)} {fs fs' : FS}
    {t : BaseTree S E} (h : BaseTree.tryFromIter A b σ hint items fs = (.ok t, fs')) :
    ∃ es : List E, items = es.map .ok ∧ hint = some es.length :=
  BaseTree.tryFromIter_honest h

/-- C12 for the variant with a configuration. -/
theorem C12_honest_config {b : Nat} {σ : Sched} {hint : Option Nat} {items : List (Res E)}
    {fs fs' : FS} {c : StoreConfig} (hc : fs.file c.file = none) {t : BaseTree S E}
    (h : BaseTree.tryFromIterWithConfig A b σ hint items c fs = (.ok t, fs')) :
    ∃ es : List E, items = es.map .ok ∧ hint = some es.length :=
  BaseTree.tryFromIterWithConfig_honest hc h

/-- C12: the first error of the iterator is what `try_from_iter` returns, if the hint is acceptable
and the items before the error fit in the store. -/
theorem C12_error_returned (hA : A.LawfulReset) {b : Nat} (σ : Sched) {hint size rows : Nat}
    (hsz : BaseTree.sizes b hint = .ok (size, rows)) (es : List E) (hfit : es.length ≤ size)
    (e : Fault) (rest : List (Res E)) (fs : FS) :
    (BaseTree.tryFromIter (S := S) A b σ (some hint) (es.map .ok ++ .error e :: rest) fs).1
      = .error e := by
  obtain ⟨fs', h⟩ := BaseTree.tryFromIter_error (S := S) hA (σ := σ) hsz es hfit e rest fs
  rw [h]

/-- C12 is violated by `try_from_iter_with_config`: an error of the iterator is not returned, the
call panics.  This holds for every acceptable hint and every error. -/
theorem C12_config_panics_refuted (hA : A.LawfulReset) {b : Nat} (σ : Sched) {hint size rows : Nat}
    (hsz : BaseTree.sizes b hint = .ok (size, rows)) (es : List E) (hfit : es.length ≤ size)
    (m : String) (rest : List (Res E)) {fs : FS} {c : StoreConfig} (hc : fs.file c.file = none) :
    (BaseTree.tryFromIterWithConfig (S := S) A b σ (some hint)
      (es.map .ok ++ .error (.err m) :: rest) c fs).1 = .error (.panic "failed to populate data") := by
  obtain ⟨fs', h⟩ := BaseTree.tryFromIterWithConfig_error (S := S) hA (σ := σ) hsz es hfit m rest hc
  rw [h]

end

/-- C12 for `LevelCacheStore`. -/
theorem C12_honest_level_cache {b : Nat} {σ : Sched} {hint : Option Nat} {items : List (Res E)}
    {fs fs' : FS} {c : StoreConfig} (hc : fs.file c.file = none)
    {t : BaseTree (LevelCacheStore E) E}
    (h : BaseTree.tryFromIterWithConfig A b σ hint items c fs = (.ok t, fs')) :
    ∃ es : List E, items = es.map .ok ∧ hint = some es.length :=
  BaseTree.cached_honest hc h

/-! ### C13 -/

/-- C13 for `VecStore` and `DiskStore`, every arity but one (see `C13_arity_one_refuted`): the
constructors return. -/
theorem C13_returns_partial (hA : A.LawfulReset) {b : Nat} (hb : b ≠ 1) {σ : Sched}
    (hσ : σ.Valid) {src : Source A} (hs : src.Valid) (hf : FloatRows.FloorAt b src.leaves.length)
    {cfg : Option StoreConfig} {fs : FS} (hc : ∀ c ∈ cfg, fs.file c.file = none) :
    Res.Returns (src.build (S := VecStore E) b σ cfg fs).1 ∧
    Res.Returns (src.build (S := DiskStore E) b σ cfg fs).1 := by
  by_cases hB : BaseTree.Buildable b src.leaves.length
  · obtain ⟨hb1, hb', k, hk, hn⟩ := hB
    have he := (hn ▸ hf : FloatRows.FloorAt b (b ^ k)).exact hb1 (by omega)
    obtain ⟨t, _, _, h, _⟩ := Source.build_ok (S := VecStore E) hA hb1 hb' hk he hσ src hs hn cfg hc
    obtain ⟨t', _, _, h', _⟩ := Source.build_ok (S := DiskStore E) hA hb1 hb' hk he hσ src hs hn cfg hc
    exact ⟨.inl ⟨t, by rw [h]⟩, .inl ⟨t', by rw [h']⟩⟩
  · obtain ⟨e, h1, h2⟩ := Source.build_err (S := VecStore E) hA hb hσ src hs hf hB cfg hc
    obtain ⟨e', h1', h2'⟩ := Source.build_err (S := DiskStore E) hA hb hσ src hs hf hB cfg hc
    obtain ⟨m, rfl⟩ := h2.1 (Or.inl trivial)
    obtain ⟨m', rfl⟩ := h2'.1 (Or.inl trivial)
    exact ⟨.inr ⟨m, h1⟩, .inr ⟨m', h1'⟩⟩

/-- C13 for `MmapStore`, every arity but one: the constructors come to an end; they may panic
(`C11_mmap_exact_refuted`). -/
theorem C13_mmap_partial (hA : A.LawfulReset) {b : Nat} (hb : b ≠ 1) {σ : Sched}
    (hσ : σ.Valid) {src : Source A} (hs : src.Valid) (hf : FloatRows.FloorAt b src.leaves.length)
    {cfg : Option StoreConfig} {fs : FS} (hc : ∀ c ∈ cfg, fs.file c.file = none) :
    (src.build (S := MmapStore E) b σ cfg fs).1 ≠ .error .diverge := by
  by_cases hB : BaseTree.Buildable b src.leaves.length
  · obtain ⟨hb1, hb', k, hk, hn⟩ := hB
    have he := (hn ▸ hf : FloatRows.FloorAt b (b ^ k)).exact hb1 (by omega)
    obtain ⟨t, _, _, h, _⟩ := Source.build_ok (S := MmapStore E) hA hb1 hb' hk he hσ src hs hn cfg hc
    rw [h]; simp
  · obtain ⟨e, h, h1, h2⟩ := Source.build_err (S := MmapStore E) hA hb hσ src hs hf hB cfg hc
    rw [h]
    by_cases hcl : RejectingStore.clean (MmapStore E) src.leaves.length ∨ ¬ BaseTree.Ragged b src.leaves.length
    · obtain ⟨m, rfl⟩ := h1 hcl
      simp
    · rw [not_or, not_not] at hcl
      obtain ⟨m, rfl⟩ := h2 hcl.1 hcl.2
      simp

/-- C13 for `LevelCacheStore`, every arity but one. -/
theorem C13_level_cache_partial (hA : A.LawfulReset) {b : Nat} (hb : b ≠ 1) {σ : Sched}
    (hσ : σ.Valid) {src : Source A} (hs : src.Valid) (hf : FloatRows.FloorAt b src.leaves.length)
    {cfg : Option StoreConfig} {fs : FS} (hc : ∀ c ∈ cfg, fs.file c.file = none) :
    Res.Returns (src.build (S := LevelCacheStore E) b σ cfg fs).1 := by
  cases cfg with
  | none => exact .inr (Source.build_noConfig hA hb σ src hs hf fs)
  | some c =>
    by_cases hB : Arity b ∧ b ≤ buildChunkNodes ∧ ∃ k, c.rowsToDiscard < k ∧ src.leaves.length = b ^ k
    · obtain ⟨hb1, hb', k, hk, hn⟩ := hB
      have he := (hn ▸ hf : FloatRows.FloorAt b (b ^ k)).exact hb1 (by omega)
      obtain ⟨t, _, _, h, _⟩ := Source.build_cached hA hb1 hb' he hσ src hs hn hk (hc c rfl)
      exact .inl ⟨t, by rw [h]⟩
    · exact .inr (Source.build_cached_err hA hb σ src hs hf hB (hc c rfl))

end

/-! ### Where the code violates the properties -/

/-- C11 is violated by `MmapStore`: eight leaves of arity four make it index past the end of its map,
a panic, instead of returning `Err`. -/
theorem C11_mmap_small_refuted [FloatRows] :
    ((Source.new (A := toyAlg) (List.replicate 8 0)).build (S := MmapStore UInt8) 4
      Sched.sequential none FS.empty).1 = .error (.panic "range end index out of range for slice") := by
  rfl

/-- C13 is violated for arity one on `VecStore`: for every number of leaves `2^m` up to 1024 the
constructor never returns. -/
theorem C13_arity_one_refuted {E : Type} [Element E] [LawfulElement E] [FloatRows] {A : Alg E}
    (hA : A.LawfulReset) {m : Nat} (hm : 1 ≤ m) (hm' : m ≤ 10) (σ : Sched) (items : List E)
    (hn : items.length = 2 ^ m) (fs : FS) :
    (BaseTree.new (S := VecStore E) A 1 σ items fs).1 = .error .diverge :=
  VecStore.new_arity_one hA hm hm' σ items hn fs

/-- The `diverge` above is not an artefact of too little fuel: the loop runs out of any fuel. -/
theorem C13_arity_one_any_fuel {E : Type} [Element E] {A : Alg E} {w : Nat} (hw : 1 < w) (fs : FS)
    (fuel : Nat) (s : VecStore E) (h : s.els.length = w) :
    smallTreeLoop A 1 fuel w 0 0 s fs = (.error .diverge, fs) :=
  VecStore.smallTreeLoop_one hw fs fuel 0 0 s (by omega) (fun _ => rfl)

/-! ### The hypotheses can be met -/
section examples

local instance : FloatRows := idealRows

theorem Sched.sequential_valid : Sched.sequential.Valid := by
  intro level n t
  unfold Sched.sequential
  induction n with
  | zero => simp
  | succ n ih =>
    rw [List.range_succ, List.flatMap_append, List.count_append, ih]
    simp only [List.flatMap_cons, List.flatMap_nil, List.append_nil, List.count_cons, List.count_nil]
    by_cases h1 : t < n
    · have : ¬ n = t := by omega
      simp [h1, this, Nat.lt_succ_of_lt h1]
    · by_cases h2 : n = t
      · subst h2; simp
      · have : ¬ t < n + 1 := by omega
        simp [h1, h2, this]

/-- Sixteen leaves. -/
def exampleSource : Source toyAlg := .new ((List.range 16).map UInt8.ofNat)
/-- A configuration that discards one row. -/
def exampleConfig : StoreConfig := .new "/tmp" "t" 1

private theorem ex_valid : exampleSource.Valid := trivial
private theorem ex_len : exampleSource.leaves.length = 16 := rfl

-- C11 (and with it the hypotheses of C08): sixteen leaves of arity four are accepted.
example : Res.IsOk (exampleSource.build (S := VecStore UInt8) 4 Sched.sequential none FS.empty).1 :=
  ((C11_vec toyAlg_reset ⟨2, by decide, rfl⟩ (by decide) Sched.sequential_valid ex_valid
    (idealRows_floor (by decide) (by decide)) (by simp)).1).2 ⟨2, by decide, rfl⟩
example : Res.IsOk
    (exampleSource.build (S := DiskStore UInt8) 4 Sched.sequential (some exampleConfig) FS.empty).1 :=
  ((C11_disk toyAlg_reset ⟨2, by decide, rfl⟩ (by decide) Sched.sequential_valid ex_valid
    (idealRows_floor (by decide) (by decide)) (by intro c _; rfl)).1).2 ⟨2, by decide, rfl⟩
example : Res.IsOk
    (exampleSource.build (S := MmapStore UInt8) 4 Sched.sequential none FS.empty).1 :=
  ((C11_mmap_partial toyAlg_reset ⟨2, by decide, rfl⟩ (by decide) Sched.sequential_valid ex_valid
    (idealRows_floor (by decide) (by decide)) (by simp)).1).2 ⟨2, by decide, rfl⟩
example : Res.IsOk
    (exampleSource.build (S := LevelCacheStore UInt8) 2 Sched.sequential (some exampleConfig)
      FS.empty).1 :=
  ((C11_level_cache toyAlg_reset ⟨1, by decide, rfl⟩ (by decide) Sched.sequential_valid ex_valid
    (idealRows_floor (by decide) (by decide)) rfl).1).2 ⟨4, by decide, rfl⟩
-- Sixteen leaves are not a tree of arity eight.
example : Res.IsErr (exampleSource.build (S := VecStore UInt8) 8 Sched.sequential none FS.empty).1 :=
  (C11_vec toyAlg_reset ⟨3, by decide, rfl⟩ (by decide) Sched.sequential_valid ex_valid
    (idealRows_floor (by decide) (by decide)) (by simp)).2 (by
      rintro ⟨k, hk, h⟩
      rw [ex_len] at h
      rcases k with _ | _ | k
      · omega
      · omega
      · have : 1 ≤ 8 ^ k := Nat.pow_pos (by omega)
        rw [show k + 1 + 1 = k + 2 from rfl, Nat.pow_add] at h
        omega)
-- On a memory-mapped store they panic, whichever schedule is used.
example : ∃ m, (exampleSource.build (S := MmapStore UInt8) 8 Sched.sequential none FS.empty).1
    = .error (.panic m) :=
  (C11_mmap_exact_refuted toyAlg_reset ⟨3, by decide, rfl⟩ (by decide) Sched.sequential_valid ex_valid
    (idealRows_floor (by decide) (by decide)) (by simp) (by
      rintro ⟨k, hk, h⟩
      rw [ex_len] at h
      rcases k with _ | _ | k
      · omega
      · omega
      · have : 1 ≤ 8 ^ k := Nat.pow_pos (by omega)
        rw [show k + 1 + 1 = k + 2 from rfl, Nat.pow_add] at h
        omega)).1 ⟨⟨4, by rw [ex_len]⟩, by rw [ex_len]; omega, by rw [ex_len]; omega⟩
-- C08: what is built is the tree of the sixteen leaves.
example : ∃ (t : BaseTree (DiskStore UInt8) UInt8) (fs : FS) (k : Nat), 1 ≤ k ∧
    t.IsTreeOf toyAlg 4 k exampleSource.leaves fs := by
  obtain ⟨t, h⟩ := ((C11_disk (E := UInt8) (A := toyAlg) (src := exampleSource) (cfg := none)
    (fs := FS.empty) toyAlg_reset ⟨2, by decide, rfl⟩ (by decide)
    Sched.sequential_valid ex_valid (idealRows_floor (by decide) (by decide)) (by simp)).1).2
    ⟨2, by decide, rfl⟩
  obtain ⟨k, hk, ht⟩ := C08_disk (A := toyAlg) (src := exampleSource) (cfg := none) (fs := FS.empty)
    toyAlg_reset (b := 4) Sched.sequential_valid ex_valid
    (idealRows_floor (by decide) (by decide)) (by simp) (t := t) (Prod.ext h rfl)
  exact ⟨t, _, k, hk, ht⟩
-- C12: an iterator that fails after two items.
example : (BaseTree.tryFromIter (S := VecStore UInt8) toyAlg 2 Sched.sequential (some 4)
    [.ok 1, .ok 2, .error (.err "no more")] FS.empty).1 = .error (.err "no more") :=
  C12_error_returned toyAlg_reset _ (size := 7) (rows := 3) (by rfl) [1, 2] (by decide) _ [] _
example : (BaseTree.tryFromIterWithConfig (S := DiskStore UInt8) toyAlg 2 Sched.sequential (some 4)
    [.ok 1, .ok 2, .error (.err "no more")] exampleConfig FS.empty).1
    = .error (.panic "failed to populate data") :=
  C12_config_panics_refuted toyAlg_reset _ (size := 7) (rows := 3) (by rfl) [1, 2] (by decide) _ [] rfl
-- C13: two leaves of arity one.
example : (BaseTree.new (S := VecStore UInt8) toyAlg 1 Sched.sequential [1, 2] FS.empty).1
    = .error .diverge := C13_arity_one_refuted toyAlg_reset (m := 1) (by decide) (by decide) _ _ rfl _

end examples
end Verif
