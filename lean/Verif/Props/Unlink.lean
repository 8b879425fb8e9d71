import Verif.Lemmas.Unlink
import Verif.Props.Lifecycle
import Verif.Props.Stale
/-! Property C79: a tree that is open while its file is deleted. -/
set_option linter.unusedSectionVars false
namespace Verif
open Spec

section
variable {E : Type} [Element E] {c : StoreConfig} {fs : FS}

/-- **C79.** Seen from outside, deleting an open file is deleting it: the call returns what `delete`
returns, and all named files are afterwards as `delete` leaves them. -/
theorem C79_delete [FloatRows] (t : BaseTree (DiskStore E) E) (u : BaseTree (LevelCacheStore E) E) (fs : FS) :
    ((t.deleteOpen c fs).1.map (fun _ => ()) = (t.delete c fs).1 ∧
      ∀ p, (t.deleteOpen c fs).2.file (.named p) = (t.delete c fs).2.file (.named p)) ∧
    ((u.deleteOpen c fs).1.map (fun _ => ()) = (u.delete c fs).1 ∧
      ∀ p, (u.deleteOpen c fs).2.file (.named p) = (u.delete c fs).2.file (.named p)) :=
  ⟨t.deleteOpen_remove c fs, u.deleteOpen_remove c fs⟩

section
variable {S' : Type} [Confined S' E] [FloatRows] {A : Alg E}

/-- **C79.** A `DiskStore` tree that is open when its file is deleted.  Whatever is done afterwards with
stores of any names, also of the same name, the tree answers every question as before. -/
theorem C79_disk {t : BaseTree (DiskStore E) E} (ht : t.store.file = c.file) {bs : Bytes}
    (hf : fs.file c.file = some bs) :
    ∃ t' fs', t.deleteOpen c fs = (.ok t', fs') ∧ fs'.file c.file = none ∧
      ∀ ops : List (StoreConfig × ConfigOp S' A),
        (∀ p ∈ ops, ∀ s, p.2.handle = some s → ∀ g, Confined.owns (E := E) s g → g = p.1.file) →
        BaseTree.SameAnswers fs t (ConfigOp.run ops fs') t' := by
  obtain ⟨fs', e, h1, h2, -, -⟩ := t.deleteOpen_run hf
  rw [FileHandle.follow, if_pos (show FileHandle.file t.store = c.file from ht)] at e
  refine ⟨_, fs', e, h2, fun ops hops => .of_reads rfl ?_⟩
  exact DiskStore.reads_renamed (by rw [ConfigOp.run_temp _ ops fs' hops, h1, ht, hf])

/-- **C79.** The same for a memory-mapped tree.  (Its own `delete` removes nothing, see C54; the file is
deleted by another store.) -/
theorem C79_mmap {t : BaseTree (MmapStore E) E} (ht : t.store.file = c.file) {bs : Bytes}
    (hf : fs.file c.file = some bs) :
    ∃ t' fs', t.deleteOpen c fs = (.ok t', fs') ∧ fs'.file c.file = none ∧
      ∀ ops : List (StoreConfig × ConfigOp S' A),
        (∀ p ∈ ops, ∀ s, p.2.handle = some s → ∀ g, Confined.owns (E := E) s g → g = p.1.file) →
        BaseTree.SameAnswers fs t (ConfigOp.run ops fs') t' := by
  obtain ⟨fs', e, h1, h2, -, -⟩ := t.deleteOpen_run hf
  rw [FileHandle.follow, if_pos (show FileHandle.file t.store = c.file from ht)] at e
  refine ⟨_, fs', e, h2, fun ops hops => .of_reads rfl ?_⟩
  exact MmapStore.reads_renamed (by rw [ConfigOp.run_temp _ ops fs' hops, h1, ht, hf])

/-- **C79.** The same for a level-cache tree, if its reader still reads the same leaves. -/
theorem C79_level_cache {t : BaseTree (LevelCacheStore E) E} (ht : t.store.file = c.file) {bs : Bytes}
    (hf : fs.file c.file = some bs) :
    ∃ t' fs', t.deleteOpen c fs = (.ok t', fs') ∧ fs'.file c.file = none ∧
      ∀ ops : List (StoreConfig × ConfigOp S' A),
        (∀ p ∈ ops, ∀ s, p.2.handle = some s → ∀ g, Confined.owns (E := E) s g → g = p.1.file) →
        (∀ r, t.store.reader = some r → ∀ a b buf,
          r.read (ConfigOp.run ops fs') a b buf = r.read fs a b buf) →
        BaseTree.SameAnswers fs t (ConfigOp.run ops fs') t' := by
  obtain ⟨fs', e, h1, h2, -, -⟩ := t.deleteOpen_run hf
  rw [FileHandle.follow, if_pos (show FileHandle.file t.store = c.file from ht)] at e
  refine ⟨_, fs', e, h2, fun ops hops hr => .of_reads rfl ?_⟩
  exact LevelCacheStore.reads_renamed (by rw [ConfigOp.run_temp _ ops fs' hops, h1, ht, hf]) hr

/-- **C79.** What is written through the open tree afterwards reaches no named file. -/
theorem C79_writes {t t' : BaseTree (DiskStore E) E} (ht : t.store.file = c.file) {fs' : FS}
    (h : t.deleteOpen c fs = (.ok t', fs')) :
    (∀ e i, M.Touches (· = .temp fs.nextTemp) (StoreOps.writeAt t'.store e i)) ∧
    (∀ d i, M.Touches (· = .temp fs.nextTemp) (StoreOps.copyFromSlice (E := E) t'.store d i)) ∧
    ∀ e, M.Touches (· = .temp fs.nextTemp) (StoreOps.push t'.store e) := by
  cases hf : fs.file c.file with
  | none => rw [t.deleteOpen_missing hf] at h; simp at h
  | some bs =>
    obtain ⟨fs₁, e, -⟩ := t.deleteOpen_run hf
    rw [e] at h
    simp only [Prod.mk.injEq, Except.ok.injEq] at h
    obtain ⟨rfl, -⟩ := h
    have hs : ∀ g, Confined.owns (E := E) (FileHandle.follow c.file (.temp fs.nextTemp) t.store) g →
        g = .temp fs.nextTemp := by
      intro g hg
      rw [FileHandle.follow, if_pos (show FileHandle.file t.store = c.file from ht)] at hg
      exact hg
    exact ⟨fun e i => (Confined.writeAt_only hs e i).touches, fun d i => (Confined.copyFromSlice_only hs d i).touches,
      fun e => (Confined.push_only hs e).touches⟩

variable [LawfulElement E] {b k : Nat}

/-- **C79.** Delete the file of an open tree and build another tree with the configuration: the new one
is the tree of its leaves, and the old one still is what it was. -/
theorem C79_rebuild (hA : A.LawfulReset) (hb : Arity b) (hb' : b ≤ 4096) (hk : 1 ≤ k)
    (he : FloatRows.ExactAt b k) {σ : Sched} (hσ : σ.Valid) {src : Source A} (hs : src.Valid)
    (hn : src.leaves.length = b ^ k) {t : BaseTree (DiskStore E) E} (ht : t.store.file = c.file) {bs : Bytes}
    (hf : fs.file c.file = some bs) :
    ∃ t' fs₁ u fs₂, t.deleteOpen c fs = (.ok t', fs₁) ∧
      src.build (S := DiskStore E) b σ (some c) fs₁ = (.ok u, fs₂) ∧
      u.IsTreeOf A b k src.leaves fs₂ ∧ BaseTree.SameAnswers fs t fs₂ t' := by
  obtain ⟨t', fs₁, h1, h2, h3⟩ := C79_disk (S' := DiskStore E) (A := A) ht hf
  obtain ⟨u, fs₂, d, h4, h5⟩ := Source.build_ok (S := DiskStore E) hA hb hb' hk he hσ src hs hn
    (some c) (fs := fs₁) (by simpa using h2)
  have h6 := h3 [(c, .build b σ src)] (by
    intro p hp s hs
    simp only [List.mem_singleton] at hp
    subst hp
    cases hs)
  have h7 : ConfigOp.run [(c, ConfigOp.build (S := DiskStore E) b σ src)] fs₁ = fs₂ := by
    show (src.build (S := DiskStore E) b σ (some c) fs₁).2 = fs₂
    rw [h4]
  rw [h7] at h6
  exact ⟨t', fs₁, u, fs₂, h1, h4, h5.1.isTreeOf hn, h6⟩

/-- **C79.** `compact` opens the file of its configuration, and never looks at the one the tree has open.
After the deletion it returns `Err` and changes nothing. -/
theorem C79_compact_gone (t : BaseTree (DiskStore E) E) (version : Nat) (hf : fs.file c.file = none) :
    ∃ e, t.compact b c version fs = (.error e, t, fs) := by
  have : ∃ e, DiskStore.compact t.store b c version fs = (.error e, t.store, fs) := by
    unfold DiskStore.compact
    split
    · exact ⟨_, rfl⟩
    · rw [hf]; exact ⟨_, rfl⟩
  obtain ⟨e, he⟩ := this
  exact ⟨e, BaseTree.compact_of_store he⟩

/-- **C79.** Through whichever store of the same sizes `compact` is called, and whatever file this has
open, it returns the same and leaves the same files. -/
theorem C79_compact_any {s s₂ s' : DiskStore E} {version : Nat} {fs' : FS} (hl : s.len = s₂.len)
    (hz : s.storeSize = s₂.storeSize) (h : s₂.compact b c version fs = (.ok true, s', fs')) :
    s.compact b c version fs = (.ok true, { s' with loadedFromDisk := s.loadedFromDisk }, fs') :=
  DiskStore.compact_any hl hz h

/-- **C79, refuted for `compact` after a rebuild**: when another tree of the same size was built in the
place of the deleted one, compacting the deleted tree compacts the file of the other; it returns `Ok(true)`,
and the deleted tree then has its own root and the nodes of the other. -/
theorem C79_compact_refuted {t t' u u' : BaseTree (DiskStore E) E} {fs₁ fs₂ fs₃ : FS}
    {leaves leaves₂ : List E} {f f₂ : Nat → E} {version : Nat}
    (ht : t.IsFileTree A b k leaves f c fs) (h : t.deleteOpen c fs = (.ok t', fs₁))
    (hu : u.IsFileTree A b k leaves₂ f₂ c fs₂) (hc : u.compact b c version fs₂ = (.ok true, u', fs₃)) :
    ∃ t'', t'.compact b c version fs₂ = (.ok true, t'', fs₃) ∧ t''.root = f (nodes b k - 1) ∧
      ∀ i, t''.readAt fs₃ i = u'.readAt fs₃ i := by
  have hs : t'.store.len = u.store.len ∧ t'.store.storeSize = u.store.storeSize ∧ t'.root = t.root := by
    obtain ⟨fs', e, -⟩ := t.deleteOpen_run ht.file
    rw [FileHandle.follow, if_pos (show FileHandle.file t.store = c.file from ht.handle)] at e
    rw [e] at h
    simp only [Prod.mk.injEq, Except.ok.injEq] at h
    obtain ⟨rfl, -⟩ := h
    exact ⟨ht.len.trans hu.len.symm, ht.size.trans hu.size.symm, rfl⟩
  have hc' : DiskStore.compact u.store b c version fs₂ = (.ok true, u'.store, fs₃) := by
    rcases e : DiskStore.compact u.store b c version fs₂ with ⟨r, s, fs⟩
    rw [BaseTree.compact_of_store e] at hc
    simp only [Prod.mk.injEq] at hc
    obtain ⟨rfl, rfl, rfl⟩ := hc
    rfl
  refine ⟨_, BaseTree.compact_of_store (DiskStore.compact_any hs.1 hs.2.1 hc'), ?_, fun i => rfl⟩
  exact hs.2.2.trans ht.root

end
end

/-! Concrete instances: the toy tree `72, 73, 74, 75 | 91, 155 | 250`. -/
section
attribute [local instance] idealRows

/-- The toy tree after its file is deleted, and the files then. -/
def toyDeleted : Res (BaseTree (DiskStore UInt8) UInt8) × FS :=
  (toyTree 0).deleteOpen (StoreConfig.new "d" "t" 0) (toyFile 0)

-- C79_disk: the file is gone, and the tree still proves
example : toyDeleted.2.file (StoreConfig.new "d" "t" 0).file = none ∧
    (∃ t p, toyDeleted.1 = .ok t ∧ t.genProof 2 0 0 toyDeleted.2 2 = .ok p ∧
      p.validate toyAlg 2 = .ok true) := by
  refine ⟨by decide +kernel, _, _, rfl, rfl, by decide +kernel⟩

/-- Another tree built in its place. -/
def toyRebuilt : Res (BaseTree (DiskStore UInt8) UInt8) × FS :=
  (Source.new (A := toyAlg) [9, 8, 7, 6]).build 2 Sched.sequential (some (StoreConfig.new "d" "t" 0)) toyDeleted.2

-- C79_rebuild, C79_compact_refuted: both trees work; the deleted one, compacted, compacts the other
example : ∃ t u p q, toyDeleted.1 = .ok t ∧ toyRebuilt.1 = .ok u ∧
    t.genProof 2 0 0 toyRebuilt.2 2 = .ok p ∧ p.validate toyAlg 2 = .ok true ∧ p.root = .ok (toyTree 0).root ∧
    u.genProof 2 0 0 toyRebuilt.2 2 = .ok q ∧ q.validate toyAlg 2 = .ok true ∧ p ≠ q ∧
    (t.compact 2 (StoreConfig.new "d" "t" 0) 2 toyRebuilt.2).1 = .ok true ∧
    (t.compact 2 (StoreConfig.new "d" "t" 0) 2 toyRebuilt.2).2.1.root = (toyTree 0).root ∧
    (u.genProof 2 0 0 (t.compact 2 (StoreConfig.new "d" "t" 0) 2 toyRebuilt.2).2.2 2).isOk = false := by
  refine ⟨_, _, _, _, rfl, rfl, rfl, ?_, ?_, rfl, ?_, ?_, ?_, ?_, ?_⟩ <;> decide +kernel

end
end Verif
