import Verif.Model.Unlink
import Verif.Lemmas.Confined
/-! Reads of a store whose file was renamed. -/
set_option linter.unusedSectionVars false
namespace Verif
open StoreOps

section
variable {E : Type} [Element E] {fs fs' : FS}

/-- What `SameAnswers.of_reads` asks of two stores. -/
def RenamedReads {S : Type} [StoreOps S E] (fs : FS) (s : S) (fs' : FS) (s' : S) : Prop :=
  (∀ i, readAt fs' s' i = readAt fs s i) ∧ (∀ a b, readRange fs' s' a b = readRange fs s a b) ∧
  (∀ i buf, StoreOps.readInto (E := E) fs' s' i buf = StoreOps.readInto (E := E) fs s i buf) ∧
  ∀ a b buf, StoreOps.readRangeInto (E := E) fs' s' a b buf = StoreOps.readRangeInto (E := E) fs s a b buf

theorem FS.contents_renamed {f g : FileId} (h : fs'.file g = fs.file f) : fs'.contents g = fs.contents f := by
  unfold FS.contents; rw [h]

theorem FS.readExactAt_renamed {f g : FileId} (h : fs'.file g = fs.file f) (a n : Nat) :
    fs'.readExactAt g a n = fs.readExactAt f a n := by
  unfold FS.readExactAt; rw [FS.contents_renamed h]

theorem DiskStore.reads_renamed {s : DiskStore E} {g : FileId} (h : fs'.file g = fs.file s.file) :
    RenamedReads (E := E) fs s fs' { s with file := g } := by
  have h := FS.readExactAt_renamed h
  refine ⟨fun i => ?_, fun a b => ?_, fun i buf => ?_, fun a b buf => ?_⟩
  · show DiskStore.readAt fs' { s with file := g } i = DiskStore.readAt fs s i
    unfold DiskStore.readAt storeReadRange checkRange; simp only [h]
  · show DiskStore.readRange fs' { s with file := g } a b = DiskStore.readRange fs s a b
    unfold DiskStore.readRange storeReadRange checkRange; simp only [h]
  · show DiskStore.readInto fs' { s with file := g } i buf = DiskStore.readInto fs s i buf
    unfold DiskStore.readInto storeReadInto checkRange; simp only [h]
  · show DiskStore.readRangeInto fs' { s with file := g } a b buf = DiskStore.readRangeInto fs s a b buf
    unfold DiskStore.readRangeInto storeReadInto checkRange; simp only [h]

theorem MmapStore.reads_renamed {s : MmapStore E} {g : FileId} (h : fs'.file g = fs.file s.file) :
    RenamedReads (E := E) fs s fs' { s with file := g } := by
  have h : ∀ a b, mapRead fs' ({ s with file := g } : MmapStore E) a b = mapRead fs s a b := fun a b => by
    unfold mapRead; rw [FS.contents_renamed h]
  refine ⟨fun i => ?_, fun a b => ?_, fun i buf => ?_, fun a b buf => rfl⟩
  · show MmapStore.readAt fs' { s with file := g } i = MmapStore.readAt fs s i
    unfold MmapStore.readAt checkRange; simp only [h]
  · show MmapStore.readRange fs' { s with file := g } a b = MmapStore.readRange fs s a b
    unfold MmapStore.readRange checkRange; simp only [h]
  · show MmapStore.readInto fs' { s with file := g } i buf = MmapStore.readInto fs s i buf
    unfold MmapStore.readInto checkRange; simp only [h]

theorem LevelCacheStore.reads_renamed {s : LevelCacheStore E} {g : FileId} (h : fs'.file g = fs.file s.file)
    (hr : ∀ r, s.reader = some r → ∀ a b buf, r.read fs' a b buf = r.read fs a b buf) :
    RenamedReads (E := E) fs s fs' { s with file := g } := by
  have h := FS.readExactAt_renamed h
  obtain ⟨l, f, dw, ci, ld, ss, rd⟩ := s
  have h1 : ∀ a b, storeReadRange fs' (⟨l, g, dw, ci, ld, ss, rd⟩ : LevelCacheStore E) a b
      = storeReadRange fs ⟨l, f, dw, ci, ld, ss, rd⟩ a b := fun a b => by
    unfold storeReadRange
    cases rd with
    | none => simp only [h]; rfl
    | some r => simp only [h, hr r rfl]; rfl
  have h2 : ∀ a b buf, storeReadInto fs' (⟨l, g, dw, ci, ld, ss, rd⟩ : LevelCacheStore E) a b buf
      = storeReadInto fs ⟨l, f, dw, ci, ld, ss, rd⟩ a b buf := fun a b buf => by
    unfold storeReadInto
    cases rd with
    | none => simp only [h]; rfl
    | some r => simp only [h, hr r rfl]; rfl
  refine ⟨fun i => ?_, fun a b => ?_, fun i buf => ?_, fun a b buf => ?_⟩
  · show LevelCacheStore.readAt fs' ⟨l, g, dw, ci, ld, ss, rd⟩ i = LevelCacheStore.readAt fs ⟨l, f, dw, ci, ld, ss, rd⟩ i
    unfold LevelCacheStore.readAt; simp only [h1]; rfl
  · show LevelCacheStore.readRange fs' ⟨l, g, dw, ci, ld, ss, rd⟩ a b = LevelCacheStore.readRange fs ⟨l, f, dw, ci, ld, ss, rd⟩ a b
    unfold LevelCacheStore.readRange; simp only [h1]; rfl
  · show LevelCacheStore.readInto fs' ⟨l, g, dw, ci, ld, ss, rd⟩ i buf = LevelCacheStore.readInto fs ⟨l, f, dw, ci, ld, ss, rd⟩ i buf
    unfold LevelCacheStore.readInto; simp only [h2]; rfl
  · show LevelCacheStore.readRangeInto fs' ⟨l, g, dw, ci, ld, ss, rd⟩ a b buf = LevelCacheStore.readRangeInto fs ⟨l, f, dw, ci, ld, ss, rd⟩ a b buf
    unfold LevelCacheStore.readRangeInto; simp only [h2]; rfl

theorem FS.unlink_run {f : FileId} {bs : Bytes} (h : fs.file f = some bs) :
    FS.unlink f fs = (.ok (.temp fs.nextTemp),
      { ((fs.set f none).set (.temp fs.nextTemp) (some bs)) with nextTemp := fs.nextTemp + 1 }) := by
  unfold FS.unlink; rw [h]

/-- `deleteOpen` on a file that is there. -/
theorem BaseTree.deleteOpen_run {S : Type} [FileHandle S] (t : BaseTree S E) {c : StoreConfig} {bs : Bytes}
    (h : fs.file c.file = some bs) :
    ∃ fs', t.deleteOpen c fs = (.ok { t with store := FileHandle.follow c.file (.temp fs.nextTemp) t.store }, fs') ∧
      fs'.file (.temp fs.nextTemp) = some bs ∧ fs'.file c.file = none ∧
      (∀ g, g ≠ c.file → g ≠ .temp fs.nextTemp → fs'.file g = fs.file g) ∧
      fs'.nextTemp = fs.nextTemp + 1 := by
  refine ⟨_, M.bind_ok (FS.unlink_run h), FS.set_self _ _ _, ?_, fun g h1 h2 => ?_, rfl⟩
  · exact (FS.set_other (fs.set c.file none) (show c.file ≠ .temp fs.nextTemp by nofun) (some bs)).trans
      (FS.set_self _ _ _)
  · exact (FS.set_other (fs.set c.file none) h2 (some bs)).trans (FS.set_other fs h1 _)

theorem BaseTree.deleteOpen_missing {S : Type} [FileHandle S] (t : BaseTree S E) {c : StoreConfig}
    (h : fs.file c.file = none) : t.deleteOpen c fs = (.error (.err "Failed to delete"), fs) :=
  M.bind_error (by unfold FS.unlink; rw [h])

/-- Seen from outside, deleting an open file is removing it. -/
theorem BaseTree.deleteOpen_remove {S : Type} [FileHandle S] (t : BaseTree S E) (c : StoreConfig) (fs : FS) :
    (t.deleteOpen c fs).1.map (fun _ => ()) = (FS.remove c.file fs).1 ∧
    ∀ p, (t.deleteOpen c fs).2.file (.named p) = (FS.remove c.file fs).2.file (.named p) := by
  unfold FS.remove
  cases h : fs.file c.file with
  | none =>
    rw [t.deleteOpen_missing h]
    exact ⟨rfl, fun _ => rfl⟩
  | some bs =>
    obtain ⟨fs', e, -, h1, h2, -⟩ := t.deleteOpen_run h
    rw [e]
    refine ⟨rfl, fun p => ?_⟩
    by_cases hp : .named p = c.file
    · rw [hp, h1]; exact (FS.set_self _ _ _).symm
    · rw [h2 _ hp (by nofun)]; exact (FS.set_other _ hp _).symm

/-- Operations with configurations change no anonymous file. -/
theorem ConfigOp.run_temp {S : Type} [Confined S E] [FloatRows] {A : Alg E} (n : Nat) :
    ∀ (ops : List (StoreConfig × ConfigOp S A)) (fs : FS),
    (∀ p ∈ ops, ∀ s, p.2.handle = some s → ∀ g, Confined.owns (E := E) s g → g = p.1.file) →
    (ConfigOp.run ops fs).file (.temp n) = fs.file (.temp n)
  | [], _, _ => rfl
  | p :: ops, fs, h => by
    refine (ConfigOp.run_temp n ops _ fun q hq => h q (by simp [hq])).trans ?_
    exact p.2.only (h p (by simp)) (by nofun) fs

/-- `compact` does not look at the file its store has open. -/
theorem DiskStore.compact_any [FloatRows] {b : Nat} {c : StoreConfig} {s s₂ s' : DiskStore E} {version : Nat} {fs' : FS} (hl : s.len = s₂.len)
    (hz : s.storeSize = s₂.storeSize) (h : s₂.compact b c version fs = (.ok true, s', fs')) :
    s.compact b c version fs = (.ok true, { s' with loadedFromDisk := s.loadedFromDisk }, fs') := by
  obtain ⟨l, f, ld, z⟩ := s
  obtain ⟨l₂, f₂, ld₂, z₂⟩ := s₂
  dsimp only at hl hz
  subst hl hz
  have hp : compactPlan (⟨l, f, ld, z⟩ : DiskStore E) b c = compactPlan ⟨l, f₂, ld₂, z⟩ b c := rfl
  unfold DiskStore.compact at h ⊢
  rw [hp]
  split at h
  · cases h
  · rename_i dw cs st e
    dsimp only
    split at h
    · cases h
    · dsimp only at h ⊢
      split at h
      · cases h
      · rename_i n fs₁ e₁
        split at h
        · cases h
        · rename_i m e₂
          split at h
          · rename_i e₃
            rw [if_pos e₃]
            simp only [Prod.mk.injEq, true_and] at h
            obtain ⟨rfl, rfl⟩ := h
            rfl
          · cases h

end
end Verif
