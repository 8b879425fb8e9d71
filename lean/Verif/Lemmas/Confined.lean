import Verif.Lemmas.M
import Verif.Model.MmapStore
import Verif.Spec.Files
import Verif.Lemmas.Paths
import Verif.Lemmas.Steady
/-! Which files the operations of the stores change. -/
set_option linter.unusedSectionVars false
namespace Verif
open StoreOps

/-- Running `x` changes no file outside `F`, and what it returns satisfies `Q`. -/
def M.Only {α : Type} (F : FileId → Prop) (x : M α) (Q : α → Prop) : Prop :=
  ∀ fs, (∀ g, ¬ F g → (x fs).2.file g = fs.file g) ∧ ∀ a, (x fs).1 = .ok a → Q a

namespace M.Only
variable {α β : Type} {F : FileId → Prop} {Q : α → Prop} {R : β → Prop}

theorem pure {a : α} (h : Q a) : M.Only F (Pure.pure a : M α) Q :=
  fun _ => ⟨fun _ _ => rfl, fun _ e => by cases e; exact h⟩
theorem ofRes (r : Res α) : M.Only F (M.ofRes r) (fun _ => True) := fun _ => ⟨fun _ _ => rfl, fun _ _ => trivial⟩
theorem get (f : FS → Res α) : M.Only F (M.get f) (fun _ => True) := fun _ => ⟨fun _ _ => rfl, fun _ _ => trivial⟩
theorem throw (e : Fault) : M.Only F (M.throw e : M α) Q := fun _ => ⟨fun _ _ => rfl, fun _ h => by cases h⟩
theorem mEnsure (c : Prop) [Decidable c] (m : String) : M.Only F (Verif.mEnsure c m) (fun _ => True) :=
  fun _ => ⟨fun _ _ => rfl, fun _ _ => trivial⟩

theorem weaken {x : M α} {Q' : α → Prop} (h : M.Only F x Q) (hq : ∀ a, Q a → Q' a) : M.Only F x Q' :=
  fun fs => ⟨(h fs).1, fun a e => hq a ((h fs).2 a e)⟩

theorem any {x : M α} (h : M.Only F x Q) : M.Only F x (fun _ => True) := h.weaken fun _ _ => trivial

theorem bind {x : M α} {f : α → M β} (hx : M.Only F x Q) (hf : ∀ a, Q a → M.Only F (f a) R) :
    M.Only F (x >>= f) R := by
  intro fs
  obtain ⟨h1, h2⟩ := hx fs
  rw [M.bind_run]
  split
  · rename_i a fs' e
    rw [e] at h1 h2
    obtain ⟨h3, h4⟩ := hf a (h2 a rfl) fs'
    exact ⟨fun g hg => (h3 g hg).trans (h1 g hg), h4⟩
  · rename_i e' fs' e
    rw [e] at h1
    exact ⟨h1, fun a h => by cases h⟩

theorem expect {x : M α} (m : String) (h : M.Only F x Q) : M.Only F (M.expect m x) Q := by
  intro fs
  obtain ⟨h1, h2⟩ := h fs
  unfold M.expect
  split
  · rename_i e' fs' e
    rw [e] at h1
    exact ⟨h1, fun a h => by cases h⟩
  · exact ⟨h1, h2⟩

theorem touches {x : M α} (h : M.Only F x Q) : M.Touches F x := fun fs g hg => (h fs).1 g hg

/-- A change of one file of `F`. -/
theorem of_set {x : M α} {f : FileId} (hf : F f)
    (h : ∀ fs, (x fs).2 = fs ∨ ∃ c n, (x fs).2 = { fs.set f c with nextTemp := n }) :
    M.Only F x (fun _ => True) := by
  intro fs
  refine ⟨fun g hg => ?_, fun _ _ => trivial⟩
  rcases h fs with e | ⟨c, n, e⟩
  · rw [e]
  · rw [e]
    exact FS.set_other fs (g := g) (fun e => hg (by rw [e]; exact hf)) c

end M.Only

section fs
variable {F : FileId → Prop} {f : FileId}

theorem FS.pathExists_only : M.Only F (FS.pathExists f) (fun _ => True) := .get _
theorem FS.openFile_only : M.Only F (FS.openFile f) (fun _ => True) := .get _

theorem FS.createNew_only (h : F f) : M.Only F (FS.createNew f) (fun _ => True) :=
  .of_set h fun fs => by
    unfold FS.createNew
    split
    · exact .inl rfl
    · exact .inr ⟨some [], fs.nextTemp, rfl⟩

theorem FS.createTemp_only (h : ∀ n, F (.temp n)) : M.Only F FS.createTemp F := fun fs =>
  ⟨fun g hg => FS.set_other fs (g := g) (fun e => hg (by rw [e]; exact h _)) _, fun _ e => by cases e; exact h _⟩

theorem FS.setLen_only (h : F f) (n : Nat) : M.Only F (FS.setLen f n) (fun _ => True) :=
  .of_set h fun fs => by
    unfold FS.setLen
    split
    · exact .inr ⟨_, fs.nextTemp, rfl⟩
    · exact .inl rfl

theorem FS.writeAllAt_only (h : F f) (o : Nat) (d : Bytes) : M.Only F (FS.writeAllAt f o d) (fun _ => True) :=
  .of_set h fun fs => by
    unfold FS.writeAllAt
    split
    · split
      · exact .inl rfl
      · exact .inr ⟨_, fs.nextTemp, rfl⟩
    · exact .inl rfl

theorem FS.mmapWrite_only (h : F f) (o : Nat) (d : Bytes) : M.Only F (FS.mmapWrite f o d) (fun _ => True) :=
  .of_set h fun fs => by
    unfold FS.mmapWrite
    split
    · split
      · exact .inr ⟨_, fs.nextTemp, rfl⟩
      · exact .inl rfl
    · exact .inl rfl

theorem FS.remove_only (h : F f) : M.Only F (FS.remove f) (fun _ => True) :=
  .of_set h fun fs => by
    unfold FS.remove
    split
    · exact .inr ⟨_, fs.nextTemp, rfl⟩
    · exact .inl rfl

theorem DiskStore.copyWithin_only (h : F f) (a b : Nat) : M.Only F (DiskStore.copyWithin f a b) (fun _ => True) :=
  .bind (.get _) fun _ _ => by
    dsimp only
    split
    · exact .throw _
    · exact .bind (FS.writeAllAt_only h _ _) fun _ _ => .pure trivial

theorem DiskStore.compactFile_only {E : Type} [Element E] (h : F f) (v : Bool) (a b c : Nat) :
    M.Only F (DiskStore.compactFile E f v a b c) (fun _ => True) :=
  .bind FS.openFile_only fun _ _ => .bind (DiskStore.copyWithin_only h _ _) fun _ _ =>
  .bind (.mEnsure _ _) fun _ _ => .bind (FS.setLen_only h _) fun _ _ => .pure trivial

theorem mmapTaskWrite_only {E : Type} [Element E] (h : F f) (b w ws t : Nat) (bs : Bytes) :
    M.Only F (mmapTaskWrite E b w ws f t bs) (fun _ => True) := by
  unfold mmapTaskWrite
  dsimp only
  split
  · exact FS.mmapWrite_only h _ _
  · exact .throw _

end fs

theorem runSteps_only {S : Type} {F : FileId → Prop} {P : S → Prop} {rd : Nat → S → FS → Res Bytes}
    {wr : Nat → Bytes → S → M S} (h : ∀ t bs s, P s → M.Only F (wr t bs s) P) :
    ∀ (ts : List Nat) (pend : Nat → Option Bytes) (s : S), P s → M.Only F (runSteps rd wr ts pend s) P
  | [], _, _, hs => .pure hs
  | t :: ts, pend, s, hs => by
    rw [runSteps]
    split
    · exact .bind (.get _) fun bs _ => runSteps_only h ts _ _ hs
    · exact .bind (h _ _ _ hs) fun s hs => runSteps_only h ts _ _ hs

/-- A store type whose values know the files they write to, and whose operations change only those
and the files of the configurations they are given. -/
class Confined (S : Type) (E : outParam Type) [Element E] extends Store S E where
  owns : S → FileId → Prop
  writeAt_only : ∀ {F : FileId → Prop} {s : S}, (∀ g, owns s g → F g) → ∀ e i,
    M.Only F (StoreOps.writeAt s e i) (fun s => ∀ g, owns s g → F g)
  copyFromSlice_only : ∀ {F : FileId → Prop} {s : S}, (∀ g, owns s g → F g) → ∀ d i,
    M.Only F (StoreOps.copyFromSlice s d i) (fun s => ∀ g, owns s g → F g)
  push_only : ∀ {F : FileId → Prop} {s : S}, (∀ g, owns s g → F g) → ∀ e,
    M.Only F (StoreOps.push s e) (fun s => ∀ g, owns s g → F g)
  new_only : ∀ {F : FileId → Prop}, (∀ n, F (.temp n)) → ∀ n,
    M.Only F (Store.new n : M S) (fun s => ∀ g, owns s g → F g)
  newWithConfig_only : ∀ {F : FileId → Prop} {c : StoreConfig}, F c.file → ∀ n b,
    M.Only F (Store.newWithConfig n b c : M S) (fun s => ∀ g, owns s g → F g)
  newFromSlice_only : ∀ {F : FileId → Prop}, (∀ n, F (.temp n)) → ∀ n d,
    M.Only F (Store.newFromSlice n d : M S) (fun s => ∀ g, owns s g → F g)
  newFromSliceWithConfig_only : ∀ {F : FileId → Prop} {c : StoreConfig}, F c.file → ∀ n b d,
    M.Only F (Store.newFromSliceWithConfig n b d c : M S) (fun s => ∀ g, owns s g → F g)
  newFromDisk_only : ∀ {F : FileId → Prop} {c : StoreConfig}, F c.file → ∀ n b,
    M.Only F (Store.newFromDisk n b c : M S) (fun s => ∀ g, owns s g → F g)
  build_only : ∀ {F : FileId → Prop} {s : S}, (∀ g, owns s g → F g) → ∀ A b σ n r (c : Option StoreConfig),
    (∀ c', c = some c' → F c'.file) →
    M.Only F (Store.build A b σ s n r c) (fun p => ∀ g, owns p.2 g → F g)
  compact_only : ∀ {F : FileId → Prop} {s : S}, (∀ g, owns s g → F g) → ∀ b (c : StoreConfig) v fs,
    F c.file → (∀ g, ¬ F g → (Store.compact s b c v fs).2.2.file g = fs.file g) ∧
      ∀ g, owns (Store.compact s b c v fs).2.1 g → F g
  reinit_only : ∀ {F : FileId → Prop} {s : S}, (∀ g, owns s g → F g) →
    M.Only F (Store.reinit s) (fun s => ∀ g, owns s g → F g)
  delete_only : ∀ {F : FileId → Prop} {c : StoreConfig}, F c.file →
    M.Only F (Store.delete S c) (fun _ => True)

section default
variable {S E : Type} [Element E] [StoreOps S E] {F : FileId → Prop} {P : S → Prop}

theorem writeLayer_only (hw : ∀ s e i, P s → M.Only F (StoreOps.writeAt s e i) P) (w : Nat) :
    ∀ (es : List E) (i : Nat) (s : S), P s → M.Only F (writeLayer w es i s) P
  | [], _, _, hs => .pure hs
  | _ :: es, i, _, hs => .bind (hw _ _ _ hs) fun s hs => writeLayer_only hw w es (i + 1) s hs

theorem smallTreeLoop_only (hw : ∀ s e i, P s → M.Only F (StoreOps.writeAt s e i) P) (A : Alg E) (b : Nat) :
    ∀ (f w l i : Nat) (s : S), P s → M.Only F (smallTreeLoop A b f w l i s) (fun p => P p.1)
  | 0, _, _, _, _, _ => .throw _
  | f + 1, w, l, i, s, hs => by
    rw [smallTreeLoop]
    split
    · exact .bind (.get _) fun ns _ => .bind (writeLayer_only hw _ _ _ _ hs) fun s hs =>
        smallTreeLoop_only hw A b f _ _ _ s hs
    · exact .pure hs

theorem buildLoop_only (hc : ∀ s d i, P s → M.Only F (StoreOps.copyFromSlice s d i) P) (A : Alg E) (b : Nat)
    (σ : Sched) : ∀ (f w l i : Nat) (s : S), P s → M.Only F (buildLoop A b σ f w l i s) (fun p => P p.1)
  | 0, _, _, _, _, _ => .throw _
  | f + 1, w, l, i, s, hs => by
    rw [buildLoop]
    split
    · exact .bind (.bind (.mEnsure _ _) fun _ _ => runSteps_only (fun _ _ _ hs => hc _ _ _ hs) _ _ _ hs)
        fun s hs => buildLoop_only hc A b σ f _ _ _ s hs
    · exact .pure hs

theorem defaultBuild_only (hw : ∀ s e i, P s → M.Only F (StoreOps.writeAt s e i) P)
    (hc : ∀ s d i, P s → M.Only F (StoreOps.copyFromSlice s d i) P) (A : Alg E) (b : Nat) (σ : Sched) (s : S)
    (hs : P s) (n r : Nat) (c : Option StoreConfig) :
    M.Only F (defaultBuild A b σ s n r c) (fun p => P p.2) := by
  unfold defaultBuild
  refine .bind (.mEnsure _ _) fun _ _ => .bind (.mEnsure _ _) fun _ _ => .bind (.mEnsure _ _) fun _ _ => ?_
  split
  · exact .bind (.mEnsure _ _) fun _ _ => .bind (smallTreeLoop_only hw _ _ _ _ _ _ _ hs) fun _ hs =>
      .bind (.mEnsure _ _) fun _ _ => .bind (.get _) fun _ _ => .pure hs
  · exact .bind (buildLoop_only hc _ _ _ _ _ _ _ _ hs) fun _ hs =>
      .bind (.mEnsure _ _) fun _ _ => .bind (.get _) fun _ _ => .pure hs

end default

section stores
variable {E : Type} [Element E]

theorem VecStore.copyFromSlice_only {F : FileId → Prop} (s : VecStore E) (d : Bytes) (i : Nat) :
    M.Only F (VecStore.copyFromSlice s d i) (fun _ => True) :=
  .bind (.ofRes _) fun _ _ => .bind (.mEnsure _ _) fun _ _ => .bind (.ofRes _) fun _ _ => .pure trivial

/-- A `VecStore` has no file. -/
instance VecStore.confined : Confined (VecStore E) E where
  owns _ _ := False
  writeAt_only _ _ _ := .pure nofun
  copyFromSlice_only _ _ _ := (VecStore.copyFromSlice_only _ _ _).weaken nofun
  push_only _ _ := .pure nofun
  new_only _ _ := .pure nofun
  newWithConfig_only _ _ _ := .pure nofun
  newFromSlice_only _ _ _ := (M.Only.ofRes _).weaken nofun
  newFromSliceWithConfig_only _ _ _ _ := (M.Only.ofRes _).weaken nofun
  newFromDisk_only _ _ _ := .throw _
  build_only _ A b σ n r c _ :=
    (defaultBuild_only (P := fun _ => True) (fun _ _ _ _ => .pure trivial)
      (fun _ _ _ _ => VecStore.copyFromSlice_only _ _ _) A b σ _ trivial n r c).weaken nofun
  compact_only _ _ _ _ _ _ := ⟨fun _ _ => rfl, nofun⟩
  reinit_only _ := .pure nofun
  delete_only _ := .pure trivial

namespace DiskStore
variable {F : FileId → Prop}

theorem storeCopy_only {s : DiskStore E} (h : F s.file) (a : Nat) (d : Bytes) :
    M.Only F (storeCopyFromSlice s a d) (fun _ => True) :=
  .bind (.mEnsure _ _) fun _ _ => FS.writeAllAt_only h _ _

theorem writeAt_only {s : DiskStore E} (h : F s.file) (e : E) (i : Nat) :
    M.Only F (writeAt s e i) (fun s => F s.file) :=
  .bind (storeCopy_only h _ _) fun _ _ => .pure h

theorem copyFromSlice_only {s : DiskStore E} (h : F s.file) (d : Bytes) (i : Nat) :
    M.Only F (copyFromSlice s d i) (fun s => F s.file) :=
  .bind (.ofRes _) fun _ _ => .bind (.mEnsure _ _) fun _ _ => .bind (storeCopy_only h _ _) fun _ _ => .pure h

theorem new_only (h : ∀ n, F (.temp n)) (n : Nat) : M.Only F (new n : M (DiskStore E)) (fun s => F s.file) :=
  .bind (FS.createTemp_only h) fun _ hf => .bind (FS.setLen_only hf _) fun _ _ => .pure hf

theorem newFromDisk_only {c : StoreConfig} (h : F c.file) (n b : Nat) :
    M.Only F (newFromDisk n b c : M (DiskStore E)) (fun s => F s.file) :=
  .bind FS.pathExists_only fun _ _ => .bind (.mEnsure _ _) fun _ _ => .bind FS.openFile_only fun _ _ =>
  .bind (.get _) fun _ _ => .bind (.mEnsure _ _) fun _ _ => .pure h

theorem newWithConfig_only {c : StoreConfig} (h : F c.file) (n b : Nat) :
    M.Only F (newWithConfig n b c : M (DiskStore E)) (fun s => F s.file) := by
  refine .bind FS.pathExists_only fun ex _ => ?_
  dsimp only
  split
  · exact newFromDisk_only h _ _
  · exact .bind (FS.createNew_only h) fun _ _ => .bind (FS.setLen_only h _) fun _ _ => .pure h

theorem newFromSlice_only (h : ∀ n, F (.temp n)) (n : Nat) (d : Bytes) :
    M.Only F (newFromSlice n d : M (DiskStore E)) (fun s => F s.file) :=
  .bind (.ofRes _) fun _ _ => .bind (.mEnsure _ _) fun _ _ => .bind (new_only h _) fun _ hf =>
  .bind (storeCopy_only hf _ _) fun _ _ => .pure hf

theorem newFromSliceWithConfig_only {c : StoreConfig} (h : F c.file) (n b : Nat) (d : Bytes) :
    M.Only F (newFromSliceWithConfig n b d c : M (DiskStore E)) (fun s => F s.file) := by
  refine .bind (.ofRes _) fun _ _ => .bind (.mEnsure _ _) fun _ _ => .bind (newWithConfig_only h _ _) fun s hs => ?_
  split
  · exact .pure hs
  · exact .bind (storeCopy_only hs _ _) fun _ _ => .pure hs

theorem buildLoop_only (A : Alg E) (b : Nat) (σ : Sched) : ∀ (f w l i : Nat) (s : DiskStore E), F s.file →
    M.Only F (buildLoop A b σ f w l i s) (fun p => F p.1.file)
  | 0, _, _, _, _, _ => .throw _
  | f + 1, w, l, i, s, hs => by
    rw [buildLoop]
    split
    · refine .bind (Q := fun s => F s.file) (.bind FS.openFile_only fun _ _ => .bind (.mEnsure _ _) fun _ _ =>
        runSteps_only (P := fun s : DiskStore E => F s.file) (fun _ _ _ hs =>
          .bind (mmapTaskWrite_only hs _ _ _ _ _) fun _ _ => .pure hs) _ _ _ hs)
        fun s hs => buildLoop_only A b σ f _ _ _ _ hs
    · exact .pure hs

theorem build_only (A : Alg E) (b : Nat) (σ : Sched) (s : DiskStore E) (n r : Nat) (c : Option StoreConfig)
    (h : F s.file) : M.Only F (build A b σ s n r c) (fun p => F p.2.file) :=
  .bind (.mEnsure _ _) fun _ _ => .bind (.mEnsure _ _) fun _ _ => .bind (.mEnsure _ _) fun _ _ =>
  .bind (buildLoop_only _ _ _ _ _ _ _ _ h) fun _ hs => .bind (.ofRes _) fun _ _ => .bind (.mEnsure _ _) fun _ _ =>
  .bind (.mEnsure _ _) fun _ _ => .bind (.get _) fun _ _ => .pure hs

theorem compact_only [FloatRows] {s : DiskStore E} (h : F s.file) (b : Nat) {c : StoreConfig} (hc : F c.file)
    (v : Nat) (fs : FS) : (∀ g, ¬ F g → (compact s b c v fs).2.2.file g = fs.file g) ∧
      F (compact s b c v fs).2.1.file := by
  unfold compact
  split
  · exact ⟨fun _ _ => rfl, h⟩
  · rename_i dw cs st _
    split
    · exact ⟨fun _ _ => rfl, h⟩
    · have := (compactFile_only (E := E) hc (v == 1) dw cs st fs).1
      dsimp only
      split
      · rename_i e; rw [e] at this; exact ⟨this, hc⟩
      · rename_i e
        rw [e] at this
        split
        · exact ⟨this, hc⟩
        · split
          · exact ⟨this, hc⟩
          · exact ⟨this, hc⟩

/-- A `DiskStore` writes to its file. -/
instance confined [FloatRows] : Confined (DiskStore E) E where
  owns s g := g = s.file
  writeAt_only h e i := (writeAt_only (h _ rfl) e i).weaken fun _ h _ e => e ▸ h
  copyFromSlice_only h d i := (copyFromSlice_only (h _ rfl) d i).weaken fun _ h _ e => e ▸ h
  push_only h e := .bind (.mEnsure _ _) fun _ _ => (writeAt_only (h _ rfl) e _).weaken fun _ h _ e => e ▸ h
  new_only h n := (new_only h n).weaken fun _ h _ e => e ▸ h
  newWithConfig_only h n b := (newWithConfig_only h n b).weaken fun _ h _ e => e ▸ h
  newFromSlice_only h n d := (newFromSlice_only h n d).weaken fun _ h _ e => e ▸ h
  newFromSliceWithConfig_only h n b d := (newFromSliceWithConfig_only h n b d).weaken fun _ h _ e => e ▸ h
  newFromDisk_only h n b := (newFromDisk_only h n b).weaken fun _ h _ e => e ▸ h
  build_only h A b σ n r c _ := (build_only A b σ _ n r c (h _ rfl)).weaken fun _ h _ e => e ▸ h
  compact_only h b _ v fs hc := ⟨(compact_only (h _ rfl) b hc v fs).1, fun _ e => e ▸ (compact_only (h _ rfl) b hc v fs).2⟩
  reinit_only h := .pure h
  delete_only h := FS.remove_only h

end DiskStore

namespace MmapStore
variable {F : FileId → Prop}

theorem reinit_only {s : MmapStore E} (h : F s.file) : M.Only F (reinit s) (fun s => F s.file) :=
  .bind (.get _) fun _ _ => .pure h

theorem ensureMap_only {s : MmapStore E} (h : F s.file) : M.Only F (ensureMap s) (fun s => F s.file) := by
  unfold ensureMap
  split
  · exact reinit_only h
  · exact .pure h

theorem mapWrite_only {s : MmapStore E} (h : F s.file) (a : Nat) (d : Bytes) :
    M.Only F (mapWrite s a d) (fun _ => True) := by
  unfold mapWrite
  split
  · exact .throw _
  · split
    · exact FS.mmapWrite_only h _ _
    · exact .throw _

theorem writeAt_only {s : MmapStore E} (h : F s.file) (e : E) (i : Nat) :
    M.Only F (writeAt s e i) (fun s => F s.file) := by
  refine .bind (ensureMap_only h) fun s hs => ?_
  split
  · exact .bind (mapWrite_only hs _ _) fun _ _ => .pure hs
  · exact .throw _

theorem copyFromSlice_only {s : MmapStore E} (h : F s.file) (d : Bytes) (i : Nat) :
    M.Only F (copyFromSlice s d i) (fun s => F s.file) :=
  .bind (.ofRes _) fun _ _ => .bind (.mEnsure _ _) fun _ _ => .bind (ensureMap_only h) fun _ hs =>
  .bind (mapWrite_only hs _ _) fun _ _ => .pure hs

theorem new_only (h : ∀ n, F (.temp n)) (n : Nat) : M.Only F (new n : M (MmapStore E)) (fun s => F s.file) :=
  .bind (FS.createTemp_only h) fun _ hf => .bind (FS.setLen_only hf _) fun _ _ => .pure hf

theorem newFromDisk_only {c : StoreConfig} (h : F c.file) (n b : Nat) :
    M.Only F (newFromDisk n b c : M (MmapStore E)) (fun s => F s.file) :=
  .bind FS.pathExists_only fun _ _ => .bind (.mEnsure _ _) fun _ _ =>
  .bind (.get _) fun _ _ => .bind (.mEnsure _ _) fun _ _ => .pure h

theorem newWithConfig_only {c : StoreConfig} (h : F c.file) (n b : Nat) :
    M.Only F (newWithConfig n b c : M (MmapStore E)) (fun s => F s.file) := by
  refine .bind FS.pathExists_only fun ex _ => ?_
  dsimp only
  split
  · exact newFromDisk_only h _ _
  · exact .bind (FS.createNew_only h) fun _ _ => .bind (FS.setLen_only h _) fun _ _ => .pure h

theorem newFromSlice_only (h : ∀ n, F (.temp n)) (n : Nat) (d : Bytes) :
    M.Only F (newFromSlice n d : M (MmapStore E)) (fun s => F s.file) :=
  .bind (.ofRes _) fun _ _ => .bind (.mEnsure _ _) fun _ _ => .bind (new_only h _) fun _ hf =>
  .bind (mapWrite_only hf _ _) fun _ _ => .pure hf

theorem newFromSliceWithConfig_only {c : StoreConfig} (h : F c.file) (n b : Nat) (d : Bytes) :
    M.Only F (newFromSliceWithConfig n b d c : M (MmapStore E)) (fun s => F s.file) :=
  .bind (.ofRes _) fun _ _ => .bind (.mEnsure _ _) fun _ _ => .bind (newWithConfig_only h _ _) fun _ hs =>
  .bind (ensureMap_only hs) fun _ hs => .bind (mapWrite_only hs _ _) fun _ _ => .pure hs

/-- An `MmapStore` writes to its file. -/
instance confined : Confined (MmapStore E) E where
  owns s g := g = s.file
  writeAt_only h e i := (writeAt_only (h _ rfl) e i).weaken fun _ h _ e => e ▸ h
  copyFromSlice_only h d i := (copyFromSlice_only (h _ rfl) d i).weaken fun _ h _ e => e ▸ h
  push_only h e := .bind (ensureMap_only (h _ rfl)) fun _ hs => .bind (.mEnsure _ _) fun _ _ =>
    (writeAt_only hs e _).weaken fun _ h _ e => e ▸ h
  new_only h n := (new_only h n).weaken fun _ h _ e => e ▸ h
  newWithConfig_only h n b := (newWithConfig_only h n b).weaken fun _ h _ e => e ▸ h
  newFromSlice_only h n d := (newFromSlice_only h n d).weaken fun _ h _ e => e ▸ h
  newFromSliceWithConfig_only h n b d := (newFromSliceWithConfig_only h n b d).weaken fun _ h _ e => e ▸ h
  newFromDisk_only h n b := (newFromDisk_only h n b).weaken fun _ h _ e => e ▸ h
  build_only h A b σ n r c _ :=
    (defaultBuild_only (P := fun _ : MmapStore E => _) (fun _ e i h => writeAt_only h e i)
      (fun _ d i h => copyFromSlice_only h d i) A b σ _ (h _ rfl) n r c).weaken fun _ h _ e => e ▸ h
  compact_only h _ _ _ _ _ := ⟨fun _ _ => rfl, fun _ e => e ▸ h _ rfl⟩
  reinit_only h := (reinit_only (h _ rfl)).weaken fun _ h _ e => e ▸ h
  delete_only _ := .pure trivial

end MmapStore

namespace LevelCacheStore
variable {F : FileId → Prop}

theorem storeCopy_only {s : LevelCacheStore E} (h : F s.file) (a : Nat) (d : Bytes) :
    M.Only F (storeCopyFromSlice s a d) (fun _ => True) :=
  .bind (.mEnsure _ _) fun _ _ => FS.writeAllAt_only h _ _

theorem writeAt_only {s : LevelCacheStore E} (h : F s.file) (e : E) (i : Nat) :
    M.Only F (writeAt s e i) (fun s => F s.file) :=
  .bind (storeCopy_only h _ _) fun _ _ => .pure h

theorem copyFromSlice_only {s : LevelCacheStore E} (h : F s.file) (d : Bytes) (i : Nat) :
    M.Only F (copyFromSlice s d i) (fun s => F s.file) :=
  .bind (.ofRes _) fun _ _ => .bind (.mEnsure _ _) fun _ _ => .bind (storeCopy_only h _ _) fun _ _ => .pure h

theorem new_only (h : ∀ n, F (.temp n)) (n : Nat) :
    M.Only F (new n : M (LevelCacheStore E)) (fun s => F s.file) :=
  .bind (FS.createTemp_only h) fun _ hf => .bind (FS.setLen_only hf _) fun _ _ => .pure hf

theorem newFromSlice_only (h : ∀ n, F (.temp n)) (n : Nat) (d : Bytes) :
    M.Only F (newFromSlice n d : M (LevelCacheStore E)) (fun s => F s.file) :=
  .bind (.ofRes _) fun _ _ => .bind (.mEnsure _ _) fun _ _ => .bind (new_only h _) fun _ hf =>
  .bind (storeCopy_only hf _ _) fun _ _ => .pure hf

variable [FloatRows]

theorem newFromDisk_only {c : StoreConfig} (h : F c.file) (n b : Nat) :
    M.Only F (newFromDisk n b c : M (LevelCacheStore E)) (fun s => F s.file) :=
  .bind FS.pathExists_only fun _ _ => .bind (.mEnsure _ _) fun _ _ =>
  .bind (.get _) fun _ _ => .bind (.ofRes _) fun _ _ => .pure h

theorem newFromDiskWithReader_only {c : StoreConfig} (h : F c.file) (n b : Nat) (r : ExternalReader) :
    M.Only F (newFromDiskWithReader n b c r : M (LevelCacheStore E)) (fun s => F s.file) :=
  .bind FS.pathExists_only fun _ _ => .bind (.mEnsure _ _) fun _ _ =>
  .bind (.get _) fun _ _ => .bind (.ofRes _) fun _ _ => .bind (.mEnsure _ _) fun _ _ => .pure h

theorem newWithConfig_only {c : StoreConfig} (h : F c.file) (n b : Nat) :
    M.Only F (newWithConfig n b c : M (LevelCacheStore E)) (fun s => F s.file) := by
  refine .bind FS.pathExists_only fun ex _ => ?_
  dsimp only
  split
  · exact newFromDisk_only h _ _
  · exact .bind (FS.createNew_only h) fun _ _ => .bind (.ofRes _) fun _ _ => .bind (FS.setLen_only h _) fun _ _ => .pure h

theorem newFromSliceWithConfig_only {c : StoreConfig} (h : F c.file) (n b : Nat) (d : Bytes) :
    M.Only F (newFromSliceWithConfig n b d c : M (LevelCacheStore E)) (fun s => F s.file) := by
  refine .bind (.ofRes _) fun _ _ => .bind (.mEnsure _ _) fun _ _ => .bind (newWithConfig_only h _ _) fun s hs => ?_
  split
  · exact .pure hs
  · exact .bind (storeCopy_only hs _ _) fun _ _ => .pure hs

theorem frontTruncate_only {s : LevelCacheStore E} {c : StoreConfig} (hc : F c.file) (n : Nat) :
    M.Only F (frontTruncate s c n) (fun s => F s.file) :=
  .bind (.get _) fun _ _ => .bind (.mEnsure _ _) fun _ _ => .bind FS.openFile_only fun _ _ =>
  .bind (DiskStore.copyWithin_only hc _ _) fun _ _ => .bind (.mEnsure _ _) fun _ _ =>
  .bind (FS.setLen_only hc _) fun _ _ => .pure hc

theorem buildLoop_only (A : Alg E) (b : Nat) (σ : Sched) {c : StoreConfig} (hc : F c.file) (ci : Nat) :
    ∀ (f w l i : Nat) (s : LevelCacheStore E), F s.file →
    M.Only F (buildLoop A b σ c ci f w l i s) (fun p => F p.1.file)
  | 0, _, _, _, _, _ => .throw _
  | f + 1, w, l, i, s, hs => by
    rw [buildLoop]
    split
    · refine .bind (Q := fun s => F s.file) (.bind FS.openFile_only fun _ _ => .bind (.mEnsure _ _) fun _ _ =>
        runSteps_only (P := fun s : LevelCacheStore E => F s.file) (fun _ _ _ hs =>
          .bind (mmapTaskWrite_only hs _ _ _ _ _) fun _ _ => .pure hs) _ _ _ hs)
        fun s hs => .bind (Q := fun s => F s.file) ?_ fun s hs => buildLoop_only A b σ hc ci f _ _ _ _ hs
      split
      · exact frontTruncate_only hc _
      · exact .pure hs
    · exact .pure hs

theorem build_only (A : Alg E) (b : Nat) (σ : Sched) (s : LevelCacheStore E) (n r : Nat) (c : Option StoreConfig)
    (h : F s.file) (hc : ∀ c', c = some c' → F c'.file) : M.Only F (build A b σ s n r c) (fun p => F p.2.file) := by
  refine .bind (.mEnsure _ _) fun _ _ => .bind (.mEnsure _ _) fun _ _ => .bind (.mEnsure _ _) fun _ _ => ?_
  split
  · exact .throw _
  · exact .bind (.ofRes _) fun _ _ => .bind (.ofRes _) fun _ _ => .bind (.ofRes _) fun _ _ =>
      .bind (buildLoop_only _ _ _ (hc _ rfl) _ _ _ _ _ _ h) fun _ hs => .bind (.ofRes _) fun _ _ =>
      .bind (.mEnsure _ _) fun _ _ => .bind (.mEnsure _ _) fun _ _ => .bind (.ofRes _) fun _ _ =>
      .bind (.ofRes _) fun _ _ => .bind (.get _) fun _ _ => .pure hs

/-- A `LevelCacheStore` writes to its file; its external reader only reads. -/
instance confined : Confined (LevelCacheStore E) E where
  owns s g := g = s.file
  writeAt_only h e i := (writeAt_only (h _ rfl) e i).weaken fun _ h _ e => e ▸ h
  copyFromSlice_only h d i := (copyFromSlice_only (h _ rfl) d i).weaken fun _ h _ e => e ▸ h
  push_only h e := .bind (.mEnsure _ _) fun _ _ => (writeAt_only (h _ rfl) e _).weaken fun _ h _ e => e ▸ h
  new_only h n := (new_only h n).weaken fun _ h _ e => e ▸ h
  newWithConfig_only h n b := (newWithConfig_only h n b).weaken fun _ h _ e => e ▸ h
  newFromSlice_only h n d := (newFromSlice_only h n d).weaken fun _ h _ e => e ▸ h
  newFromSliceWithConfig_only h n b d := (newFromSliceWithConfig_only h n b d).weaken fun _ h _ e => e ▸ h
  newFromDisk_only h n b := (newFromDisk_only h n b).weaken fun _ h _ e => e ▸ h
  build_only h A b σ n r c hc := (build_only A b σ _ n r c (h _ rfl) hc).weaken fun _ h _ e => e ▸ h
  compact_only h _ _ _ _ _ := ⟨fun _ _ => rfl, fun _ e => e ▸ h _ rfl⟩
  reinit_only h := .pure h
  delete_only h := FS.remove_only h

end LevelCacheStore
end stores

section trees
variable {S E : Type} [Element E] [Confined S E] {F : FileId → Prop}

/-- All files the store writes to are in `F`. -/
def Confined.Within (F : FileId → Prop) (s : S) : Prop := ∀ g, Confined.owns (E := E) s g → F g

open Confined in
theorem populateLoop_only (A : Alg E) : ∀ (items : List (Res E)) (a : A.σ) (buf : Bytes) (s : S), Within (E := E) F s →
    M.Only F (populateLoop A items a buf s) (fun p => Within (E := E) F p.2)
  | [], _, _, _, hs => .pure hs
  | item :: items, a, buf, s, hs => by
    rw [populateLoop]
    refine .bind (.ofRes _) fun e _ => ?_
    dsimp only
    split
    · exact .bind (copyFromSlice_only hs _ _) fun s hs => populateLoop_only A items _ _ _ hs
    · exact populateLoop_only A items _ _ _ hs

open Confined in
theorem populateData_only (A : Alg E) (s : S) (items : List (Res E)) (hs : Within (E := E) F s) :
    M.Only F (populateData A s items) (Within (E := E) F) := by
  unfold populateData
  split
  · exact .pure hs
  · exact .bind (populateLoop_only A _ _ _ _ hs) fun _ hs => copyFromSlice_only hs _ _

open Confined in
theorem populateTasks_only (A : Alg E) (cs : List (List E)) : ∀ (ts : List Nat) (s : S), Within (E := E) F s →
    M.Only F (populateTasks A cs ts s) (Within (E := E) F)
  | [], _, hs => .pure hs
  | _ :: ts, _, hs => .bind (copyFromSlice_only hs _ _) fun _ hs => populateTasks_only A cs ts _ hs

open Confined in
theorem populateDataPar_only (A : Alg E) (π : ParOrder) (s : S) (items : List E) (hs : Within (E := E) F s) :
    M.Only F (populateDataPar A π s items) (Within (E := E) F) := by
  unfold populateDataPar
  split
  · exact .pure hs
  · exact populateTasks_only A _ _ _ hs

variable [FloatRows]

namespace BaseTree
open Confined

theorem tryFromIter_only (h : ∀ n, F (.temp n)) (A : Alg E) (b : Nat) (σ : Sched) (hint : Option Nat)
    (items : List (Res E)) :
    M.Only F (tryFromIter A b σ hint items : M (BaseTree S E)) (fun t => Within (E := E) F t.store) := by
  unfold tryFromIter
  split
  · exact .throw _
  · exact .bind (.ofRes _) fun _ _ => .bind (new_only h _) fun _ hs => .bind (populateData_only A _ _ hs) fun _ hs =>
      .bind (build_only hs _ _ _ _ _ _ nofun) fun _ hs => .pure hs

theorem tryFromIterWithConfig_only {c : StoreConfig} (h : F c.file) (A : Alg E) (b : Nat) (σ : Sched)
    (hint : Option Nat) (items : List (Res E)) :
    M.Only F (tryFromIterWithConfig A b σ hint items c : M (BaseTree S E)) (fun t => Within (E := E) F t.store) := by
  unfold tryFromIterWithConfig
  split
  · exact .throw _
  · refine .bind (.ofRes _) fun _ _ => .bind (newWithConfig_only h _ _) fun s hs => ?_
    split
    · exact .bind (.get _) fun _ _ => .pure hs
    · exact .bind (.expect _ (populateData_only A _ _ hs)) fun _ hs =>
        .bind (build_only hs _ _ _ _ _ _ (fun _ e => by cases e; exact h)) fun _ hs => .pure hs

theorem fromParIter_only (h : ∀ n, F (.temp n)) (A : Alg E) (b : Nat) (σ : Sched) (π : ParOrder) (items : List E) :
    M.Only F (fromParIter A b σ π items : M (BaseTree S E)) (fun t => Within (E := E) F t.store) :=
  .bind (.ofRes _) fun _ _ => .bind (.expect _ (new_only h _)) fun _ hs =>
  .bind (populateDataPar_only A _ _ _ hs) fun _ hs => .bind (build_only hs _ _ _ _ _ _ nofun) fun _ hs => .pure hs

theorem fromParIterWithConfig_only {c : StoreConfig} (h : F c.file) (A : Alg E) (b : Nat) (σ : Sched) (π : ParOrder)
    (items : List E) :
    M.Only F (fromParIterWithConfig A b σ π items c : M (BaseTree S E)) (fun t => Within (E := E) F t.store) := by
  refine .bind (.ofRes _) fun _ _ => .bind (newWithConfig_only h _ _) fun s hs => ?_
  split
  · exact .bind (.get _) fun _ _ => .pure hs
  · exact .bind (populateDataPar_only A _ _ _ hs) fun _ hs =>
      .bind (build_only hs _ _ _ _ _ _ (fun _ e => by cases e; exact h)) fun _ hs => .pure hs

theorem fromByteSlice_only (h : ∀ n, F (.temp n)) (A : Alg E) (b : Nat) (σ : Sched) (d : Bytes) :
    M.Only F (fromByteSlice A b σ d : M (BaseTree S E)) (fun t => Within (E := E) F t.store) :=
  .bind (.ofRes _) fun _ _ => .bind (.ofRes _) fun _ _ => .bind (newFromSlice_only h _ _) fun _ hs =>
  .bind (build_only hs _ _ _ _ _ _ nofun) fun _ hs => .pure hs

theorem fromByteSliceWithConfig_only {c : StoreConfig} (h : F c.file) (A : Alg E) (b : Nat) (σ : Sched) (d : Bytes) :
    M.Only F (fromByteSliceWithConfig A b σ d c : M (BaseTree S E)) (fun t => Within (E := E) F t.store) :=
  .bind (.ofRes _) fun _ _ => .bind (.ofRes _) fun _ _ => .bind (newFromSliceWithConfig_only h _ _ _) fun _ hs =>
  .bind (build_only hs _ _ _ _ _ _ (fun _ e => by cases e; exact h)) fun _ hs => .pure hs

theorem fromTreeSlice_only (h : ∀ n, F (.temp n)) (b sub top : Nat) (d : Bytes) (n : Nat) :
    M.Only F (fromTreeSlice b sub top d n : M (BaseTree S E)) (fun t => Within (E := E) F t.store) :=
  .bind (.ofRes _) fun _ _ => .bind (newFromSlice_only h _ _) fun _ hs => .bind (.get _) fun _ _ => .pure hs

theorem fromTreeSliceWithConfig_only {c : StoreConfig} (h : F c.file) (b sub top : Nat) (d : Bytes) (n : Nat) :
    M.Only F (fromTreeSliceWithConfig b sub top d n c : M (BaseTree S E)) (fun t => Within (E := E) F t.store) :=
  .bind (.ofRes _) fun _ _ => .bind (newFromSliceWithConfig_only h _ _ _) fun _ hs => .bind (.get _) fun _ _ => .pure hs

end BaseTree

theorem Source.build_config_only {c : StoreConfig} (h : F c.file) {A : Alg E} (b : Nat) (σ : Sched) (src : Source A) :
    M.Only F (src.build b σ (some c) : M (BaseTree S E)) (fun t => Confined.Within (E := E) F t.store) := by
  cases src
  · exact BaseTree.tryFromIterWithConfig_only h _ _ _ _ _
  · exact BaseTree.tryFromIterWithConfig_only h _ _ _ _ _
  · exact BaseTree.fromParIterWithConfig_only h _ _ _ _ _
  · exact BaseTree.tryFromIterWithConfig_only h _ _ _ _ _
  · exact BaseTree.fromByteSliceWithConfig_only h _ _ _ _

theorem Source.build_temp_only (h : ∀ n, F (.temp n)) {A : Alg E} (b : Nat) (σ : Sched) (src : Source A) :
    M.Only F (src.build b σ none : M (BaseTree S E)) (fun t => Confined.Within (E := E) F t.store) := by
  cases src
  · exact BaseTree.tryFromIter_only h _ _ _ _ _
  · exact BaseTree.tryFromIter_only h _ _ _ _ _
  · exact BaseTree.fromParIter_only h _ _ _ _ _
  · exact BaseTree.tryFromIter_only h _ _ _ _ _
  · exact BaseTree.fromByteSlice_only h _ _ _ _

open Confined in
/-- No operation with a configuration changes a file other than the configured one, provided the store
it uses (if any) writes to that file. -/
theorem ConfigOp.only {A : Alg E} {c : StoreConfig} (op : ConfigOp S A)
    (h : ∀ s, op.handle = some s → ∀ g, owns (E := E) s g → g = c.file) {g : FileId} (hg : g ≠ c.file) (fs : FS) :
    (op.after c fs).file g = fs.file g := by
  have hc : (fun g => g = c.file) c.file := rfl
  cases op with
  | build b σ src => exact (Source.build_config_only (F := fun g => g = c.file) hc b σ src fs).1 g hg
  | iterate b σ hint items => exact (BaseTree.tryFromIterWithConfig_only (F := fun g => g = c.file) hc A b σ hint items fs).1 g hg
  | byteSlice b σ d => exact (BaseTree.fromByteSliceWithConfig_only (F := fun g => g = c.file) hc A b σ d fs).1 g hg
  | treeSlice b sub top d n => exact (BaseTree.fromTreeSliceWithConfig_only (F := fun g => g = c.file) hc b sub top d n fs).1 g hg
  | create n b => exact (newWithConfig_only (F := fun g => g = c.file) hc n b fs).1 g hg
  | openDisk n b => exact (newFromDisk_only (F := fun g => g = c.file) hc n b fs).1 g hg
  | fromSlice n b d => exact (newFromSliceWithConfig_only (F := fun g => g = c.file) hc n b d fs).1 g hg
  | writeAt s e i => exact (writeAt_only (h s rfl) e i fs).1 g hg
  | copyFromSlice s d i => exact (copyFromSlice_only (h s rfl) d i fs).1 g hg
  | push s e => exact (push_only (h s rfl) e fs).1 g hg
  | buildStore b σ s n r =>
    exact (build_only (h s rfl) A b σ n r (some c) (fun _ e => by cases e; rfl) fs).1 g hg
  | compact s b v => exact (compact_only (h s rfl) b c v fs rfl).1 g hg
  | reinit s => exact (reinit_only (h s rfl) fs).1 g hg
  | delete => exact (delete_only (F := fun g => g = c.file) hc fs).1 g hg

end trees

/-! Reads depend only on the file of the store. -/
section reads
variable {E : Type} [Element E] {fs fs' : FS}

theorem FS.contents_congr {f : FileId} (h : fs'.file f = fs.file f) : fs'.contents f = fs.contents f := by
  unfold FS.contents; rw [h]

theorem FS.readExactAt_congr {f : FileId} (h : fs'.file f = fs.file f) (a n : Nat) :
    fs'.readExactAt f a n = fs.readExactAt f a n := by
  unfold FS.readExactAt; rw [FS.contents_congr h]

theorem DiskStore.reads_congr {s : DiskStore E} (h : fs'.file s.file = fs.file s.file) :
    (∀ i, readAt fs' s i = readAt fs s i) ∧ (∀ a b, readRange fs' s a b = readRange fs s a b) ∧
    (∀ i buf, StoreOps.readInto (E := E) fs' s i buf = StoreOps.readInto (E := E) fs s i buf) ∧
    ∀ a b buf, StoreOps.readRangeInto (E := E) fs' s a b buf = StoreOps.readRangeInto (E := E) fs s a b buf := by
  have h := FS.readExactAt_congr h
  refine ⟨fun i => ?_, fun a b => ?_, fun i buf => ?_, fun a b buf => ?_⟩
  · show DiskStore.readAt fs' s i = DiskStore.readAt fs s i
    unfold DiskStore.readAt storeReadRange; simp only [h]
  · show DiskStore.readRange fs' s a b = DiskStore.readRange fs s a b
    unfold DiskStore.readRange storeReadRange; simp only [h]
  · show DiskStore.readInto fs' s i buf = DiskStore.readInto fs s i buf
    unfold DiskStore.readInto storeReadInto; simp only [h]
  · show DiskStore.readRangeInto fs' s a b buf = DiskStore.readRangeInto fs s a b buf
    unfold DiskStore.readRangeInto storeReadInto; simp only [h]

theorem MmapStore.reads_congr {s : MmapStore E} (h : fs'.file s.file = fs.file s.file) :
    (∀ i, readAt fs' s i = readAt fs s i) ∧ (∀ a b, readRange fs' s a b = readRange fs s a b) ∧
    (∀ i buf, StoreOps.readInto (E := E) fs' s i buf = StoreOps.readInto (E := E) fs s i buf) ∧
    ∀ a b buf, StoreOps.readRangeInto (E := E) fs' s a b buf = StoreOps.readRangeInto (E := E) fs s a b buf := by
  have h : ∀ a b, mapRead fs' s a b = mapRead fs s a b := fun a b => by
    unfold mapRead; rw [FS.contents_congr h]
  refine ⟨fun i => ?_, fun a b => ?_, fun i buf => ?_, fun a b buf => rfl⟩
  · show MmapStore.readAt fs' s i = MmapStore.readAt fs s i
    unfold MmapStore.readAt; simp only [h]
  · show MmapStore.readRange fs' s a b = MmapStore.readRange fs s a b
    unfold MmapStore.readRange; simp only [h]
  · show MmapStore.readInto fs' s i buf = MmapStore.readInto fs s i buf
    unfold MmapStore.readInto; simp only [h]

theorem LevelCacheStore.reads_congr {s : LevelCacheStore E} (h : fs'.file s.file = fs.file s.file)
    (hr : ∀ r, s.reader = some r → ∀ a b buf, r.read fs' a b buf = r.read fs a b buf) :
    (∀ i, readAt fs' s i = readAt fs s i) ∧ (∀ a b, readRange fs' s a b = readRange fs s a b) ∧
    (∀ i buf, StoreOps.readInto (E := E) fs' s i buf = StoreOps.readInto (E := E) fs s i buf) ∧
    ∀ a b buf, StoreOps.readRangeInto (E := E) fs' s a b buf = StoreOps.readRangeInto (E := E) fs s a b buf := by
  have h := FS.readExactAt_congr h
  have h1 : ∀ a b, storeReadRange fs' s a b = storeReadRange fs s a b := fun a b => by
    unfold storeReadRange
    cases e : s.reader with
    | none => simp only [h]
    | some r => simp only [h, hr r e]
  have h2 : ∀ a b buf, storeReadInto fs' s a b buf = storeReadInto fs s a b buf := fun a b buf => by
    unfold storeReadInto
    cases e : s.reader with
    | none => simp only [h]
    | some r => simp only [h, hr r e]
  refine ⟨fun i => ?_, fun a b => ?_, fun i buf => ?_, fun a b buf => ?_⟩
  · show LevelCacheStore.readAt fs' s i = LevelCacheStore.readAt fs s i
    unfold LevelCacheStore.readAt; simp only [h1]
  · show LevelCacheStore.readRange fs' s a b = LevelCacheStore.readRange fs s a b
    unfold LevelCacheStore.readRange; simp only [h1]
  · show LevelCacheStore.readInto fs' s i buf = LevelCacheStore.readInto fs s i buf
    unfold LevelCacheStore.readInto; simp only [h2]
  · show LevelCacheStore.readRangeInto fs' s a b buf = LevelCacheStore.readRangeInto fs s a b buf
    unfold LevelCacheStore.readRangeInto; simp only [h2]

theorem BaseTree.SameAnswers.of_reads {S : Type} [StoreOps S E] {t t' : BaseTree S E}
    (hs : t'.summary = t.summary)
    (h : (∀ i, StoreOps.readAt fs' t'.store i = StoreOps.readAt fs t.store i) ∧
      (∀ a b, StoreOps.readRange fs' t'.store a b = StoreOps.readRange fs t.store a b) ∧
      (∀ i buf, StoreOps.readInto (E := E) fs' t'.store i buf = StoreOps.readInto (E := E) fs t.store i buf) ∧
      ∀ a b buf, StoreOps.readRangeInto (E := E) fs' t'.store a b buf
        = StoreOps.readRangeInto (E := E) fs t.store a b buf) : BaseTree.SameAnswers fs t fs' t' := by
  have hs' := hs
  simp only [BaseTree.summary, Prod.mk.injEq] at hs'
  obtain ⟨ho, hl, hn, hr⟩ := hs'
  refine ⟨hs, h.1, fun i j => ?_, h.2.2.1, fun i j buf => ?_, fun b sub top i => ?_,
    fun A b sub top σ i rows => ?_⟩
  · unfold BaseTree.readRange; rw [h.2.1]
  · unfold BaseTree.readRangeInto; rw [h.2.2.2]
  · have : t'.readAt fs' = t.readAt fs := funext h.1
    unfold BaseTree.genProof
    simp only [this, hl, hr, hn, ho]
  · obtain ⟨r, e1, e2⟩ := BaseTree.genCachedProof_congr hl hr hn ho h.1 h.2.2.2 A b sub top σ i rows
    rw [e1, e2]

theorem BaseTree.Undisturbed.of_reads {S : Type} [StoreOps S E] {t : BaseTree S E}
    (h : (∀ i, StoreOps.readAt fs' t.store i = StoreOps.readAt fs t.store i) ∧
      (∀ a b, StoreOps.readRange fs' t.store a b = StoreOps.readRange fs t.store a b) ∧
      (∀ i buf, StoreOps.readInto (E := E) fs' t.store i buf = StoreOps.readInto (E := E) fs t.store i buf) ∧
      ∀ a b buf, StoreOps.readRangeInto (E := E) fs' t.store a b buf
        = StoreOps.readRangeInto (E := E) fs t.store a b buf) : t.Undisturbed fs fs' :=
  let a := BaseTree.SameAnswers.of_reads rfl h
  ⟨a.reads, a.ranges, a.readsInto, a.rangesInto, a.proofs, a.cachedProofs⟩

end reads

theorem ConfigOp.run_other {S E : Type} [Element E] [Confined S E] [FloatRows] {A : Alg E} {c : StoreConfig} :
    ∀ (ops : List (StoreConfig × ConfigOp S A)) (fs : FS),
    (∀ p ∈ ops, p.1.path = c.path ∧ p.1.id ≠ c.id ∧
      ∀ s, p.2.handle = some s → ∀ g, Confined.owns (E := E) s g → g = p.1.file) →
    (ConfigOp.run ops fs).file c.file = fs.file c.file
  | [], _, _ => rfl
  | p :: ops, fs, h => by
    have h0 := h p (by simp)
    refine (ConfigOp.run_other ops _ fun q hq => h q (by simp [hq])).trans ?_
    exact p.2.only h0.2.2 (file_ne h0.1 h0.2.1) fs

end Verif
