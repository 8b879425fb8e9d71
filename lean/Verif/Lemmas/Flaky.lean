import Verif.Model.Flaky
import Verif.Lemmas.Faulty
import Verif.Lemmas.Crash
import Verif.Spec.Torn
/-!
File stores over a disk that fails do what they do over one that does not, or return `Err`.
-/
set_option linter.unusedSectionVars false
namespace Verif
open StoreOps

section rules
variable {α' α β' β : Type} {F : Fault → Prop} {Q : β' → β → Prop}

theorem Res.Sim.bindEq {x' x : Res α} {f' : α → Res β'} {f : α → Res β}
    (h : Res.Sim F (· = ·) x' x) (hf : ∀ a, Res.Sim F Q (f' a) (f a)) :
    Res.Sim F Q (x' >>= f') (x >>= f) :=
  h.bind fun a' _ e => e ▸ hf a'

theorem M.Sim.bindEq {x' x : M α} {f' : α → M β'} {f : α → M β}
    (h : M.Sim F (· = ·) x' x) (hf : ∀ a, M.Sim F Q (f' a) (f a)) :
    M.Sim F Q (x' >>= f') (x >>= f) :=
  h.bind fun a' _ e => e ▸ hf a'

end rules

namespace Flaky
variable {α : Type} {p : IoPlan}

theorem sim_rd (op : IoOp) (fs : FS) (x : Res α) : Res.Sim Fault.IsErr (· = ·) (rd p op fs x) x := by
  unfold rd
  split
  · exact .inl trivial
  · exact Res.Sim.rfl

theorem sim_io (op : IoOp) (x : M α) : M.Sim Fault.IsErr (· = ·) (io p op x) x := by
  intro fs
  by_cases hc : p.fails op fs = true
  · rw [show io p op x fs = (ioError, p.left op fs) from if_pos hc]
    exact .inl trivial
  · rw [show io p op x fs = x fs from if_neg hc]
    exact M.Sim.rfl (x := x) fs

/-- A place to fail that the other side does not have. -/
theorem sim_check {β' β : Type} {Q : β' → β → Prop} {f' : Unit → M β'} {y : M β} (op : IoOp)
    (h : M.Sim Fault.IsErr Q (f' ()) y) : M.Sim Fault.IsErr Q (check p op >>= f') y := by
  intro fs
  by_cases hc : p.fails op fs = true
  · rw [M.bind_error (show check p op fs = (.error (.err "I/O error"), fs) from if_pos hc)]
    exact .inl trivial
  · rw [M.bind_ok (show check p op fs = (.ok (), fs) from if_neg hc)]
    exact h fs

theorem sim_checkOpen {β' β : Type} {Q : β' → β → Prop} {f' : Unit → M β'} {y : M β} (f : FileId)
    (h : M.Sim Fault.IsErr Q (f' ()) y) : M.Sim Fault.IsErr Q (checkOpen p f >>= f') y := by
  intro fs
  by_cases hc : (p.fails (.open f true) fs && p.fails (.open f false) fs) = true
  · rw [M.bind_error (show checkOpen p f fs = (.error (.err "I/O error"), fs) from if_pos hc)]
    exact .inl trivial
  · rw [M.bind_ok (show checkOpen p f fs = (.ok (), fs) from if_neg hc)]
    exact h fs

theorem pathExists_run (g : FileId) (fs : FS) : pathExists p g fs =
    (.ok (!p.fails (.probe g) fs && (fs.file g).isSome), fs) := by
  unfold pathExists M.get
  dsimp only
  cases p.fails (.probe g) fs <;> rfl

theorem sim_rd_bind {β : Type} {f' : Unit → Res β} {y : Res β} (op : IoOp) (fs : FS)
    (h : Res.Sim Fault.IsErr (· = ·) (f' ()) y) :
    Res.Sim Fault.IsErr (· = ·) (rd p op fs (.ok ()) >>= f') y := by
  unfold rd
  split
  · exact .inl trivial
  · exact h

/-- A constructor that insists on an existing file. -/
theorem sim_mustExist {β' β : Type} {Q : β' → β → Prop} {f' : Unit → M β'} {f : Unit → M β} (g : FileId)
    (msg : String) (h : M.Sim Fault.IsErr Q (f' ()) (f ())) :
    M.Sim Fault.IsErr Q (pathExists p g >>= fun ex => mEnsure (ex = true) msg >>= f')
      (FS.pathExists g >>= fun ex => mEnsure (ex = true) msg >>= f) := by
  intro fs
  rw [M.bind_ok (pathExists_run g fs),
    M.bind_ok (show FS.pathExists g fs = (.ok (fs.file g).isSome, fs) from rfl)]
  cases p.fails (.probe g) fs with
  | true => exact .inl trivial
  | false =>
    cases (fs.file g).isSome with
    | false => exact .inl trivial
    | true => exact h fs

/-- A constructor that opens or creates a file. -/
theorem sim_openOrCreate {β' β : Type} {Q : β' → β → Prop} (g : FileId)
    {x' : M β'} {x : M β} {f' : Unit → M β'} {f : Unit → M β}
    (h1 : M.Sim Fault.IsErr Q x' x) (h2 : M.Sim Fault.IsErr Q (f' ()) (f ())) :
    M.Sim Fault.IsErr Q
      (pathExists p g >>= fun ex => if ex = true then x' else io p (.create g) (FS.createNew g) >>= f')
      (FS.pathExists g >>= fun ex => if ex = true then x else FS.createNew g >>= f) := by
  have h3 : M.Sim Fault.IsErr Q (io p (.create g) (FS.createNew g) >>= f') (FS.createNew g >>= f) :=
    (sim_io _ _).bindEq fun _ => h2
  intro fs
  rw [M.bind_ok (pathExists_run g fs),
    M.bind_ok (show FS.pathExists g fs = (.ok (fs.file g).isSome, fs) from rfl)]
  cases hg : fs.file g with
  | none =>
    rw [show (!p.fails (.probe g) fs && (none : Option Bytes).isSome) = false from Bool.and_false _]
    exact h3 fs
  | some c =>
    cases p.fails (.probe g) fs with
    | false => exact h1 fs
    | true =>
      by_cases hd : p.fails (.create g) fs = true
      · have e : io p (.create g) (FS.createNew g) fs = (.error (.err "I/O error"), p.left (.create g) fs) :=
          if_pos hd
        rw [show (!true && (some c).isSome) = false from rfl, if_neg Bool.false_ne_true, M.bind_error e]
        exact .inl trivial
      · have e : io p (.create g) (FS.createNew g) fs = (.error (.err "File exists"), fs) := by
          refine (if_neg hd).trans ?_
          unfold FS.createNew
          rw [hg]
        rw [show (!true && (some c).isSome) = false from rfl, if_neg Bool.false_ne_true, M.bind_error e]
        exact .inl trivial

theorem sim_fileLen (fs : FS) (f : FileId) : Res.Sim Fault.IsErr (· = ·) (fileLen p fs f) (fs.fileLen f) :=
  sim_rd _ _ _

theorem sim_readExactAt (fs : FS) (f : FileId) (off n : Nat) :
    Res.Sim Fault.IsErr (· = ·) (readExactAt p fs f off n) (fs.readExactAt f off n) := sim_rd _ _ _

theorem sim_readContext {a b : Nat} (hab : a ≤ b) {x' x : Res α} (h : Res.Sim Fault.IsErr (· = ·) x' x) :
    Res.Sim Fault.IsErr (· = ·) (readContext a b x') (readContext a b x) := by
  have e : subP b a = .ok (b - a) := if_pos hab
  cases x' with
  | ok r => obtain ⟨s, rfl, rfl⟩ := h; exact Res.Sim.rfl
  | error f =>
    rcases h with h | rfl
    · obtain ⟨m, rfl⟩ := h.exists
      unfold readContext
      rw [e]
      exact .inl trivial
    · exact Res.Sim.rfl

theorem sim_wrap {S : Type} {x' x : M S} (h : M.Sim Fault.IsErr (· = ·) x' x) :
    M.Sim Fault.IsErr (fun t' t => On.inner t' = t) (wrap (p := p) x') x := by
  intro fs
  have h := h fs
  unfold wrap
  rw [M.bind_run]
  cases hx : x' fs with
  | mk r fs' =>
    rw [hx] at h
    cases r with
    | error e => exact h
    | ok a => exact h

theorem sim_wrapBuild {S E : Type} {x' x : M (E × S)} (h : M.Sim Fault.IsErr (· = ·) x' x) :
    M.Sim Fault.IsErr (fun t' t => t'.1 = t.1 ∧ On.inner t'.2 = t.2) (wrapBuild (p := p) x') x := by
  intro fs
  have h := h fs
  unfold wrapBuild
  rw [M.bind_run]
  cases hx : x' fs with
  | mk r fs' =>
    rw [hx] at h
    cases r with
    | error e => exact h
    | ok a => obtain ⟨b, hb, rfl⟩ := h; exact ⟨a, hb, rfl, rfl⟩

/-- A layer written through a memory map. -/
theorem sim_mapLayer {S : Type} {rd' rd : Nat → S → FS → Res Bytes} {wr : Nat → Bytes → S → M S}
    (h : ∀ t s fs, Res.Sim Fault.IsErr (· = ·) (rd' t s fs) (rd t s fs)) (ts : List Nat)
    (pend : Nat → Option Bytes) (s : S) :
    M.Sim Fault.IsErr (· = ·) (runSteps rd' wr ts pend s) (runSteps rd wr ts pend s) :=
  MayFail.runSteps_sim (erase := id) h (fun _ _ _ => M.Sim.rfl) ts pend s

/-! ### `DiskStore` -/
namespace Disk
variable {E : Type} [Element E]

theorem sim_storeReadRange (fs : FS) (s : DiskStore E) (a b : Nat) :
    Res.Sim Fault.IsErr (· = ·) (storeReadRange p fs s a b) (DiskStore.storeReadRange fs s a b) :=
  Res.Sim.step fun _ => sim_readExactAt _ _ _ _

theorem sim_storeReadInto (fs : FS) (s : DiskStore E) {a b : Nat} (h : a ≤ b) (buf : Bytes) :
    Res.Sim Fault.IsErr (· = ·) (storeReadInto p fs s a b buf) (DiskStore.storeReadInto fs s a b buf) :=
  sim_readContext h (sim_readExactAt _ _ _ _)

theorem sim_storeCopyFromSlice (s : DiskStore E) (a : Nat) (bs : Bytes) :
    M.Sim Fault.IsErr (· = ·) (storeCopyFromSlice p s a bs) (DiskStore.storeCopyFromSlice s a bs) :=
  M.Sim.step fun _ => sim_io _ _

theorem sim_readAt (fs : FS) (s : DiskStore E) (i : Nat) :
    Res.Sim Fault.IsErr (· = ·) (readAt p fs s i) (DiskStore.readAt fs s i) :=
  Res.Sim.step fun _ => (sim_storeReadRange fs s _ _).bindEq fun _ => Res.Sim.rfl

theorem sim_readRange (fs : FS) (s : DiskStore E) (a b : Nat) :
    Res.Sim Fault.IsErr (· = ·) (readRange p fs s a b) (DiskStore.readRange fs s a b) :=
  Res.Sim.step fun _ => (sim_storeReadRange fs s _ _).bindEq fun _ => Res.Sim.rfl

theorem sim_readInto (fs : FS) (s : DiskStore E) (i : Nat) (buf : Bytes) :
    Res.Sim Fault.IsErr (· = ·) (readInto p fs s i buf) (DiskStore.readInto fs s i buf) :=
  Res.Sim.step fun _ => sim_storeReadInto fs s (Nat.le_add_right _ _) buf

theorem sim_readRangeInto (fs : FS) (s : DiskStore E) {a b : Nat} (h : a ≤ b) (buf : Bytes) :
    Res.Sim Fault.IsErr (· = ·) (readRangeInto p fs s a b buf) (DiskStore.readRangeInto fs s a b buf) :=
  Res.Sim.step fun _ => sim_storeReadInto fs s (Nat.mul_le_mul_right _ h) buf

theorem sim_writeAt (s : DiskStore E) (e : E) (i : Nat) :
    M.Sim Fault.IsErr (· = ·) (writeAt p s e i) (DiskStore.writeAt s e i) :=
  (sim_storeCopyFromSlice s _ _).bindEq fun _ => M.Sim.rfl

theorem sim_copyFromSlice (s : DiskStore E) (buf : Bytes) (i : Nat) :
    M.Sim Fault.IsErr (· = ·) (copyFromSlice p s buf i) (DiskStore.copyFromSlice s buf i) :=
  M.Sim.step fun _ => M.Sim.step fun _ => (sim_storeCopyFromSlice s _ _).bindEq fun _ => M.Sim.rfl

theorem sim_push (s : DiskStore E) (e : E) :
    M.Sim Fault.IsErr (· = ·) (push p s e) (DiskStore.push s e) :=
  M.Sim.step fun _ => sim_writeAt s e _

theorem sim_last (fs : FS) (s : DiskStore E) :
    Res.Sim Fault.IsErr (· = ·) (last p fs s) (StoreOps.last fs s) :=
  Res.Sim.step fun _ => sim_readAt fs s _

theorem sim_new (n : Nat) : M.Sim Fault.IsErr (· = ·) (new p n : M (DiskStore E)) (DiskStore.new n) :=
  (sim_io _ _).bindEq fun _ => (sim_io _ _).bindEq fun _ => M.Sim.rfl

theorem sim_newFromDisk (n b : Nat) (c : StoreConfig) :
    M.Sim Fault.IsErr (· = ·) (newFromDisk p n b c : M (DiskStore E)) (DiskStore.newFromDisk n b c) := by
  unfold newFromDisk newFromDiskWithPath DiskStore.newFromDisk DiskStore.newFromDiskWithPath
  refine sim_mustExist _ _ (sim_checkOpen _ (M.Sim.step fun _ => ?_))
  exact (M.Sim.get fun fs => sim_fileLen fs _).bindEq fun _ => M.Sim.rfl

theorem sim_newWithConfig (n b : Nat) (c : StoreConfig) :
    M.Sim Fault.IsErr (· = ·) (newWithConfig p n b c : M (DiskStore E)) (DiskStore.newWithConfig n b c) :=
  sim_openOrCreate _ (sim_newFromDisk n b c) ((sim_io _ _).bindEq fun _ => M.Sim.rfl)

theorem sim_newFromSlice (n : Nat) (bs : Bytes) :
    M.Sim Fault.IsErr (· = ·) (newFromSlice p n bs : M (DiskStore E)) (DiskStore.newFromSlice n bs) :=
  M.Sim.step fun _ => M.Sim.step fun _ => (sim_new n).bindEq fun s =>
    (sim_storeCopyFromSlice s _ _).bindEq fun _ => M.Sim.rfl

theorem sim_newFromSliceWithConfig (n b : Nat) (bs : Bytes) (c : StoreConfig) :
    M.Sim Fault.IsErr (· = ·) (newFromSliceWithConfig p n b bs c : M (DiskStore E))
      (DiskStore.newFromSliceWithConfig n b bs c) := by
  unfold newFromSliceWithConfig DiskStore.newFromSliceWithConfig
  refine M.Sim.step fun _ => M.Sim.step fun _ => (sim_newWithConfig n b c).bindEq fun s => ?_
  split
  · exact M.Sim.rfl
  · exact (sim_storeCopyFromSlice s _ _).bindEq fun _ => M.Sim.rfl

theorem sim_processLayer (A : Alg E) (b : Nat) (σ : Sched) (s : DiskStore E) (w l r x : Nat) :
    M.Sim Fault.IsErr (· = ·) (processLayer p A b σ s w l r x) (DiskStore.processLayer A b σ s w l r x) := by
  unfold processLayer DiskStore.processLayer
  refine sim_check _ (M.Sim.step fun _ => M.Sim.step fun _ => sim_mapLayer (fun t s fs => ?_) _ _ _)
  exact (sim_readRange fs s _ _).bindEq fun _ => Res.Sim.rfl

theorem sim_buildLoop (A : Alg E) (b : Nat) (σ : Sched) : ∀ (f w l x : Nat) (s : DiskStore E),
    M.Sim Fault.IsErr (· = ·) (buildLoop p A b σ f w l x s) (DiskStore.buildLoop A b σ f w l x s)
  | 0, _, _, _, _ => M.Sim.throw _
  | f + 1, w, l, x, s => by
    unfold buildLoop DiskStore.buildLoop
    split
    · exact (sim_processLayer A b σ s _ _ _ _).bindEq fun s => sim_buildLoop A b σ f _ _ _ _
    · exact M.Sim.rfl

theorem sim_build (A : Alg E) (b : Nat) (σ : Sched) (s : DiskStore E) (n rows : Nat)
    (c : Option StoreConfig) :
    M.Sim Fault.IsErr (· = ·) (build p A b σ s n rows c) (DiskStore.build A b σ s n rows c) := by
  unfold build DiskStore.build
  refine M.Sim.step fun _ => M.Sim.step fun _ => M.Sim.step fun _ => ?_
  refine (sim_buildLoop A b σ _ _ _ _ s).bindEq fun x => ?_
  refine M.Sim.step fun _ => M.Sim.step fun _ => M.Sim.step fun _ => ?_
  exact (M.Sim.get fun fs => sim_last fs _).bindEq fun _ => M.Sim.rfl

theorem sim_compactFile (f : FileId) (v1 : Bool) (x y z : Nat) :
    M.Sim Fault.IsErr (· = ·) (compactFile p E f v1 x y z) (DiskStore.compactFile E f v1 x y z) := by
  unfold compactFile DiskStore.compactFile
  refine sim_check _ (M.Sim.step fun _ => (sim_io _ _).bindEq fun _ => M.Sim.step fun _ => ?_)
  exact (sim_io _ _).bindEq fun _ => M.Sim.rfl

theorem sim_isConsistent (fs : FS) (n b : Nat) (c : StoreConfig) :
    Res.Sim Fault.IsErr (· = ·) (isConsistent p E fs n b c) (DiskStore.isConsistent E fs n b c) :=
  sim_rd_bind _ _ ((sim_fileLen fs _).bindEq fun _ => Res.Sim.rfl)

end Disk

/-! ### `LevelCacheStore` -/
namespace Cache
variable {E : Type} [Element E]

theorem sim_newFromDiskWithReader [FloatRows] (n b : Nat) (c : StoreConfig) (r : ExternalReader) :
    M.Sim Fault.IsErr (· = ·) (newFromDiskWithReader p n b c r : M (LevelCacheStore E))
      (LevelCacheStore.newFromDiskWithReader n b c r) := by
  unfold newFromDiskWithReader LevelCacheStore.newFromDiskWithReader
  refine sim_mustExist _ _ (sim_checkOpen _ ?_)
  exact (M.Sim.get fun fs => sim_fileLen fs _).bindEq fun _ => M.Sim.rfl

theorem sim_newFromDisk [FloatRows] (n b : Nat) (c : StoreConfig) :
    M.Sim Fault.IsErr (· = ·) (newFromDisk p n b c : M (LevelCacheStore E))
      (LevelCacheStore.newFromDisk n b c) := by
  unfold newFromDisk LevelCacheStore.newFromDisk
  refine sim_mustExist _ _ (sim_checkOpen _ ?_)
  exact (M.Sim.get fun fs => sim_fileLen fs _).bindEq fun _ => M.Sim.rfl

theorem sim_newWithConfig [FloatRows] (n b : Nat) (c : StoreConfig) :
    M.Sim Fault.IsErr (· = ·) (newWithConfig p n b c : M (LevelCacheStore E))
      (LevelCacheStore.newWithConfig n b c) :=
  sim_openOrCreate _ (sim_newFromDisk n b c)
    (M.Sim.step fun _ => (sim_io _ _).bindEq fun _ => M.Sim.rfl)

theorem sim_new (n : Nat) :
    M.Sim Fault.IsErr (· = ·) (new p n : M (LevelCacheStore E)) (LevelCacheStore.new n) :=
  (sim_io _ _).bindEq fun _ => (sim_io _ _).bindEq fun _ => M.Sim.rfl

theorem sim_storeCopyFromSlice (s : LevelCacheStore E) (a : Nat) (bs : Bytes) :
    M.Sim Fault.IsErr (· = ·) (storeCopyFromSlice p s a bs) (LevelCacheStore.storeCopyFromSlice s a bs) :=
  M.Sim.step fun _ => sim_io _ _

theorem sim_newFromSlice (n : Nat) (bs : Bytes) :
    M.Sim Fault.IsErr (· = ·) (newFromSlice p n bs : M (LevelCacheStore E))
      (LevelCacheStore.newFromSlice n bs) :=
  M.Sim.step fun _ => M.Sim.step fun _ => (sim_new n).bindEq fun s =>
    (sim_storeCopyFromSlice s _ _).bindEq fun _ => M.Sim.rfl

theorem sim_newFromSliceWithConfig [FloatRows] (n b : Nat) (bs : Bytes) (c : StoreConfig) :
    M.Sim Fault.IsErr (· = ·) (newFromSliceWithConfig p n b bs c : M (LevelCacheStore E))
      (LevelCacheStore.newFromSliceWithConfig n b bs c) := by
  unfold newFromSliceWithConfig LevelCacheStore.newFromSliceWithConfig
  refine M.Sim.step fun _ => M.Sim.step fun _ => (sim_newWithConfig n b c).bindEq fun s => ?_
  split
  · exact M.Sim.rfl
  · exact (sim_storeCopyFromSlice s _ _).bindEq fun _ => M.Sim.rfl

theorem sim_writeAt (s : LevelCacheStore E) (e : E) (i : Nat) :
    M.Sim Fault.IsErr (· = ·) (writeAt p s e i) (LevelCacheStore.writeAt s e i) :=
  (sim_storeCopyFromSlice s _ _).bindEq fun _ => M.Sim.rfl

theorem sim_copyFromSlice (s : LevelCacheStore E) (buf : Bytes) (i : Nat) :
    M.Sim Fault.IsErr (· = ·) (copyFromSlice p s buf i) (LevelCacheStore.copyFromSlice s buf i) :=
  M.Sim.step fun _ => M.Sim.step fun _ => (sim_storeCopyFromSlice s _ _).bindEq fun _ => M.Sim.rfl

theorem sim_push (s : LevelCacheStore E) (e : E) :
    M.Sim Fault.IsErr (· = ·) (push p s e) (LevelCacheStore.push s e) :=
  M.Sim.step fun _ => sim_writeAt s e _

theorem sim_storeReadRange (fs : FS) (s : LevelCacheStore E) (a b : Nat) :
    Res.Sim Fault.IsErr (· = ·) (storeReadRange p fs s a b) (LevelCacheStore.storeReadRange fs s a b) := by
  unfold storeReadRange LevelCacheStore.storeReadRange
  refine Res.Sim.step fun _ => Res.Sim.step fun _ => ?_
  cases s.reader with
  | none => exact sim_readExactAt _ _ _ _
  | some r =>
    dsimp only
    split
    · exact sim_rd _ _ _
    · exact sim_readExactAt _ _ _ _

theorem sim_storeReadInto (fs : FS) (s : LevelCacheStore E) {a b : Nat} (h : a ≤ b) (buf : Bytes) :
    Res.Sim Fault.IsErr (· = ·) (storeReadInto p fs s a b buf)
      (LevelCacheStore.storeReadInto fs s a b buf) := by
  unfold storeReadInto LevelCacheStore.storeReadInto
  refine Res.Sim.step fun _ => ?_
  cases s.reader with
  | none => exact sim_readContext h (sim_readExactAt _ _ _ _)
  | some r =>
    dsimp only
    split
    · exact sim_readContext h (sim_rd _ _ _)
    · exact sim_readContext h (sim_readExactAt _ _ _ _)

theorem sim_storeReadRangeInternal (fs : FS) (s : LevelCacheStore E) (a b : Nat) :
    Res.Sim Fault.IsErr (· = ·) (storeReadRangeInternal p fs s a b)
      (LevelCacheStore.storeReadRangeInternal fs s a b) :=
  Res.Sim.step fun _ => Res.Sim.step fun _ => sim_readExactAt _ _ _ _

theorem sim_readAt (fs : FS) (s : LevelCacheStore E) (i : Nat) :
    Res.Sim Fault.IsErr (· = ·) (readAt p fs s i) (LevelCacheStore.readAt fs s i) :=
  Res.Sim.step fun _ => (sim_storeReadRange fs s _ _).bindEq fun _ => Res.Sim.rfl

theorem sim_readRange (fs : FS) (s : LevelCacheStore E) (a b : Nat) :
    Res.Sim Fault.IsErr (· = ·) (readRange p fs s a b) (LevelCacheStore.readRange fs s a b) :=
  Res.Sim.step fun _ => (sim_storeReadRange fs s _ _).bindEq fun _ => Res.Sim.rfl

theorem sim_readInto (fs : FS) (s : LevelCacheStore E) (i : Nat) (buf : Bytes) :
    Res.Sim Fault.IsErr (· = ·) (readInto p fs s i buf) (LevelCacheStore.readInto fs s i buf) :=
  Res.Sim.step fun _ => sim_storeReadInto fs s (Nat.le_add_right _ _) buf

theorem sim_readRangeInto (fs : FS) (s : LevelCacheStore E) {a b : Nat} (h : a ≤ b) (buf : Bytes) :
    Res.Sim Fault.IsErr (· = ·) (readRangeInto p fs s a b buf)
      (LevelCacheStore.readRangeInto fs s a b buf) :=
  Res.Sim.step fun _ => sim_storeReadInto fs s (Nat.mul_le_mul_right _ h) buf

theorem sim_readRangeInternal (fs : FS) (s : LevelCacheStore E) (a b : Nat) :
    Res.Sim Fault.IsErr (· = ·) (readRangeInternal p fs s a b)
      (LevelCacheStore.readRangeInternal fs s a b) :=
  Res.Sim.step fun _ => (sim_storeReadRangeInternal fs s _ _).bindEq fun _ => Res.Sim.rfl

theorem sim_readAtInternal (fs : FS) (s : LevelCacheStore E) (i : Nat) :
    Res.Sim Fault.IsErr (· = ·) (readAtInternal p fs s i) (LevelCacheStore.readAtInternal fs s i) :=
  Res.Sim.step fun _ => (sim_storeReadRangeInternal fs s _ _).bindEq fun _ => Res.Sim.rfl

theorem sim_processLayer (A : Alg E) (b : Nat) (σ : Sched) (s : LevelCacheStore E) (w l r x : Nat) :
    M.Sim Fault.IsErr (· = ·) (processLayer p A b σ s w l r x)
      (LevelCacheStore.processLayer A b σ s w l r x) := by
  unfold processLayer LevelCacheStore.processLayer
  refine sim_check _ (M.Sim.step fun _ => M.Sim.step fun _ => sim_mapLayer (fun t s fs => ?_) _ _ _)
  exact (sim_readRangeInternal fs s _ _).bindEq fun _ => Res.Sim.rfl

theorem sim_frontTruncate (s : LevelCacheStore E) (c : StoreConfig) (n : Nat) :
    M.Sim Fault.IsErr (· = ·) (frontTruncate p s c n) (LevelCacheStore.frontTruncate s c n) := by
  unfold frontTruncate LevelCacheStore.frontTruncate
  refine (M.Sim.get fun fs => sim_fileLen fs _).bindEq fun _ => M.Sim.step fun _ => ?_
  refine sim_check _ (sim_check _ (sim_check _ (M.Sim.step fun _ => sim_check _ ?_)))
  refine (sim_io _ _).bindEq fun _ => M.Sim.step fun _ => ?_
  exact (sim_io _ _).bindEq fun _ => M.Sim.rfl

theorem sim_buildLoop (A : Alg E) (b : Nat) (σ : Sched) (c : StoreConfig) (ci : Nat) :
    ∀ (f w l x : Nat) (s : LevelCacheStore E), M.Sim Fault.IsErr (· = ·)
      (buildLoop p A b σ c ci f w l x s) (LevelCacheStore.buildLoop A b σ c ci f w l x s)
  | 0, _, _, _, _ => M.Sim.throw _
  | f + 1, w, l, x, s => by
    unfold buildLoop LevelCacheStore.buildLoop
    split
    · refine (sim_processLayer A b σ s _ _ _ _).bindEq fun s => ?_
      refine M.Sim.bindEq ?_ fun s => sim_buildLoop A b σ c ci f _ _ _ _
      split
      · exact sim_frontTruncate s c w
      · exact M.Sim.rfl
    · exact M.Sim.rfl

theorem sim_build [FloatRows] (A : Alg E) (b : Nat) (σ : Sched) (s : LevelCacheStore E) (n rows : Nat)
    (c : Option StoreConfig) :
    M.Sim Fault.IsErr (· = ·) (build p A b σ s n rows c) (LevelCacheStore.build A b σ s n rows c) := by
  unfold build LevelCacheStore.build
  refine M.Sim.step fun _ => M.Sim.step fun _ => M.Sim.step fun _ => ?_
  cases c with
  | none => exact M.Sim.rfl
  | some c =>
    refine M.Sim.step fun _ => M.Sim.step fun _ => M.Sim.step fun _ => ?_
    refine (sim_buildLoop A b σ c _ _ _ _ _ s).bindEq fun x => ?_
    refine M.Sim.step fun _ => M.Sim.step fun _ => M.Sim.step fun _ => M.Sim.step fun _ =>
      M.Sim.step fun _ => ?_
    exact (M.Sim.get fun fs => sim_readAtInternal fs _ _).bindEq fun _ => M.Sim.rfl

theorem sim_isConsistentV1 [FloatRows] (fs : FS) (n b : Nat) (c : StoreConfig) :
    Res.Sim Fault.IsErr (· = ·) (isConsistentV1 p E fs n b c)
      (LevelCacheStore.isConsistentV1 E fs n b c) :=
  sim_rd_bind _ _ ((sim_fileLen fs _).bindEq fun _ => Res.Sim.rfl)

theorem sim_isConsistent [FloatRows] (fs : FS) (n b : Nat) (c : StoreConfig) :
    Res.Sim Fault.IsErr (· = ·) (isConsistent p E fs n b c) (LevelCacheStore.isConsistent E fs n b c) :=
  sim_rd_bind _ _ ((sim_fileLen fs _).bindEq fun _ => Res.Sim.rfl)

end Cache

/-! ### The stores -/
section instances
variable {E : Type} [Element E]

instance : MayFailOps (On p (DiskStore E)) (DiskStore E) E where
  erase := On.inner
  len _ := rfl
  isEmpty _ := rfl
  loaded _ := rfl
  readAt fs s i := Disk.sim_readAt fs s.inner i
  readRange fs s a b := Disk.sim_readRange fs s.inner a b
  readInto fs s i buf := Disk.sim_readInto fs s.inner i buf
  readRangeInto fs s _ _ buf h := Disk.sim_readRangeInto fs s.inner h buf
  writeAt s e i := sim_wrap (Disk.sim_writeAt s.inner e i)
  copyFromSlice s buf i := sim_wrap (Disk.sim_copyFromSlice s.inner buf i)
  push s e := sim_wrap (Disk.sim_push s.inner e)

instance [FloatRows] : MayFail (On p (DiskStore E)) (DiskStore E) E where
  new n := sim_wrap (Disk.sim_new n)
  newWithConfig n b c := sim_wrap (Disk.sim_newWithConfig n b c)
  newFromSlice n bs := sim_wrap (Disk.sim_newFromSlice n bs)
  newFromSliceWithConfig n b bs c := sim_wrap (Disk.sim_newFromSliceWithConfig n b bs c)
  build A b σ s n rows c := sim_wrapBuild (Disk.sim_build A b σ s.inner n rows c)

instance : MayFailOps (On p (LevelCacheStore E)) (LevelCacheStore E) E where
  erase := On.inner
  len _ := rfl
  isEmpty _ := rfl
  loaded _ := rfl
  readAt fs s i := Cache.sim_readAt fs s.inner i
  readRange fs s a b := Cache.sim_readRange fs s.inner a b
  readInto fs s i buf := Cache.sim_readInto fs s.inner i buf
  readRangeInto fs s _ _ buf h := Cache.sim_readRangeInto fs s.inner h buf
  writeAt s e i := sim_wrap (Cache.sim_writeAt s.inner e i)
  copyFromSlice s buf i := sim_wrap (Cache.sim_copyFromSlice s.inner buf i)
  push s e := sim_wrap (Cache.sim_push s.inner e)

instance [FloatRows] : MayFail (On p (LevelCacheStore E)) (LevelCacheStore E) E where
  new n := sim_wrap (Cache.sim_new n)
  newWithConfig n b c := sim_wrap (Cache.sim_newWithConfig n b c)
  newFromSlice n bs := sim_wrap (Cache.sim_newFromSlice n bs)
  newFromSliceWithConfig n b bs c := sim_wrap (Cache.sim_newFromSliceWithConfig n b bs c)
  build A b σ s n rows c := sim_wrapBuild (Cache.sim_build A b σ s.inner n rows c)

end instances

/-! ### Replicas -/
section replica
variable {E : Type} [Element E] [FloatRows]

theorem sim_newReader (rc : ReplicaConfig) (i : Nat) :
    M.Sim Fault.IsErr (· = ·) (newReader p rc i) (ExternalReader.newFromConfig rc i) :=
  sim_check _ M.Sim.rfl

theorem sim_fromStoreConfigsAndReplica (A : Alg E) (b sub leafs : Nat) (cs : List StoreConfig)
    (rc : ReplicaConfig) :
    M.Sim Fault.IsErr (fun t' t => Node.mapChildren (BaseTree.mapStore On.inner) t' = t)
      (fromStoreConfigsAndReplica p A b sub leafs cs rc)
      (Verif.fromStoreConfigsAndReplica A b sub leafs cs rc) := by
  unfold fromStoreConfigsAndReplica Verif.fromStoreConfigsAndReplica
  refine M.Sim.step fun _ => ?_
  refine M.Sim.bind (MayFail.collectM_sim (h := BaseTree.mapStore On.inner) (fun c => ?_) _) ?_
  · refine M.Sim.step fun _ => (sim_newReader rc c.2).bindEq fun r => ?_
    refine M.Sim.bind (sim_wrap (Cache.sim_newFromDiskWithReader _ _ _ _)) fun s' s h => ?_
    subst h
    exact M.Sim.get fun fs => MayFail.fromDataStore_sim b 0 0 s' leafs fs
  · rintro ts' ts rfl
    exact M.Sim.ofRes (MayFail.fromTrees_sim A sub ts')

theorem sim_fromSubTreeStoreConfigsAndReplica (A : Alg E) (b sub top leafs : Nat) (cs : List StoreConfig)
    (rc : ReplicaConfig) :
    M.Sim Fault.IsErr (fun t' t => Node.mapChildren (Tree1.mapStore On.inner) t' = t)
      (fromSubTreeStoreConfigsAndReplica p A b sub top leafs cs rc)
      (Verif.fromSubTreeStoreConfigsAndReplica A b sub top leafs cs rc) := by
  unfold fromSubTreeStoreConfigsAndReplica Verif.fromSubTreeStoreConfigsAndReplica
  refine M.Sim.step fun _ => M.Sim.step fun _ => ?_
  refine M.Sim.bind (MayFail.collectM_sim (h := Tree1.mapStore On.inner) (fun c => ?_) _) ?_
  · refine M.Sim.bind (sim_fromStoreConfigsAndReplica A b sub leafs _ _) fun t' t h => ?_
    subst h
    exact M.Sim.pure rfl
  · rintro ts' ts rfl
    exact M.Sim.ofRes (MayFail.fromSubTrees_sim A top ts')

end replica
/-! ### Runs that leave the files alone -/

/-- `x` changes no file. -/
structure _root_.Verif.M.Still {α : Type} (x : M α) : Prop where
  run : ∀ fs, (x fs).2 = fs

theorem _root_.Verif.M.Still.pure {α : Type} (a : α) : M.Still (Pure.pure a : M α) := ⟨fun _ => rfl⟩
theorem _root_.Verif.M.Still.ofRes {α : Type} (x : Res α) : M.Still (M.ofRes x) := ⟨fun _ => rfl⟩
theorem _root_.Verif.M.Still.get {α : Type} (f : FS → Res α) : M.Still (M.get f) := ⟨fun _ => rfl⟩
theorem _root_.Verif.M.Still.bind {α β : Type} {x : M α} {f : α → M β} (h : M.Still x) (hf : ∀ a, M.Still (f a)) :
    M.Still (x >>= f) := by
  refine ⟨fun fs => ?_⟩
  have h := h.run fs
  rw [M.bind_run]
  cases hx : x fs with
  | mk r fs' =>
    rw [hx] at h
    cases r with
    | error e => exact h
    | ok a => exact ((hf a).run fs').trans h
theorem still_pathExists (g : FileId) : M.Still (pathExists p g) := .get _
theorem still_checkOpen (g : FileId) : M.Still (checkOpen p g) := by
  refine ⟨fun fs => ?_⟩
  unfold checkOpen
  split <;> rfl

/-! ### Compaction -/
section compact
variable {E : Type} [Element E] [FloatRows]

theorem prefix_cases (c : StoreConfig) (a : Nat) (fs : FS) :
    (do
      check p (.open c.file false)
      check p (.seek c.file a)
      check p (.open c.file true) : M Unit) fs = (.error (.err "I/O error"), fs) ∨
    (do
      check p (.open c.file false)
      check p (.seek c.file a)
      check p (.open c.file true) : M Unit) fs = (.ok (), fs) := by
  have h : ∀ op, check p op fs = (.error (.err "I/O error"), fs) ∨ check p op fs = (.ok (), fs) := by
    intro op
    by_cases hc : p.fails op fs = true
    · exact .inl (if_pos hc)
    · exact .inr (if_neg hc)
  rcases h (.open c.file false) with h1 | h1
  · exact .inl (M.bind_error h1)
  rcases h (.seek c.file a) with h2 | h2
  · exact .inl ((M.bind_ok h1).trans (M.bind_error h2))
  · rw [M.bind_ok h1, M.bind_ok h2]
    exact h _

theorem compact_err_or_eq (s : DiskStore E) (b : Nat) (c : StoreConfig) (v : Nat) (fs : FS) :
    (Disk.compact p s b c v fs).1.IsErr ∨ Disk.compact p s b c v fs = DiskStore.compact s b c v fs := by
  unfold Disk.compact DiskStore.compact
  cases s.compactPlan b c with
  | error e => exact .inr rfl
  | ok x =>
    obtain ⟨dw, cs, ca⟩ := x
    dsimp only
    rcases prefix_cases (p := p) c ca fs with h | h
    · rw [h]; exact .inl ⟨_, rfl⟩
    rw [h]
    dsimp only
    cases fs.file c.file with
    | none => exact .inr rfl
    | some bs =>
      dsimp only
      have h2 := Disk.sim_compactFile (p := p) (E := E) c.file (v == 1) dw cs ca fs
      cases hx : Disk.compactFile p E c.file (v == 1) dw cs ca fs with
      | mk r fs1 =>
        rw [hx] at h2
        cases r with
        | error e =>
          rcases h2 with h2 | h2
          · obtain ⟨m, rfl⟩ := h2.exists; exact .inl ⟨m, rfl⟩
          · rw [h2]; exact .inr rfl
        | ok n =>
          obtain ⟨n', h3, rfl⟩ := h2
          rw [h3]
          dsimp only
          have h4 : Res.Sim Fault.IsErr (· = ·) (do
              let _ ← rd p (.sync c.file) fs1 (.ok ())
              fileLen p fs1 c.file : Res Nat) (fs1.fileLen c.file) := sim_rd_bind _ _ (sim_fileLen fs1 _)
          rcases h4.or_eq with ⟨m, h4⟩ | h4
          · rw [h4]; exact .inl ⟨m, rfl⟩
          · rw [h4]; exact .inr rfl

theorem compact_early (s : DiskStore E) (b : Nat) (c : StoreConfig)
    (v : Nat) {fs : FS} (h : p.fails (.open c.file false) fs = true ∨ p.fails (.open c.file true) fs = true ∨
      ∀ off, p.fails (.seek c.file off) fs = true) :
    ∃ e, Disk.compact p s b c v fs = (.error e, s, fs) := by
  unfold Disk.compact
  cases s.compactPlan b c with
  | error e => exact ⟨e, rfl⟩
  | ok x =>
    obtain ⟨dw, cs, ca⟩ := x
    dsimp only
    have hx : (do
        check p (.open c.file false)
        check p (.seek c.file ca)
        check p (.open c.file true) : M Unit) fs = (.error (.err "I/O error"), fs) := by
      rcases prefix_cases (p := p) c ca fs with hx | hx
      · exact hx
      · exfalso
        simp only [M.bind_ok_iff] at hx
        obtain ⟨_, fs1, h1, _, fs2, h2, h3⟩ := hx
        unfold check at h1 h2 h3
        split at h1
        · cases h1
        cases h1
        split at h2
        · cases h2
        cases h2
        split at h3
        · cases h3
        rcases h with h | h | h
        · contradiction
        · contradiction
        · have := h ca; contradiction
    rw [hx]
    exact ⟨_, rfl⟩

theorem Disk.newFromDisk_files (n b : Nat) (c : StoreConfig) (fs : FS) :
    (Disk.newFromDisk p n b c fs : Res (DiskStore E) × FS).2 = fs := by
  refine M.Still.run (x := (Disk.newFromDisk p n b c : M (DiskStore E))) ?_ fs
  exact .bind (still_pathExists _) fun _ => .bind (.ofRes _) fun _ => .bind (still_checkOpen _) fun _ =>
    .bind (.get _) fun _ => .bind (.get _) fun _ => .bind (.ofRes _) fun _ => .pure _

theorem Cache.newFromDisk_files (n b : Nat) (c : StoreConfig) (fs : FS) :
    (Cache.newFromDisk p n b c fs : Res (LevelCacheStore E) × FS).2 = fs := by
  refine M.Still.run (x := (Cache.newFromDisk p n b c : M (LevelCacheStore E))) ?_ fs
  exact .bind (still_pathExists _) fun _ => .bind (.ofRes _) fun _ => .bind (still_checkOpen _) fun _ =>
    .bind (.get _) fun _ => .bind (.ofRes _) fun _ => .pure _

theorem Cache.newFromDiskWithReader_files (n b : Nat) (c : StoreConfig) (r : ExternalReader) (fs : FS) :
    (Cache.newFromDiskWithReader p n b c r fs : Res (LevelCacheStore E) × FS).2 = fs := by
  refine M.Still.run (x := (Cache.newFromDiskWithReader p n b c r : M (LevelCacheStore E))) ?_ fs
  exact .bind (still_pathExists _) fun _ => .bind (.ofRes _) fun _ => .bind (still_checkOpen _) fun _ =>
    .bind (.get _) fun _ => .bind (.ofRes _) fun _ => .bind (.ofRes _) fun _ => .pure _

theorem FS.set_set (fs : FS) (f : FileId) (x y : Option Bytes) : (fs.set f x).set f y = fs.set f y := by
  unfold FS.set
  congr 1
  funext g
  dsimp only
  split <;> rfl

/-- The states `compactFile` can end in. -/
theorem compactFile_state (hp : p.Torn) {f : FileId} {fs : FS} {bs : Bytes} (hf : fs.file f = some bs) (v1 : Bool)
    (dw : Nat) {cs ca : Nat} (hca : ca ≤ bs.length) (hcs : cs ≠ 0) :
    (Disk.compactFile p E f v1 dw cs ca fs).2 = fs ∨
    (∃ n cur, CopyState bs ca (if v1 then dw else 0) n cur ∧
      (Disk.compactFile p E f v1 dw cs ca fs).2 = fs.set f (some cur)) ∨
    (bs.length - ca = cs ∧ ∃ cur, CopyState bs ca (if v1 then dw else 0) cs cur ∧
      (Disk.compactFile p E f v1 dw cs ca fs).2 =
        fs.set f (some (cur.take (if v1 then dw + cs else cs)))) := by
  unfold Disk.compactFile
  generalize hst : (if v1 then dw else 0) = st
  have hnew : (if v1 then dw + cs else cs) = st + cs := by
    rw [← hst]; split <;> omega
  rw [hnew]
  have hop : FS.openFile f fs = (.ok (), fs) := by
    unfold FS.openFile; rw [M.get_run, FS.contents_ok hf]; rfl
  by_cases h1 : p.fails (.seek f st) fs = true
  · left
    rw [M.bind_error (show check p (.seek f st) fs = (.error (.err "I/O error"), fs) from if_pos h1)]
  rw [M.bind_ok (show check p (.seek f st) fs = (.ok (), fs) from if_neg h1), M.bind_ok hop]
  by_cases h2 : p.fails (.copy f ca st) fs = true
  · obtain ⟨n, cur, h3, h4⟩ := hp.copy f ca st fs bs hf
    refine .inr (.inl ⟨n, cur, h3, ?_⟩)
    rw [M.bind_error (show copyWithin p f ca st fs = (.error (.err "I/O error"), p.left (.copy f ca st) fs) from
      if_pos h2), h4]
  have hc : copyWithin p f ca st fs = DiskStore.copyWithin f ca st fs := if_neg h2
  by_cases hd : bs.drop ca = []
  · left
    have hz : DiskStore.copyWithin f ca st fs = (.ok 0, fs) := by
      unfold DiskStore.copyWithin
      rw [M.bind_ok (show M.get (fun fs => fs.contents f) fs = (.ok bs, fs) by
        rw [M.get_run, FS.contents_ok hf])]
      rw [hd, if_neg (by simp), M.bind_ok (show FS.writeAllAt f st [] fs = (.ok (), fs) by
        unfold FS.writeAllAt; rw [FS.contents_ok hf]; rfl)]
      rfl
    rw [M.bind_ok (hc.trans hz), M.bind_error (show mEnsure (0 = cs) "Failed to copy all data" fs =
      (.error (.err "Failed to copy all data"), fs) from by
        unfold mEnsure; rw [ensure_false (by omega)]; rfl)]
  by_cases hlt : ca < st
  · left
    rw [M.bind_error (hc.trans (show DiskStore.copyWithin f ca st fs = (.error .diverge, fs) by
      unfold DiskStore.copyWithin
      rw [M.bind_ok (show M.get (fun fs => fs.contents f) fs = (.ok bs, fs) by
        rw [M.get_run, FS.contents_ok hf])]
      rw [if_pos ⟨hlt, hd⟩]
      rfl))]
  have hcopy : DiskStore.copyWithin f ca st fs =
      (.ok (bs.length - ca), fs.set f (some (patch bs st (bs.drop ca)))) := by
    unfold DiskStore.copyWithin
    rw [M.bind_ok (show M.get (fun fs => fs.contents f) fs = (.ok bs, fs) by
      rw [M.get_run, FS.contents_ok hf])]
    rw [if_neg (fun h => hlt h.1)]
    rw [M.bind_ok (show FS.writeAllAt f st (bs.drop ca) fs =
      (.ok (), fs.set f (some (patch bs st (bs.drop ca)))) by
        unfold FS.writeAllAt; rw [FS.contents_ok hf]; exact if_neg hd), List.length_drop]
    rfl
  have hstate : CopyState bs ca st (bs.length - ca) (patch bs st (bs.drop ca)) := by
    have := CopyState.block (dst := st) (bs.length - ca) (CopyState.start (bs := bs) (src := ca)) (by omega)
    unfold region at this
    rwa [Nat.add_zero, Nat.add_zero, Nat.zero_add, List.take_of_length_le (by simp)] at this
  rw [M.bind_ok (hc.trans hcopy)]
  by_cases hw : bs.length - ca = cs
  · rw [M.bind_ok (mEnsure_true hw _ _)]
    by_cases h5 : p.fails (.setLen f (st + cs)) (fs.set f (some (patch bs st (bs.drop ca)))) = true
    · refine .inr (.inl ⟨_, _, hstate, ?_⟩)
      rw [M.bind_error (show setLen p f (st + cs) (fs.set f (some (patch bs st (bs.drop ca)))) =
        (.error (.err "I/O error"), p.left (.setLen f (st + cs)) _) from if_pos h5), hp.setLen]
    · refine .inr (.inr ⟨hw, _, hw ▸ hstate, ?_⟩)
      have hlen : (patch bs st (bs.drop ca)).length ≥ st + cs := by
        unfold patch
        simp only [List.length_append, List.length_take, List.length_replicate, List.length_drop]
        omega
      rw [M.bind_ok (show setLen p f (st + cs) (fs.set f (some (patch bs st (bs.drop ca)))) =
        (.ok (), fs.set f (some ((patch bs st (bs.drop ca)).take (st + cs)))) by
          refine (if_neg h5).trans ?_
          unfold FS.setLen
          rw [FS.contents_ok (FS.set_self _ _ _)]
          dsimp only
          rw [FS.set_set, Nat.sub_eq_zero_of_le hlen]
          simp)]
      rfl
  · refine .inr (.inl ⟨_, _, hstate, ?_⟩)
    rw [M.bind_error (show mEnsure (bs.length - ca = cs) "Failed to copy all data" _ =
      (.error (.err "Failed to copy all data"), _) from by
        unfold mEnsure; rw [ensure_false hw]; rfl)]

/-- However `compact` ends over a failing disk, it leaves one of the crash states. -/
theorem compact_crash (hp : p.Torn) (s : DiskStore E) (b : Nat) (c : StoreConfig) (v : Nat) {fs : FS}
    (hs : ∀ bs, fs.file c.file = some bs → bs.length = s.storeSize) :
    s.CompactCrash b c v fs (Disk.compact p s b c v fs).2.2 := by
  unfold Disk.compact
  cases hplan : s.compactPlan b c with
  | error e => exact .untouched
  | ok x =>
    obtain ⟨dw, cs, ca⟩ := x
    have hca : ca ≤ s.storeSize ∧ cs ≠ 0 := by
      have h := hplan
      unfold DiskStore.compactPlan at h
      simp only [bind_ok_iff, ensure_ok_iff] at h
      obtain ⟨_, -, _, -, _, h1, z, h2, h3⟩ := h
      cases h3
      refine ⟨?_, h1.2⟩
      unfold subP at h2
      split at h2
      · cases h2; omega
      · cases h2
    dsimp only
    rcases prefix_cases (p := p) c ca fs with h | h
    · rw [h]; exact .untouched
    rw [h]
    dsimp only
    cases hf : fs.file c.file with
    | none => exact .untouched
    | some bs =>
      have hlen := hs bs hf
      have hev : ∀ x : Nat × Nat, (if (v == 1) = true then x.1 else x.2) = if v = 1 then x.1 else x.2 := by
        intro x; simp only [beq_iff_eq]
      have h3 := compactFile_state (E := E) hp hf (v == 1) dw (ca := ca) (by omega) hca.2
      rw [hev (dw, 0), hev (dw + cs, cs)] at h3
      dsimp only at h3 ⊢
      have key : s.CompactCrash b c v fs (Disk.compactFile p E c.file (v == 1) dw cs ca fs).2 := by
        rcases h3 with h3 | ⟨n, cur, h3, h4⟩ | ⟨hall, cur, h3, h4⟩
        · rw [h3]; exact .untouched
        · rw [h4]; exact .copying hplan hf h3
        · rw [h4]; exact .truncated hplan hf hall h3
      cases hx : Disk.compactFile p E c.file (v == 1) dw cs ca fs with
      | mk r fs1 =>
        rw [hx] at key
        cases r with
        | error e => exact key
        | ok n =>
          dsimp only
          split
          · exact key
          · split <;> exact key

end compact

end Flaky
end Verif
