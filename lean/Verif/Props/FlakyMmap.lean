import Verif.Lemmas.FlakyMmap
import Verif.Props.Flaky
/-
C70 and C76 for `MmapStore` (src/store/mmap.rs).
-/
namespace Verif
open Spec

section
variable {E : Type} [Element E] {p : IoPlan}

/-- **C70** for writing to an `MmapStore`, which maps the file again first if it has no map. -/
theorem C70_mmap_write (s : MmapStore E) (e : E) (i : Nat) (buf : Bytes) (fs : FS) :
    ((Flaky.Mmap.writeAt p s e i fs).1.IsErr ∨ Flaky.Mmap.writeAt p s e i fs = s.writeAt e i fs) ∧
    ((Flaky.Mmap.push p s e fs).1.IsErr ∨ Flaky.Mmap.push p s e fs = s.push e fs) ∧
    ((Flaky.Mmap.copyFromSlice p s buf i fs).1.IsErr ∨
      Flaky.Mmap.copyFromSlice p s buf i fs = s.copyFromSlice buf i fs) ∧
    ((Flaky.Mmap.reinit p s fs).1.IsErr ∨ Flaky.Mmap.reinit p s fs = s.reinit fs) :=
  ⟨(Flaky.Mmap.sim_writeAt s e i).or_eq fs, (Flaky.Mmap.sim_push s e).or_eq fs,
    (Flaky.Mmap.sim_copyFromSlice s buf i).or_eq fs, (Flaky.Mmap.sim_reinit s).or_eq fs⟩

/-- **C70** for opening an `MmapStore` whose file can be opened for writing. -/
theorem C70_mmap_open [p.Writable] (n b : Nat) (c : StoreConfig) (fs : FS) :
    ((Flaky.Mmap.newFromDisk p n b c fs : Res (MmapStore E) × FS).1.IsErr ∨
      Flaky.Mmap.newFromDisk p n b c fs = (MmapStore.newFromDisk n b c fs : Res (MmapStore E) × FS)) ∧
    ((Flaky.Mmap.newWithConfig p n b c fs : Res (MmapStore E) × FS).1.IsErr ∨
      Flaky.Mmap.newWithConfig p n b c fs = (MmapStore.newWithConfig n b c fs : Res (MmapStore E) × FS)) :=
  ⟨(Flaky.Mmap.sim_newFromDisk Flaky.takes_of_writable n b c).or_eq fs,
    (Flaky.Mmap.sim_newWithConfig Flaky.takes_of_writable n b c).or_eq fs⟩

/-- **C70** without that: no wrong store, but a panic is possible.  The files stay as they are. -/
theorem C70_mmap_open_partial (n b : Nat) (c : StoreConfig) (fs : FS) :
    ((∃ m, Flaky.Mmap.newFromDisk (E := E) p n b c fs = (.error (.err m), fs)) ∨
      (∃ m, Flaky.Mmap.newFromDisk (E := E) p n b c fs = (.error (.panic m), fs)) ∨
      Flaky.Mmap.newFromDisk p n b c fs = (MmapStore.newFromDisk n b c fs : Res (MmapStore E) × FS)) ∧
    (Flaky.Mmap.newFromDisk p n b c fs : Res (MmapStore E) × FS).2 = fs := by
  have hs : (Flaky.Mmap.newFromDisk p n b c fs : Res (MmapStore E) × FS).2 = fs := by
    refine M.Still.run (x := (Flaky.Mmap.newFromDisk p n b c : M (MmapStore E))) ?_ fs
    exact .bind (Flaky.still_pathExists _) fun _ => .bind (.ofRes _) fun _ =>
      .bind (Flaky.Mmap.still_openOrPanic _) fun _ => .bind (.get _) fun _ => .bind (.ofRes _) fun _ =>
      .bind (Flaky.still_check _) fun _ => .pure _
  refine ⟨?_, hs⟩
  have h := Flaky.Mmap.sim_newFromDisk (E := E) (p := p) Flaky.takes_ends n b c fs
  cases hx : (Flaky.Mmap.newFromDisk p n b c fs : Res (MmapStore E) × FS) with
  | mk r fs' =>
    rw [hx] at h hs
    subst hs
    cases r with
    | ok a =>
      obtain ⟨a', h1, rfl⟩ := h
      exact .inr (.inr h1.symm)
    | error e =>
      rcases h with h | h
      · cases e with
        | err m => exact .inl ⟨m, rfl⟩
        | panic m => exact .inr (.inl ⟨m, rfl⟩)
        | diverge => exact h.elim
      · exact .inr (.inr h.symm)

/-- A file that can only be read. -/
def readOnlyDisk : IoPlan := { fails := fun op _ => match op with | .open _ true => true | _ => false }

/-- **C70** fails for `MmapStore::new_from_disk` and `new_with_config` on a file that cannot be opened for writing:
they panic (src/store/mmap.rs:89), where `DiskStore` opens the file for reading. -/
theorem C70_mmap_read_only_refuted :
    let c := StoreConfig.new "d" "t" 0
    let fs := FS.empty.set c.file (some [1, 2, 3])
    (∃ m, Flaky.Mmap.newFromDisk (E := UInt8) readOnlyDisk 3 2 c fs = (.error (.panic m), fs)) ∧
    (∃ m, Flaky.Mmap.newWithConfig (E := UInt8) readOnlyDisk 3 2 c fs = (.error (.panic m), fs)) ∧
    (Flaky.Disk.newFromDisk (E := UInt8) readOnlyDisk 3 2 c fs).1 = .ok ⟨3, c.file, true, 3⟩ := by
  refine ⟨⟨"I/O error", ?_⟩, ⟨"I/O error", ?_⟩, by decide +kernel⟩
  · rfl
  · rfl

/-- **C70**, exactly when opening an existing file as `MmapStore` panics: when the file cannot be opened for writing.
Any other failure, and a file of another length, is `Err`. -/
theorem C70_mmap_panic_iff (n b : Nat) (c : StoreConfig) {fs : FS} {bs : Bytes} (hfile : fs.file c.file = some bs) :
    ((∃ m, (Flaky.Mmap.newFromDisk p n b c fs : Res (MmapStore E) × FS).1 = .error (.panic m)) ↔
      p.fails (.probe c.file) fs = false ∧ p.fails (.open c.file true) fs = true) := by
  unfold Flaky.Mmap.newFromDisk
  cases hp : p.fails (.probe c.file) fs with
  | true =>
    rw [M.bind_ok (a := false) (fs' := fs) (by unfold Flaky.pathExists; rw [M.get_run, hp]; rfl),
      M.bind_error (mEnsure_false (by simp) _ _)]
    simp
  | false =>
    rw [M.bind_ok (a := true) (fs' := fs) (by unfold Flaky.pathExists; rw [M.get_run, hp, hfile]; rfl),
      M.bind_ok (mEnsure_true rfl _ _)]
    cases ho : p.fails (.open c.file true) fs with
    | true =>
      rw [M.bind_error (e := .panic "I/O error") (fs' := fs) (by unfold Flaky.Mmap.openOrPanic; rw [ho]; rfl)]
      simp
    | false =>
      rw [M.bind_ok (a := ()) (fs' := fs) (by unfold Flaky.Mmap.openOrPanic; rw [ho]; rfl)]
      cases hs : p.fails (.size c.file) fs with
      | true =>
        rw [M.bind_error (e := .err "I/O error") (fs' := fs) (by
          rw [M.get_run]; unfold Flaky.fileLen Flaky.rd; rw [hs]; rfl)]
        simp
      | false =>
        rw [M.bind_ok (a := bs.length) (fs' := fs) (by
          rw [M.get_run]; unfold Flaky.fileLen Flaky.rd FS.fileLen; rw [hs, FS.contents_ok hfile]; rfl)]
        by_cases hl : bs.length = n * Element.byteLen E
        · rw [M.bind_ok (mEnsure_true hl _ _)]
          cases hm : p.fails (.map c.file 0 bs.length) fs with
          | true =>
            rw [M.bind_error (e := .err "I/O error") (fs' := fs) (by
              unfold Flaky.Mmap.mapFile Flaky.check; rw [hm]; rfl)]
            simp
          | false =>
            rw [M.bind_ok (a := ()) (fs' := fs) (by unfold Flaky.Mmap.mapFile Flaky.check; rw [hm]; rfl)]
            simp [M.pure_run]
        · rw [M.bind_error (mEnsure_false hl _ _)]
          simp
-- both answers occur
example : readOnlyDisk.fails (.probe (StoreConfig.new "d" "t" 0).file) FS.empty = false ∧
    readOnlyDisk.fails (.open (StoreConfig.new "d" "t" 0).file true) FS.empty = true ∧
    fullDisk.fails (.open (StoreConfig.new "d" "t" 0).file true) FS.empty = false := ⟨rfl, rfl, rfl⟩

/-! ### C76 -/

/-- **C76** for `MmapStore`: a store that is returned has its file created or opened for writing, of the right size,
and mapped. -/
theorem C76_mmap (n b : Nat) (c : StoreConfig) (fs fs' : FS) (s : MmapStore E) :
    (Flaky.Mmap.new p n fs = (.ok s, fs') → p.fails .temp fs = false ∧
      p.fails (.setLen s.file (Element.byteLen E * n)) (FS.createTemp fs).2 = false ∧
      p.fails (.map s.file 0 (Element.byteLen E * n)) fs' = false) ∧
    (Flaky.Mmap.newWithConfig p n b c fs = (.ok s, fs') → fs.file c.file = none →
      p.fails (.create c.file) fs = false ∧
      p.fails (.setLen c.file (Element.byteLen E * n)) (FS.createNew c.file fs).2 = false ∧
      p.fails (.map c.file 0 (Element.byteLen E * n)) fs' = false) ∧
    (Flaky.Mmap.newFromDisk p n b c fs = (.ok s, fs') →
      p.fails (.probe c.file) fs = false ∧ p.fails (.open c.file true) fs = false ∧
      p.fails (.size c.file) fs = false ∧ p.fails (.map c.file 0 (n * Element.byteLen E)) fs = false) ∧
    (∀ s', Flaky.Mmap.reinit p s fs = (.ok s', fs') → p.fails (.size s.file) fs = false ∧
      ∃ m, fs.fileLen s.file = .ok m ∧ p.fails (.map s.file 0 m) fs = false) :=
  ⟨Flaky.Mmap.new_ok, Flaky.Mmap.newWithConfig_ok, Flaky.Mmap.newFromDisk_ok, fun _ h => Flaky.Mmap.reinit_ok h⟩

/-- **C76** for writing to an `MmapStore` that lost its map: the file was mapped again (`C76_mmap` says what that
means). -/
theorem C76_mmap_write {s s' : MmapStore E} {fs fs' : FS} (hs : s.map = none)
    (h : (∃ e i, Flaky.Mmap.writeAt p s e i fs = (.ok s', fs')) ∨ (∃ e, Flaky.Mmap.push p s e fs = (.ok s', fs')) ∨
      ∃ buf i, Flaky.Mmap.copyFromSlice p s buf i fs = (.ok s', fs')) :
    ∃ s1 fs1, Flaky.Mmap.reinit p s fs = (.ok s1, fs1) := by
  have key : ∀ {s1 fs1}, Flaky.Mmap.ensureMap p s fs = (.ok s1, fs1) → Flaky.Mmap.reinit p s fs = (.ok s1, fs1) := by
    intro s1 fs1 h1
    unfold Flaky.Mmap.ensureMap at h1
    rwa [hs] at h1
  rcases h with ⟨e, i, h⟩ | ⟨e, h⟩ | ⟨buf, i, h⟩
  · obtain ⟨s1, fs1, h1, -⟩ := M.bind_ok_iff.1 h
    exact ⟨s1, fs1, key h1⟩
  · obtain ⟨s1, fs1, h1, -⟩ := M.bind_ok_iff.1 h
    exact ⟨s1, fs1, key h1⟩
  · obtain ⟨_, f1, h1, h2⟩ := M.bind_ok_iff.1 h
    obtain ⟨-, rfl⟩ := Flaky.ofRes_ok h1
    obtain ⟨_, f2, h3, h4⟩ := M.bind_ok_iff.1 h2
    obtain ⟨-, rfl⟩ := mEnsure_ok_iff.1 h3
    obtain ⟨s1, fs1, h5, -⟩ := M.bind_ok_iff.1 h4
    exact ⟨s1, fs1, key h5⟩

/-- **C76** for an `MmapStore` made from bytes: the store was made. -/
theorem C76_mmap_from_slice {n b : Nat} {data : Bytes} {c : StoreConfig} {fs fs' : FS} {s : MmapStore E} :
    (Flaky.Mmap.newFromSlice p n data fs = (.ok s, fs') →
      ∃ s1 fs1, (Flaky.Mmap.new p n fs : Res (MmapStore E) × FS) = (.ok s1, fs1)) ∧
    (Flaky.Mmap.newFromSliceWithConfig p n b data c fs = (.ok s, fs') →
      ∃ s1 fs1, (Flaky.Mmap.newWithConfig p n b c fs : Res (MmapStore E) × FS) = (.ok s1, fs1)) := by
  constructor
  all_goals
    intro h
    obtain ⟨_, f1, h1, h2⟩ := M.bind_ok_iff.1 h
    obtain ⟨-, rfl⟩ := Flaky.ofRes_ok h1
    obtain ⟨_, f2, h3, h4⟩ := M.bind_ok_iff.1 h2
    obtain ⟨-, rfl⟩ := mEnsure_ok_iff.1 h3
    obtain ⟨s1, fs1, h5, -⟩ := M.bind_ok_iff.1 h4
    exact ⟨s1, fs1, h5⟩

/-- The methods of the trait are these functions; reading makes no system call. -/
theorem C76_mmap_trait (A : Alg E) (σ : Sched) (s : Flaky.On p (MmapStore E)) (n b m v : Nat) (c : StoreConfig)
    (o : Option StoreConfig) (buf : Bytes) (e : E) (fs : FS) :
    (Store.new n : M (Flaky.On p (MmapStore E))) = Flaky.wrap (Flaky.Mmap.new p n) ∧
    (Store.newWithConfig n b c : M (Flaky.On p (MmapStore E))) = Flaky.wrap (Flaky.Mmap.newWithConfig p n b c) ∧
    (Store.newFromSlice n buf : M (Flaky.On p (MmapStore E))) = Flaky.wrap (Flaky.Mmap.newFromSlice p n buf) ∧
    (Store.newFromSliceWithConfig n b buf c : M (Flaky.On p (MmapStore E))) =
      Flaky.wrap (Flaky.Mmap.newFromSliceWithConfig p n b buf c) ∧
    (Store.newFromDisk n b c : M (Flaky.On p (MmapStore E))) = Flaky.wrap (Flaky.Mmap.newFromDisk p n b c) ∧
    Store.build A b σ s n m o = defaultBuild A b σ s n m o ∧
    (Store.compact s b c v fs).1 = (Store.compact s.inner b c v fs).1 ∧
    (Store.compact s b c v fs).2.1.inner = (Store.compact s.inner b c v fs).2.1 ∧
    (Store.compact s b c v fs).2.2 = (Store.compact s.inner b c v fs).2.2 ∧
    Store.delete (Flaky.On p (MmapStore E)) c = pure () ∧
    Store.reinit s = Flaky.wrap (Flaky.Mmap.reinit p s.inner) ∧
    StoreOps.readAt fs s n = s.inner.readAt fs n ∧
    StoreOps.readRange fs s n m = s.inner.readRange fs n m ∧
    StoreOps.readInto fs s n buf = s.inner.readInto fs n buf ∧
    StoreOps.readRangeInto fs s n m buf = StoreOps.readRangeInto fs s.inner n m buf ∧
    StoreOps.writeAt s e n = Flaky.wrap (Flaky.Mmap.writeAt p s.inner e n) ∧
    StoreOps.copyFromSlice s buf n = Flaky.wrap (Flaky.Mmap.copyFromSlice p s.inner buf n) ∧
    StoreOps.push s e = Flaky.wrap (Flaky.Mmap.push p s.inner e) :=
  ⟨rfl, rfl, rfl, rfl, rfl, rfl, rfl, rfl, rfl, rfl, rfl, rfl, rfl, rfl, rfl, rfl, rfl, rfl⟩

/-- **C76**, the other direction, for `MmapStore`. -/
theorem C76_mmap_quiet (hp : p.Quiet) :
    Flaky.Mmap.new p (E := E) = MmapStore.new ∧ Flaky.Mmap.newWithConfig p (E := E) = MmapStore.newWithConfig ∧
    Flaky.Mmap.newFromSlice p (E := E) = MmapStore.newFromSlice ∧
    Flaky.Mmap.newFromSliceWithConfig p (E := E) = MmapStore.newFromSliceWithConfig ∧
    Flaky.Mmap.newFromDisk p (E := E) = MmapStore.newFromDisk ∧ Flaky.Mmap.reinit p (E := E) = MmapStore.reinit ∧
    Flaky.Mmap.writeAt p (E := E) = MmapStore.writeAt ∧ Flaky.Mmap.push p (E := E) = MmapStore.push ∧
    Flaky.Mmap.copyFromSlice p (E := E) = MmapStore.copyFromSlice := by
  open Flaky.Mmap in
  exact ⟨new_quiet hp, newWithConfig_quiet hp, newFromSlice_quiet hp, newFromSliceWithConfig_quiet hp,
    newFromDisk_quiet hp, reinit_quiet hp, writeAt_quiet hp, push_quiet hp, copyFromSlice_quiet hp⟩

end

/-- **C70** for trees on `MmapStore`: however the disk fails, short of refusing to open a file for writing, a tree that
is built has the right root and reads no wrong node. -/
theorem C70_mmap_never_lies {E : Type} [Element E] [LawfulElement E] [FloatRows] {A : Alg E} {b : Nat} {p : IoPlan}
    [p.Writable] [DecidableEq E] (hA : A.LawfulReset) {σ : Sched} (hσ : σ.Valid)
    {src : Source A} (hs : src.Valid) (hf : FloatRows.FloorAt b src.leaves.length)
    {cfg : Option StoreConfig} {fs fs' : FS} {t : BaseTree (Flaky.On p (MmapStore E)) E}
    (hc : ∀ c ∈ cfg, fs.file c.file = none) (h : src.build b σ cfg fs = (.ok t, fs')) :
    ∃ k f, IsLayout A.nodeHash b k src.leaves f ∧ t.root = f (nodes b k - 1) ∧
      t.leafs = b ^ k ∧ t.length = nodes b k ∧ t.rowCount = k + 1 ∧
      (∀ i e, i < nodes b k → t.readAt fs' i = .ok e → e = f i) ∧
      ∀ i q, (hi : i < src.leaves.length) → t.genProof b 0 0 fs' i = .ok q →
        q.item = .ok src.leaves[i] ∧ q.root = .ok t.root ∧ q.path = digits b k i ∧
        (A.HeightsAgree b → q.validate A b = .ok true) :=
  C70_faults_never_lie (S := MmapStore E) hA hσ hs hf hc h

/-! ### Non-vacuity -/

instance : ({ fails := fun op _ => match op with | .sync .. => true | _ => false } : IoPlan).Writable := ⟨fun _ _ => rfl⟩

/-- A disk on which nothing can be mapped. -/
def unmappableDisk : IoPlan := { fails := fun op _ => match op with | .map .. => true | _ => false }

instance : unmappableDisk.Writable := ⟨fun _ _ => rfl⟩

example : (Flaky.Mmap.new (E := UInt8) unmappableDisk 3 FS.empty).1 = .error (.err "I/O error") := by decide +kernel

example :
    let s : MmapStore UInt8 := ⟨none, .temp 0, 0⟩
    let fs := FS.empty.set (.temp 0) (some [7])
    (Flaky.Mmap.writeAt unmappableDisk s 5 0 fs).1 = .error (.err "I/O error") ∧
    (Flaky.Mmap.writeAt readOnlyDisk s 5 0 fs).1 = .ok ⟨some 1, .temp 0, 1⟩ := by decide +kernel

attribute [local instance] idealRows in
example : ((Source.new (A := toyAlg) [1, 2, 3, 4]).build
    (S := Flaky.On { fails := fun op _ => match op with | .sync .. => true | _ => false } (MmapStore UInt8)) 2
    Sched.sequential (some (StoreConfig.new "d" "t" 0)) FS.empty).1.map (fun t => t.root) = .ok 250 := by decide +kernel

end Verif
