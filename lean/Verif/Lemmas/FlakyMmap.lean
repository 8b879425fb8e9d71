import Verif.Model.FlakyMmap
import Verif.Lemmas.FlakyQuiet
import Verif.Lemmas.FlakyOk
/-!
`MmapStore` over a disk that fails does what it does over one that does not, or returns `Err`; only opening a file that
cannot be written panics.
-/
set_option linter.unusedSectionVars false
namespace Verif
namespace Flaky
namespace Mmap
variable {p : IoPlan} {E : Type} [Element E]

theorem sim_reinit (s : MmapStore E) : M.Sim Fault.IsErr (· = ·) (reinit p s) s.reinit :=
  (M.Sim.get fun fs => sim_fileLen fs _).bindEq fun _ => sim_check _ M.Sim.rfl

theorem sim_ensureMap (s : MmapStore E) : M.Sim Fault.IsErr (· = ·) (ensureMap p s) s.ensureMap := by
  unfold ensureMap MmapStore.ensureMap
  cases s.map with
  | none => exact sim_reinit s
  | some _ => exact M.Sim.rfl

theorem sim_writeAt (s : MmapStore E) (e : E) (i : Nat) :
    M.Sim Fault.IsErr (· = ·) (writeAt p s e i) (s.writeAt e i) :=
  (sim_ensureMap s).bindEq fun _ => M.Sim.rfl

theorem sim_copyFromSlice (s : MmapStore E) (buf : Bytes) (i : Nat) :
    M.Sim Fault.IsErr (· = ·) (copyFromSlice p s buf i) (s.copyFromSlice buf i) :=
  M.Sim.step fun _ => M.Sim.step fun _ => (sim_ensureMap s).bindEq fun _ => M.Sim.rfl

theorem sim_push (s : MmapStore E) (e : E) : M.Sim Fault.IsErr (· = ·) (push p s e) (s.push e) :=
  (sim_ensureMap s).bindEq fun s => M.Sim.step fun _ => sim_writeAt s e _

theorem sim_new (n : Nat) : M.Sim Fault.IsErr (· = ·) (new p n : M (MmapStore E)) (MmapStore.new n) :=
  (sim_io _ _).bindEq fun _ => (sim_io _ _).bindEq fun _ => sim_check _ M.Sim.rfl

theorem sim_newFromSlice (n : Nat) (bs : Bytes) :
    M.Sim Fault.IsErr (· = ·) (newFromSlice p n bs : M (MmapStore E)) (MmapStore.newFromSlice n bs) :=
  M.Sim.step fun _ => M.Sim.step fun _ => (sim_new n).bindEq fun _ => M.Sim.rfl

theorem sim_openOrPanic {F : Fault → Prop} {β' β : Type} {Q : β' → β → Prop} {f' : Unit → M β'} {y : M β} {f : FileId}
    (hp : ∀ fs, p.fails (.open f true) fs = true → F (.panic "I/O error"))
    (h : M.Sim F Q (f' ()) y) : M.Sim F Q (openOrPanic p f >>= f') y := by
  intro fs
  by_cases hc : p.fails (.open f true) fs = true
  · rw [M.bind_error (show openOrPanic p f fs = (.error (.panic "I/O error"), fs) from if_pos hc)]
    exact .inl (hp fs hc)
  · rw [M.bind_ok (show openOrPanic p f fs = (.ok (), fs) from if_neg hc)]
    exact h fs

theorem sim_mustExist' {F : Fault → Prop} (hF : ∀ e, Fault.IsErr e → F e) {β' β : Type} {Q : β' → β → Prop}
    {f' : Unit → M β'} {f : Unit → M β} (g : FileId) (msg : String) (h : M.Sim F Q (f' ()) (f ())) :
    M.Sim F Q (pathExists p g >>= fun ex => mEnsure (ex = true) msg >>= f')
      (FS.pathExists g >>= fun ex => mEnsure (ex = true) msg >>= f) := by
  intro fs
  rw [M.bind_ok (pathExists_run g fs),
    M.bind_ok (show FS.pathExists g fs = (.ok (fs.file g).isSome, fs) from rfl)]
  cases p.fails (.probe g) fs with
  | true => exact .inl (hF _ trivial)
  | false =>
    cases (fs.file g).isSome with
    | false => exact .inl (hF _ trivial)
    | true => exact h fs

theorem sim_openOrCreate' {F : Fault → Prop} (hF : ∀ e, Fault.IsErr e → F e) {β' β : Type} {Q : β' → β → Prop}
    (g : FileId) {x' : M β'} {x : M β} {f' : Unit → M β'} {f : Unit → M β}
    (h1 : M.Sim F Q x' x) (h2 : M.Sim F Q (f' ()) (f ())) :
    M.Sim F Q
      (pathExists p g >>= fun ex => if ex = true then x' else io p (.create g) (FS.createNew g) >>= f')
      (FS.pathExists g >>= fun ex => if ex = true then x else FS.createNew g >>= f) := by
  have h3 : M.Sim F Q (io p (.create g) (FS.createNew g) >>= f') (FS.createNew g >>= f) :=
    ((sim_io _ _).mono hF).bindEq fun _ => h2
  intro fs
  rw [M.bind_ok (pathExists_run g fs),
    M.bind_ok (show FS.pathExists g fs = (.ok (fs.file g).isSome, fs) from rfl)]
  cases hg : fs.file g with
  | none =>
    rw [show (!p.fails (.probe g) fs && (none : Option Bytes).isSome) = false from Bool.and_false _]
    exact h3 fs
  | some c =>
    cases p.fails (.probe g) fs with
    | false => exact h1 fs
    | true =>
      by_cases hd : p.fails (.create g) fs = true
      · have e : io p (.create g) (FS.createNew g) fs = (.error (.err "I/O error"), p.left (.create g) fs) :=
          if_pos hd
        rw [show (!true && (some c).isSome) = false from rfl, if_neg Bool.false_ne_true, M.bind_error e]
        exact .inl (hF _ trivial)
      · have e : io p (.create g) (FS.createNew g) fs = (.error (.err "File exists"), fs) := by
          refine (if_neg hd).trans ?_
          unfold FS.createNew
          rw [hg]
        rw [show (!true && (some c).isSome) = false from rfl, if_neg Bool.false_ne_true, M.bind_error e]
        exact .inl (hF _ trivial)

/-- `F` has the faults of the disk in it: every `Err`, and the panic if some file cannot be opened for writing. -/
structure Takes (p : IoPlan) (F : Fault → Prop) : Prop where
  err : ∀ e, Fault.IsErr e → F e
  panic : ∀ f fs, p.fails (.open f true) fs = true → F (.panic "I/O error")

variable {F : Fault → Prop} (hF : Takes p F)
include hF

theorem sim_newFromDisk (n b : Nat) (c : StoreConfig) :
    M.Sim F (· = ·) (newFromDisk p n b c : M (MmapStore E)) (MmapStore.newFromDisk n b c) :=
  sim_mustExist' hF.err _ _ <| sim_openOrPanic (hF.panic _) <|
    ((M.Sim.get fun fs => sim_fileLen fs _).mono hF.err).bindEq fun _ => M.Sim.step fun _ =>
    (sim_check _ M.Sim.rfl).mono hF.err

theorem sim_newWithConfig (n b : Nat) (c : StoreConfig) :
    M.Sim F (· = ·) (newWithConfig p n b c : M (MmapStore E)) (MmapStore.newWithConfig n b c) :=
  sim_openOrCreate' hF.err _ (sim_newFromDisk hF n b c) <|
    ((sim_io _ _).bindEq fun _ => sim_check _ M.Sim.rfl).mono hF.err

theorem sim_newFromSliceWithConfig (n b : Nat) (bs : Bytes) (c : StoreConfig) :
    M.Sim F (· = ·) (newFromSliceWithConfig p n b bs c : M (MmapStore E))
      (MmapStore.newFromSliceWithConfig n b bs c) :=
  M.Sim.step fun _ => M.Sim.step fun _ => (sim_newWithConfig hF n b c).bindEq fun s =>
    ((sim_ensureMap s).mono hF.err).bindEq fun _ => M.Sim.rfl

end Mmap

section instances
variable {p : IoPlan} {E : Type} [Element E]

instance : MayFailOps (On p (MmapStore E)) (MmapStore E) E where
  erase := On.inner
  len _ := rfl
  isEmpty _ := rfl
  loaded _ := rfl
  readAt _ _ _ := Res.Sim.rfl
  readRange _ _ _ _ := Res.Sim.rfl
  readInto _ _ _ _ := Res.Sim.rfl
  readRangeInto _ _ _ _ _ _ := Res.Sim.rfl
  writeAt s e i := sim_wrap (Mmap.sim_writeAt s.inner e i)
  copyFromSlice s buf i := sim_wrap (Mmap.sim_copyFromSlice s.inner buf i)
  push s e := sim_wrap (Mmap.sim_push s.inner e)

theorem takes_of_writable [hp : p.Writable] : Mmap.Takes p Fault.IsErr :=
  ⟨fun _ h => h, fun f fs h => absurd h (by rw [hp.opens]; exact Bool.false_ne_true)⟩

theorem takes_ends : Mmap.Takes p Fault.Ends := ⟨fun _ h => h.ends, fun _ _ _ => trivial⟩

instance [p.Writable] : MayFail (On p (MmapStore E)) (MmapStore E) E where
  new n := sim_wrap (Mmap.sim_new n)
  newWithConfig n b c := sim_wrap (Mmap.sim_newWithConfig takes_of_writable n b c)
  newFromSlice n bs := sim_wrap (Mmap.sim_newFromSlice n bs)
  newFromSliceWithConfig n b bs c := sim_wrap (Mmap.sim_newFromSliceWithConfig takes_of_writable n b bs c)
  build A b σ s n rows c :=
    MayFail.defaultBuild_sim (erase := On.inner) (fun _ => rfl) (fun _ _ _ => Res.Sim.rfl)
      (fun _ _ _ _ => Res.Sim.rfl) (fun s e i => sim_wrap (Mmap.sim_writeAt s.inner e i))
      (fun s buf i => sim_wrap (Mmap.sim_copyFromSlice s.inner buf i)) A b σ s n rows c

end instances

theorem still_check {p : IoPlan} (op : IoOp) : M.Still (check p op) := by
  refine ⟨fun fs => ?_⟩
  unfold check
  split <;> rfl

theorem Mmap.still_openOrPanic {p : IoPlan} (f : FileId) : M.Still (Mmap.openOrPanic p f) := by
  refine ⟨fun fs => ?_⟩
  unfold Mmap.openOrPanic
  split <;> rfl

/-! ### Without faults -/
namespace Mmap
variable {p : IoPlan} {E : Type} [Element E] (hp : p.Quiet)
include hp

theorem openOrPanic_quiet (f : FileId) : openOrPanic p f = pure () := by
  funext fs
  unfold openOrPanic
  rw [hp]
  rfl

theorem reinit_quiet : reinit p (E := E) = MmapStore.reinit := by
  funext s
  simp only [reinit, fileLen, rd_quiet hp, mapFile, check_quiet hp]
  rfl

theorem ensureMap_quiet : ensureMap p (E := E) = MmapStore.ensureMap := by
  funext s
  simp only [ensureMap, reinit_quiet hp]
  rfl

theorem writeAt_quiet : writeAt p (E := E) = MmapStore.writeAt := by
  funext s e i
  simp only [writeAt, ensureMap_quiet hp]
  rfl

theorem copyFromSlice_quiet : copyFromSlice p (E := E) = MmapStore.copyFromSlice := by
  funext s e i
  simp only [copyFromSlice, ensureMap_quiet hp]
  rfl

theorem push_quiet : push p (E := E) = MmapStore.push := by
  funext s e
  simp only [push, ensureMap_quiet hp, writeAt_quiet hp]
  rfl

theorem new_quiet : new p (E := E) = MmapStore.new := by
  funext n
  simp only [new, setLen, io_quiet hp, mapFile, check_quiet hp]
  rfl

theorem newFromDisk_quiet : newFromDisk p (E := E) = MmapStore.newFromDisk := by
  funext n b c
  simp only [newFromDisk, pathExists_quiet hp, openOrPanic_quiet hp, fileLen, rd_quiet hp, mapFile, check_quiet hp]
  rfl

theorem newWithConfig_quiet : newWithConfig p (E := E) = MmapStore.newWithConfig := by
  funext n b c
  simp only [newWithConfig, pathExists_quiet hp, newFromDisk_quiet hp, setLen, io_quiet hp, mapFile, check_quiet hp]
  rfl

theorem newFromSlice_quiet : newFromSlice p (E := E) = MmapStore.newFromSlice := by
  funext n b
  simp only [newFromSlice, new_quiet hp]
  rfl

theorem newFromSliceWithConfig_quiet : newFromSliceWithConfig p (E := E) = MmapStore.newFromSliceWithConfig := by
  funext n b d c
  simp only [newFromSliceWithConfig, newWithConfig_quiet hp, ensureMap_quiet hp]
  rfl

end Mmap

/-! ### Success -/
namespace Mmap
variable {p : IoPlan} {E : Type} [Element E]

theorem reinit_ok {s s' : MmapStore E} {fs fs' : FS} (h : reinit p s fs = (.ok s', fs')) :
    p.fails (.size s.file) fs = false ∧ ∃ n, fs.fileLen s.file = .ok n ∧ p.fails (.map s.file 0 n) fs = false := by
  obtain ⟨n, f1, h1, k1⟩ := M.bind_ok_iff.1 h
  obtain ⟨g1, rfl⟩ := get_ok h1
  obtain ⟨_, f2, h2, k2⟩ := M.bind_ok_iff.1 k1
  exact ⟨(rd_ok g1).1, n, (rd_ok g1).2, (check_ok h2).1⟩

theorem new_ok {n : Nat} {s : MmapStore E} {fs fs' : FS} (h : new p n fs = (.ok s, fs')) :
    p.fails .temp fs = false ∧
      p.fails (.setLen s.file (Element.byteLen E * n)) (FS.createTemp fs).2 = false ∧
      p.fails (.map s.file 0 (Element.byteLen E * n)) fs' = false := by
  obtain ⟨f, f1, h1, h2⟩ := M.bind_ok_iff.1 h
  obtain ⟨g1, g2⟩ := io_ok h1
  obtain ⟨_, f2, h3, h4⟩ := M.bind_ok_iff.1 h2
  obtain ⟨_, f3, h5, h6⟩ := M.bind_ok_iff.1 h4
  obtain ⟨g5, rfl⟩ := check_ok h5
  cases h6
  rw [g2]
  exact ⟨g1, (io_ok h3).1, g5⟩

theorem newWithConfig_ok {n b : Nat} {c : StoreConfig} {s : MmapStore E} {fs fs' : FS}
    (h : newWithConfig p n b c fs = (.ok s, fs')) (hc : fs.file c.file = none) :
    p.fails (.create c.file) fs = false ∧
      p.fails (.setLen c.file (Element.byteLen E * n)) (FS.createNew c.file fs).2 = false ∧
      p.fails (.map c.file 0 (Element.byteLen E * n)) fs' = false := by
  unfold newWithConfig at h
  rw [M.bind_ok (pathExists_run c.file fs), hc, Option.isSome_none, Bool.and_false, if_neg Bool.false_ne_true] at h
  obtain ⟨_, f1, h1, h2⟩ := M.bind_ok_iff.1 h
  obtain ⟨g1, g2⟩ := io_ok h1
  obtain ⟨_, f2, h3, h4⟩ := M.bind_ok_iff.1 h2
  obtain ⟨_, f3, h5, h6⟩ := M.bind_ok_iff.1 h4
  obtain ⟨g5, rfl⟩ := check_ok h5
  cases h6
  rw [g2]
  exact ⟨g1, (io_ok h3).1, g5⟩

theorem newFromDisk_ok {n b : Nat} {c : StoreConfig} {s : MmapStore E} {fs fs' : FS}
    (h : newFromDisk p n b c fs = (.ok s, fs')) :
    p.fails (.probe c.file) fs = false ∧ p.fails (.open c.file true) fs = false ∧ p.fails (.size c.file) fs = false ∧
      p.fails (.map c.file 0 (n * Element.byteLen E)) fs = false := by
  obtain ⟨g, h1⟩ := Cache.mustExist_ok h
  obtain ⟨_, f3, h5, h6⟩ := M.bind_ok_iff.1 h1
  have hk : p.fails (.open c.file true) fs = false ∧ f3 = fs := by
    unfold openOrPanic at h5
    split at h5
    · cases h5
    · rename_i hn
      cases h5
      exact ⟨by simpa using hn, rfl⟩
  obtain ⟨hk, rfl⟩ := hk
  obtain ⟨m, f5, h9, h10⟩ := M.bind_ok_iff.1 h6
  obtain ⟨l, rfl⟩ := get_ok h9
  obtain ⟨_, f6, h11, h12⟩ := M.bind_ok_iff.1 h10
  obtain ⟨rfl, rfl⟩ := mEnsure_ok_iff.1 h11
  obtain ⟨_, f7, h13, h14⟩ := M.bind_ok_iff.1 h12
  exact ⟨g, hk, (rd_ok l).1, (check_ok h13).1⟩

end Mmap
end Flaky
end Verif
