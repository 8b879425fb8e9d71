import Verif.Model.Merkle
import Verif.Model.MmapStore
import Verif.Lemmas.M
/-! What holds of every value a run returns; the `loaded_from_disk` flag is kept by all operations. -/
namespace Verif

/-- Every `Ok` value of `x` satisfies `P`. -/
def M.Yields {α : Type} (x : M α) (P : α → Prop) : Prop := ∀ fs a fs', x fs = (.ok a, fs') → P a

namespace M.Yields
variable {α β : Type} {P : α → Prop} {Q : β → Prop}

theorem pure {a : α} (h : P a) : M.Yields (Pure.pure a) P := by
  intro fs a' fs' e
  cases e
  exact h

theorem throw (e : Fault) : M.Yields (M.throw e) P := by
  intro fs a fs' h
  cases h

theorem bind {x : M α} {f : α → M β} (hx : M.Yields x P) (hf : ∀ a, P a → M.Yields (f a) Q) :
    M.Yields (x >>= f) Q := by
  intro fs b fs' h
  rcases hr : x fs with ⟨e | a, fs1⟩
  · rw [M.bind_error hr] at h
    cases h
  · rw [M.bind_ok hr] at h
    exact hf a (hx _ _ _ hr) _ _ _ h

theorem step {x : M α} {f : α → M β} (hf : ∀ a, M.Yields (f a) Q) : M.Yields (x >>= f) Q :=
  bind (P := fun _ => True) (fun _ _ _ _ => trivial) fun a _ => hf a

theorem ite {c : Prop} [Decidable c] {x y : M α} (hx : M.Yields x P) (hy : M.Yields y P) :
    M.Yields (if c then x else y) P := by
  split <;> assumption

theorem expect {x : M α} (msg : String) (hx : M.Yields x P) : M.Yields (M.expect msg x) P := by
  intro fs a fs' h
  unfold M.expect at h
  split at h
  · cases h
  · exact hx _ _ _ h

end M.Yields

section
variable {S : Type} {P : S → Prop}

theorem runSteps_yields {rd : Nat → S → FS → Res Bytes} {wr : Nat → Bytes → S → M S}
    (hw : ∀ t bs s, P s → M.Yields (wr t bs s) P) :
    ∀ (ts : List Nat) (pend : Nat → Option Bytes) (s : S), P s → M.Yields (runSteps rd wr ts pend s) P := by
  intro ts
  induction ts with
  | nil => intro pend s h; exact .pure h
  | cons t ts ih =>
    intro pend s h
    unfold runSteps
    split
    · exact .step fun bs => ih _ _ h
    · exact .bind (hw _ _ _ h) fun s' h' => ih _ _ h'

end

section
variable {E : Type} [Element E] {v : Bool}

theorem DiskStore.processLayer_flag (A : Alg E) (b : Nat) (σ : Sched) (s : DiskStore E) (w l r q : Nat)
    (h : s.loadedFromDisk = v) :
    M.Yields (DiskStore.processLayer A b σ s w l r q) (fun s' => s'.loadedFromDisk = v) := by
  unfold DiskStore.processLayer
  refine .step fun _ => .step fun _ => runSteps_yields (fun t bs s hs => .step fun _ => .pure hs) _ _ _ h

theorem DiskStore.buildLoop_flag (A : Alg E) (b : Nat) (σ : Sched) :
    ∀ (f w l n : Nat) (s : DiskStore E), s.loadedFromDisk = v →
      M.Yields (DiskStore.buildLoop A b σ f w l n s) (fun r => r.1.loadedFromDisk = v) := by
  intro f
  induction f with
  | zero => intro w l n s _; exact .throw _
  | succ f ih =>
    intro w l n s h
    unfold DiskStore.buildLoop
    refine .ite ?_ (.pure h)
    exact .bind (DiskStore.processLayer_flag A b σ s _ _ _ _ h) fun s' h' => ih _ _ _ _ h'

theorem DiskStore.build_flag (A : Alg E) (b : Nat) (σ : Sched) (s : DiskStore E) (n rows : Nat)
    (c : Option StoreConfig) (h : s.loadedFromDisk = v) :
    M.Yields (DiskStore.build A b σ s n rows c) (fun r => r.2.loadedFromDisk = v) := by
  unfold DiskStore.build
  refine .step fun _ => .step fun _ => .step fun _ =>
    .bind (DiskStore.buildLoop_flag A b σ _ _ _ _ s h) fun r hr => ?_
  exact .step fun _ => .step fun _ => .step fun _ => .step fun _ => .pure hr

theorem DiskStore.writeAt_flag (s : DiskStore E) (e : E) (i : Nat) :
    M.Yields (DiskStore.writeAt s e i) (fun s' => s'.loadedFromDisk = s.loadedFromDisk) := by
  unfold DiskStore.writeAt
  exact .step fun _ => .pure rfl

theorem DiskStore.copyFromSlice_flag (s : DiskStore E) (bs : Bytes) (i : Nat) :
    M.Yields (DiskStore.copyFromSlice s bs i) (fun s' => s'.loadedFromDisk = s.loadedFromDisk) := by
  unfold DiskStore.copyFromSlice
  exact .step fun _ => .step fun _ => .step fun _ => .pure rfl

theorem DiskStore.push_flag (s : DiskStore E) (e : E) :
    M.Yields (DiskStore.push s e) (fun s' => s'.loadedFromDisk = s.loadedFromDisk) := by
  unfold DiskStore.push
  exact .step fun _ => DiskStore.writeAt_flag _ _ _

theorem DiskStore.compact_flag [FloatRows] (s : DiskStore E) (b : Nat) (c : StoreConfig) (version : Nat) (fs : FS) :
    (DiskStore.compact s b c version fs).2.1.loadedFromDisk = s.loadedFromDisk := by
  unfold DiskStore.compact
  repeat' split
  all_goals first
    | rfl
    | (dsimp only; repeat' split
       all_goals rfl)

theorem LevelCacheStore.processLayer_flag (A : Alg E) (b : Nat) (σ : Sched) (s : LevelCacheStore E) (w l r q : Nat)
    (h : s.loadedFromDisk = v) :
    M.Yields (LevelCacheStore.processLayer A b σ s w l r q) (fun s' => s'.loadedFromDisk = v) := by
  unfold LevelCacheStore.processLayer
  refine .step fun _ => .step fun _ => runSteps_yields (fun t bs s hs => .step fun _ => .pure hs) _ _ _ h

theorem LevelCacheStore.frontTruncate_flag (s : LevelCacheStore E) (c : StoreConfig) (n : Nat)
    (h : s.loadedFromDisk = v) :
    M.Yields (LevelCacheStore.frontTruncate s c n) (fun s' => s'.loadedFromDisk = v) := by
  unfold LevelCacheStore.frontTruncate
  exact .step fun _ => .step fun _ => .step fun _ => .step fun _ => .step fun _ => .step fun _ => .pure h

theorem LevelCacheStore.buildLoop_flag (A : Alg E) (b : Nat) (σ : Sched) (c : StoreConfig) (i : Nat) :
    ∀ (f w l n : Nat) (s : LevelCacheStore E), s.loadedFromDisk = v →
      M.Yields (LevelCacheStore.buildLoop A b σ c i f w l n s) (fun r => r.1.loadedFromDisk = v) := by
  intro f
  induction f with
  | zero => intro w l n s _; exact .throw _
  | succ f ih =>
    intro w l n s h
    unfold LevelCacheStore.buildLoop
    refine .ite ?_ (.pure h)
    refine .bind (LevelCacheStore.processLayer_flag A b σ s _ _ _ _ h) fun s' h' => ?_
    exact .bind (.ite (LevelCacheStore.frontTruncate_flag _ _ _ h') (.pure h')) fun s'' h'' => ih _ _ _ _ h''

theorem LevelCacheStore.build_flag [FloatRows] (A : Alg E) (b : Nat) (σ : Sched) (s : LevelCacheStore E)
    (n rows : Nat) (c : Option StoreConfig) (h : s.loadedFromDisk = v) :
    M.Yields (LevelCacheStore.build A b σ s n rows c) (fun r => r.2.loadedFromDisk = v) := by
  unfold LevelCacheStore.build
  refine .step fun _ => .step fun _ => .step fun _ => ?_
  cases c with
  | none => exact .throw _
  | some c =>
    refine .step fun _ => .step fun _ => .step fun _ =>
      .bind (LevelCacheStore.buildLoop_flag A b σ c _ _ _ _ _ s h) fun r hr => ?_
    exact .step fun _ => .step fun _ => .step fun _ => .step fun _ => .step fun _ => .step fun _ => .pure hr

theorem LevelCacheStore.writeAt_flag (s : LevelCacheStore E) (e : E) (i : Nat) :
    M.Yields (LevelCacheStore.writeAt s e i) (fun s' => s'.loadedFromDisk = s.loadedFromDisk) := by
  unfold LevelCacheStore.writeAt
  exact .step fun _ => .pure rfl

theorem LevelCacheStore.copyFromSlice_flag (s : LevelCacheStore E) (bs : Bytes) (i : Nat) :
    M.Yields (LevelCacheStore.copyFromSlice s bs i) (fun s' => s'.loadedFromDisk = s.loadedFromDisk) := by
  unfold LevelCacheStore.copyFromSlice
  exact .step fun _ => .step fun _ => .step fun _ => .pure rfl

theorem LevelCacheStore.push_flag (s : LevelCacheStore E) (e : E) :
    M.Yields (LevelCacheStore.push s e) (fun s' => s'.loadedFromDisk = s.loadedFromDisk) := by
  unfold LevelCacheStore.push
  exact .step fun _ => LevelCacheStore.writeAt_flag _ _ _

end

section
variable {S E : Type} [Element E] [Store S E] {v : Bool}
open StoreOps

/-- A store whose `loaded_from_disk` tells whether the configured file was there, and stays as it is. -/
structure TellsLoaded (S E : Type) [Element E] [Store S E] : Prop where
  config : ∀ size b c fs (s : S) fs', Store.newWithConfig size b c fs = (.ok s, fs') →
    loadedFromDisk (E := E) s = (fs.file c.file).isSome
  slice : ∀ size b data c fs (s : S) fs', Store.newFromSliceWithConfig size b data c fs = (.ok s, fs') →
    loadedFromDisk (E := E) s = (fs.file c.file).isSome
  copy : ∀ (s : S) bs i, M.Yields (copyFromSlice s bs i)
    (fun s' => loadedFromDisk (E := E) s' = loadedFromDisk (E := E) s)
  build : ∀ (A : Alg E) b σ (s : S) n rows c, M.Yields (Store.build A b σ s n rows c)
    (fun r => loadedFromDisk (E := E) r.2 = loadedFromDisk (E := E) s)

theorem TellsLoaded.populateLoop (h : TellsLoaded S E) (A : Alg E) :
    ∀ (items : List (Res E)) (a : A.σ) (buf : Bytes) (s : S), loadedFromDisk (E := E) s = v →
      M.Yields (populateLoop A items a buf s) (fun r => loadedFromDisk (E := E) r.2 = v) := by
  intro items
  induction items with
  | nil => intro a buf s hs; exact .pure hs
  | cons x xs ih =>
    intro a buf s hs
    unfold Verif.populateLoop
    refine .step fun item => ?_
    exact .ite (.bind (h.copy _ _ _) fun s' hs' => ih _ _ _ (hs'.trans hs)) (ih _ _ _ hs)

theorem TellsLoaded.populateData (h : TellsLoaded S E) (A : Alg E) (s : S) (items : List (Res E))
    (hs : loadedFromDisk (E := E) s = v) :
    M.Yields (populateData A s items) (fun s' => loadedFromDisk (E := E) s' = v) := by
  unfold Verif.populateData
  refine .ite (.pure hs) (.bind (h.populateLoop A items _ _ s hs) fun r hr => ?_)
  intro fs s' fs' e
  exact (h.copy _ _ _ _ _ _ e).trans hr

theorem TellsLoaded.populateTasks (h : TellsLoaded S E) (A : Alg E) (cs : List (List E)) :
    ∀ (ts : List Nat) (s : S), loadedFromDisk (E := E) s = v →
      M.Yields (populateTasks A cs ts s) (fun s' => loadedFromDisk (E := E) s' = v) := by
  intro ts
  induction ts with
  | nil => intro s hs; exact .pure hs
  | cons t ts ih =>
    intro s hs
    unfold Verif.populateTasks
    exact .bind (h.copy _ _ _) fun s' hs' => ih _ (hs'.trans hs)

theorem TellsLoaded.populateDataPar (h : TellsLoaded S E) (A : Alg E) (π : ParOrder) (s : S) (items : List E)
    (hs : loadedFromDisk (E := E) s = v) :
    M.Yields (populateDataPar A π s items) (fun s' => loadedFromDisk (E := E) s' = v) := by
  unfold Verif.populateDataPar
  exact .ite (.pure hs) (h.populateTasks A _ _ s hs)

end
end Verif
