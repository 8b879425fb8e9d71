import Verif.Spec.MayFail
import Verif.Lemmas.M
/-!
Computations that may fail where another one goes on, and otherwise do the same.
-/
set_option linter.unusedSectionVars false
namespace Verif
open StoreOps

section rules
variable {α' α β' β γ : Type} {F : Fault → Prop} {R : α' → α → Prop} {Q : β' → β → Prop}

theorem Res.Sim.ok {a' : α'} {a : α} (h : R a' a) : Res.Sim F R (.ok a') (.ok a) := ⟨a, rfl, h⟩

theorem Res.Sim.error (e : Fault) : Res.Sim F R (.error e) (.error e) := .inr rfl

theorem Res.Sim.rfl {x : Res γ} : Res.Sim F (· = ·) x x := by
  cases x with
  | error e => exact .inr _root_.rfl
  | ok a => exact ⟨a, _root_.rfl, _root_.rfl⟩

theorem Res.Sim.bind {x' : Res α'} {x : Res α} {f' : α' → Res β'} {f : α → Res β}
    (h : Res.Sim F R x' x) (hf : ∀ a' a, R a' a → Res.Sim F Q (f' a') (f a)) :
    Res.Sim F Q (x' >>= f') (x >>= f) := by
  cases x' with
  | error e =>
    rcases h with h | h
    · exact .inl h
    · rw [h]; exact .inr _root_.rfl
  | ok a' =>
    obtain ⟨a, ha, hr⟩ := h
    rw [ha]
    exact hf a' a hr

/-- A step that is the same on both sides. -/
theorem Res.Sim.step {x : Res γ} {f' : γ → Res β'} {f : γ → Res β}
    (hf : ∀ a, Res.Sim F Q (f' a) (f a)) : Res.Sim F Q (x >>= f') (x >>= f) :=
  Res.Sim.rfl.bind fun a' a h => h ▸ hf a'

theorem Res.Sim.mono {G : Fault → Prop} {x' : Res α'} {x : Res α} (h : Res.Sim F R x' x)
    (hFG : ∀ e, F e → G e) : Res.Sim G R x' x := by
  cases x' with
  | error e => exact h.imp (hFG e) id
  | ok a' => exact h

theorem M.Sim.pure {a' : α'} {a : α} (h : R a' a) : M.Sim F R (Pure.pure a') (Pure.pure a) :=
  fun _ => ⟨a, _root_.rfl, h⟩

theorem M.Sim.rfl {x : M γ} : M.Sim F (· = ·) x x := by
  intro fs
  cases h : x fs with
  | mk r fs' =>
    cases r with
    | error e => exact .inr _root_.rfl
    | ok a => exact ⟨a, _root_.rfl, _root_.rfl⟩

theorem M.Sim.bind {x' : M α'} {x : M α} {f' : α' → M β'} {f : α → M β}
    (h : M.Sim F R x' x) (hf : ∀ a' a, R a' a → M.Sim F Q (f' a') (f a)) :
    M.Sim F Q (x' >>= f') (x >>= f) := by
  intro fs
  have h := h fs
  rw [M.bind_run, M.bind_run]
  cases hx : x' fs with
  | mk r fs' =>
    rw [hx] at h
    cases r with
    | error e =>
      rcases h with h | h
      · exact .inl h
      · rw [h]; exact .inr _root_.rfl
    | ok a' =>
      obtain ⟨a, ha, hr⟩ := h
      rw [ha]
      exact hf a' a hr fs'

theorem M.Sim.step {x : M γ} {f' : γ → M β'} {f : γ → M β}
    (hf : ∀ a, M.Sim F Q (f' a) (f a)) : M.Sim F Q (x >>= f') (x >>= f) :=
  M.Sim.rfl.bind fun a' a h => h ▸ hf a'

theorem M.Sim.ofRes {x' : Res α'} {x : Res α} (h : Res.Sim F R x' x) :
    M.Sim F R (M.ofRes x') (M.ofRes x) := by
  intro fs
  cases x' with
  | error e => exact h.imp id fun h => by rw [h, M.ofRes_run]
  | ok a' =>
    obtain ⟨a, ha, hr⟩ := h
    exact ⟨a, by rw [ha, M.ofRes_run], hr⟩

theorem M.Sim.get {f' : FS → Res α'} {f : FS → Res α} (h : ∀ fs, Res.Sim F R (f' fs) (f fs)) :
    M.Sim F R (M.get f') (M.get f) :=
  fun fs => M.Sim.ofRes (h fs) fs

theorem M.Sim.throw (e : Fault) : M.Sim F R (M.throw e) (M.throw e) := fun _ => .inr _root_.rfl

theorem M.Sim.mono {G : Fault → Prop} {x' : M α'} {x : M α} (h : M.Sim F R x' x)
    (hFG : ∀ e, F e → G e) : M.Sim G R x' x := by
  intro fs
  have h := h fs
  cases hx : x' fs with
  | mk r fs' =>
    rw [hx] at h
    cases r with
    | error e => exact h.imp (hFG e) id
    | ok a' => exact h

/-- `expect` turns an `Err` into a panic, so a panic has to be among the faults allowed. -/
theorem M.Sim.expect (msg : String) (hF : F (.panic msg)) {x' : M α'} {x : M α} (h : M.Sim F R x' x) :
    M.Sim F R (M.expect msg x') (M.expect msg x) := by
  intro fs
  have h := h fs
  unfold M.expect
  cases hx : x' fs with
  | mk r fs' =>
    rw [hx] at h
    cases r with
    | error e =>
      cases e with
      | err m => exact .inl hF
      | panic m =>
        rcases h with h | h
        · exact .inl h
        · rw [h]; exact .inr _root_.rfl
      | diverge =>
        rcases h with h | h
        · exact .inl h
        · rw [h]; exact .inr _root_.rfl
    | ok a' =>
      obtain ⟨a, ha, hr⟩ := h
      rw [ha]
      exact ⟨a, _root_.rfl, hr⟩

end rules

theorem Fault.IsErr.ends : ∀ e : Fault, e.IsErr → e.Ends
  | .err _, _ => trivial

namespace MayFail
variable {F : Fault → Prop} {S' S E : Type} [Element E]

section ops
variable [StoreOps S' E] [StoreOps S E] [m : MayFailOps S' S E]

theorem last (fs : FS) (s : S') :
    Res.Sim Fault.IsErr (· = ·) (StoreOps.last fs s : Res E) (StoreOps.last fs (m.erase s)) := by
  unfold StoreOps.last
  rw [m.len]
  exact Res.Sim.step fun i => m.readAt fs s i

end ops

/-! #### The default build -/
section build
variable [StoreOps S' E] [StoreOps S E] {erase : S' → S}
  (hl : ∀ s, StoreOps.len (E := E) (erase s) = StoreOps.len (E := E) s)
  (hr : ∀ fs s i, Res.Sim F (· = ·) (StoreOps.readAt fs s i : Res E) (StoreOps.readAt fs (erase s) i))
  (hrr : ∀ fs s a b, Res.Sim F (· = ·) (StoreOps.readRange fs s a b : Res (List E))
    (StoreOps.readRange fs (erase s) a b))
  (hw : ∀ s (e : E) i, M.Sim F (fun t' t => erase t' = t) (StoreOps.writeAt s e i)
    (StoreOps.writeAt (erase s) e i))
  (hc : ∀ s buf i, M.Sim F (fun t' t => erase t' = t)
    (StoreOps.copyFromSlice (E := E) s buf i) (StoreOps.copyFromSlice (E := E) (erase s) buf i))

omit [Element E] [StoreOps S' E] [StoreOps S E] in
theorem runSteps_sim {rd' : Nat → S' → FS → Res Bytes} {rd : Nat → S → FS → Res Bytes}
    {wr' : Nat → Bytes → S' → M S'} {wr : Nat → Bytes → S → M S}
    (h1 : ∀ t s fs, Res.Sim F (· = ·) (rd' t s fs) (rd t (erase s) fs))
    (h2 : ∀ t bs s, M.Sim F (fun t' t => erase t' = t) (wr' t bs s) (wr t bs (erase s))) :
    ∀ ts pend s, M.Sim F (fun t' t => erase t' = t) (runSteps rd' wr' ts pend s)
      (runSteps rd wr ts pend (erase s))
  | [], _, s => M.Sim.pure rfl
  | t :: ts, pend, s => by
    unfold runSteps
    cases pend t with
    | none =>
      exact M.Sim.bind (M.Sim.get fun fs => h1 t s fs) fun a' a h => by
        subst h; exact runSteps_sim h1 h2 ts _ s
    | some bs =>
      exact M.Sim.bind (h2 t bs s) fun s' s h => by subst h; exact runSteps_sim h1 h2 ts _ s'

include hrr hc in
theorem processLayer_sim (A : Alg E) (b : Nat) (σ : Sched) (s : S') (w l a c : Nat) :
    M.Sim F (fun t' t => erase t' = t) (processLayer A b σ s w l a c)
      (processLayer A b σ (erase s) w l a c) := by
  unfold processLayer
  refine M.Sim.step fun _ => runSteps_sim (fun t s fs => ?_) (fun t bs s => hc _ _ _) _ _ _
  unfold layerRead
  exact Res.Sim.bind (hrr fs s _ _) fun x' x h => by subst h; exact Res.Sim.rfl

include hw in
theorem writeLayer_sim (a : Nat) : ∀ (es : List E) (i : Nat) (s : S'),
    M.Sim F (fun t' t => erase t' = t) (writeLayer a es i s) (writeLayer a es i (erase s))
  | [], _, s => M.Sim.pure rfl
  | e :: es, i, s => by
    unfold writeLayer
    exact M.Sim.bind (hw s e _) fun s' s h => by subst h; exact writeLayer_sim a es _ s'

include hl hrr hw in
theorem smallTreeLoop_sim (A : Alg E) (b : Nat) : ∀ (f w l x : Nat) (s : S'),
    M.Sim F (fun y' y => erase y'.1 = y.1 ∧ y'.2 = y.2) (smallTreeLoop A b f w l x s)
      (smallTreeLoop A b f w l x (erase s))
  | 0, _, _, _, _ => M.Sim.throw _
  | f + 1, w, l, x, s => by
    unfold smallTreeLoop
    split
    · rw [hl]
      dsimp only
      refine M.Sim.bind (M.Sim.get fun fs => hrr fs s _ _) fun ns' ns h => ?_
      subst h
      refine M.Sim.bind (writeLayer_sim hw _ _ _ s) fun s' s1 h => ?_
      subst h
      exact smallTreeLoop_sim A b f _ _ _ s'
    · exact M.Sim.pure ⟨rfl, rfl⟩

include hl hrr hc in
theorem buildLoop_sim (A : Alg E) (b : Nat) (σ : Sched) : ∀ (f w l x : Nat) (s : S'),
    M.Sim F (fun y' y => erase y'.1 = y.1 ∧ y'.2 = y.2) (buildLoop A b σ f w l x s)
      (buildLoop A b σ f w l x (erase s))
  | 0, _, _, _, _ => M.Sim.throw _
  | f + 1, w, l, x, s => by
    unfold buildLoop
    split
    · rw [hl]
      dsimp only
      refine M.Sim.bind (processLayer_sim hrr hc A b σ s _ _ _ _) fun s' s1 h => ?_
      subst h
      exact buildLoop_sim A b σ f _ _ _ s'
    · exact M.Sim.pure ⟨rfl, rfl⟩

include hl hr in
theorem last_sim (fs : FS) (s : S') :
    Res.Sim F (· = ·) (StoreOps.last fs s : Res E) (StoreOps.last fs (erase s)) := by
  unfold StoreOps.last
  rw [hl]
  exact Res.Sim.step fun i => hr fs s i

include hl hr hrr hw hc in
theorem defaultBuild_sim (A : Alg E) (b : Nat) (σ : Sched) (s : S') (n rows : Nat)
    (c : Option StoreConfig) : M.Sim F (fun x' x => x'.1 = x.1 ∧ erase x'.2 = x.2)
      (defaultBuild A b σ s n rows c) (defaultBuild A b σ (erase s) n rows c) := by
  unfold defaultBuild
  rw [hl]
  refine M.Sim.step fun _ => M.Sim.step fun _ => M.Sim.step fun _ => ?_
  split
  · unfold buildSmallTree
    refine M.Sim.step fun _ => M.Sim.bind (smallTreeLoop_sim hl hrr hw A b _ _ _ _ s) ?_
    rintro ⟨s', l'⟩ ⟨s, l⟩ ⟨rfl, rfl⟩
    dsimp only
    refine M.Sim.step fun _ => M.Sim.bind (M.Sim.get fun fs => last_sim hl hr fs s') fun r' r h => ?_
    exact M.Sim.pure ⟨h, rfl⟩
  · refine M.Sim.bind (buildLoop_sim hl hrr hc A b σ _ _ _ _ s) ?_
    rintro ⟨s', l'⟩ ⟨s, l⟩ ⟨rfl, rfl⟩
    dsimp only
    refine M.Sim.step fun _ => M.Sim.bind (M.Sim.get fun fs => last_sim hl hr fs s') fun r' r h => ?_
    exact M.Sim.pure ⟨h, rfl⟩

end build

/-! #### Trees -/
section trees
variable [StoreOps S' E] [StoreOps S E] [m : MayFailOps S' S E]

theorem populateLoop_sim (A : Alg E) : ∀ (items : List (Res E)) (a : A.σ) (buf : Bytes) (s : S'),
    M.Sim Fault.IsErr (fun y' y => y'.1 = y.1 ∧ m.erase y'.2 = y.2) (populateLoop A items a buf s)
      (populateLoop A items a buf (m.erase s))
  | [], _, _, _ => M.Sim.pure ⟨rfl, rfl⟩
  | item :: items, a, buf, s => by
    unfold populateLoop
    refine M.Sim.step fun e => ?_
    dsimp only
    split
    · rw [m.len]
      refine M.Sim.bind (m.copyFromSlice s _ _) fun s' s1 h => ?_
      subst h
      exact populateLoop_sim A items _ _ s'
    · exact populateLoop_sim A items _ _ s

theorem populateData_sim (A : Alg E) (s : S') (items : List (Res E)) :
    M.Sim Fault.IsErr (fun t' t => m.erase t' = t) (populateData A s items) (populateData A (m.erase s) items) := by
  unfold populateData
  rw [m.isEmpty]
  split
  · exact M.Sim.pure rfl
  · refine M.Sim.bind (populateLoop_sim A items _ _ s) ?_
    rintro ⟨b', s'⟩ ⟨b, s⟩ ⟨rfl, rfl⟩
    dsimp only
    rw [m.len]
    exact m.copyFromSlice s' _ _

theorem populateTasks_sim (A : Alg E) (cs : List (List E)) : ∀ (ts : List Nat) (s : S'),
    M.Sim Fault.IsErr (fun t' t => m.erase t' = t) (populateTasks A cs ts s) (populateTasks A cs ts (m.erase s))
  | [], _ => M.Sim.pure rfl
  | t :: ts, s => by
    unfold populateTasks
    refine M.Sim.bind (m.copyFromSlice s _ _) fun s' s1 h => ?_
    subst h
    exact populateTasks_sim A cs ts s'

theorem populateDataPar_sim (A : Alg E) (π : ParOrder) (s : S') (items : List E) :
    M.Sim Fault.IsErr (fun t' t => m.erase t' = t) (populateDataPar A π s items)
      (populateDataPar A π (m.erase s) items) := by
  unfold populateDataPar
  rw [m.isEmpty]
  split
  · exact M.Sim.pure rfl
  · exact populateTasks_sim A _ _ s

end trees
end MayFail

namespace MayFail
variable {S' S E : Type} [Element E]

section constructors
variable [Store S' E] [Store S E] [m : MayFail S' S E] [FloatRows] (A : Alg E) (b : Nat) (σ : Sched)

theorem tryFromIter_sim (hint : Option Nat) (items : List (Res E)) :
    M.Sim Fault.IsErr (fun t' t => BaseTree.mapStore m.erase t' = t) (BaseTree.tryFromIter A b σ hint items)
      (BaseTree.tryFromIter A b σ hint items) := by
  unfold BaseTree.tryFromIter
  cases hint with
  | none => exact M.Sim.throw _
  | some n =>
    dsimp only
    refine M.Sim.step fun x => ?_
    refine M.Sim.bind (m.new _) fun s' s h => ?_
    subst h
    refine M.Sim.bind (populateData_sim A s' items) fun s' s h => ?_
    subst h
    refine M.Sim.bind (m.build A b σ s' _ _ _) ?_
    rintro ⟨r', s'⟩ ⟨r, s⟩ ⟨rfl, rfl⟩
    exact M.Sim.pure rfl

theorem tryFromIterWithConfig_sim (hint : Option Nat) (items : List (Res E))
    (c : StoreConfig) :
    M.Sim Fault.Ends (fun t' t => BaseTree.mapStore m.erase t' = t) (BaseTree.tryFromIterWithConfig A b σ hint items c)
      (BaseTree.tryFromIterWithConfig A b σ hint items c) := by
  unfold BaseTree.tryFromIterWithConfig
  cases hint with
  | none => exact M.Sim.throw _
  | some n =>
    dsimp only
    refine M.Sim.step fun x => ?_
    refine M.Sim.bind ((m.newWithConfig _ _ _).mono Fault.IsErr.ends) fun s' s h => ?_
    subst h
    rw [m.loaded]
    split
    · refine M.Sim.bind (M.Sim.get fun fs => (MayFail.last fs s').mono Fault.IsErr.ends) fun r' r h => ?_
      subst h
      exact M.Sim.pure rfl
    · refine M.Sim.bind (((populateData_sim A s' items).mono Fault.IsErr.ends).expect _ trivial) fun s' s h => ?_
      subst h
      refine M.Sim.bind ((m.build A b σ s' _ _ _).mono Fault.IsErr.ends) ?_
      rintro ⟨r', s'⟩ ⟨r, s⟩ ⟨rfl, rfl⟩
      exact M.Sim.pure rfl

theorem fromParIter_sim (π : ParOrder) (items : List E) :
    M.Sim Fault.Ends (fun t' t => BaseTree.mapStore m.erase t' = t) (BaseTree.fromParIter A b σ π items)
      (BaseTree.fromParIter A b σ π items) := by
  unfold BaseTree.fromParIter
  dsimp only
  refine M.Sim.step fun x => ?_
  refine M.Sim.bind (((m.new _).mono Fault.IsErr.ends).expect _ trivial) fun s' s h => ?_
  subst h
  refine M.Sim.bind ((populateDataPar_sim A π s' items).mono Fault.IsErr.ends) fun s' s h => ?_
  subst h
  refine M.Sim.bind ((m.build A b σ s' _ _ _).mono Fault.IsErr.ends) ?_
  rintro ⟨r', s'⟩ ⟨r, s⟩ ⟨rfl, rfl⟩
  exact M.Sim.pure rfl

theorem fromParIterWithConfig_sim (π : ParOrder) (items : List E) (c : StoreConfig) :
    M.Sim Fault.IsErr (fun t' t => BaseTree.mapStore m.erase t' = t) (BaseTree.fromParIterWithConfig A b σ π items c)
      (BaseTree.fromParIterWithConfig A b σ π items c) := by
  unfold BaseTree.fromParIterWithConfig
  dsimp only
  refine M.Sim.step fun x => ?_
  refine M.Sim.bind (m.newWithConfig _ _ _) fun s' s h => ?_
  subst h
  rw [m.loaded]
  split
  · refine M.Sim.bind (M.Sim.get fun fs => MayFail.last fs s') fun r' r h => ?_
    subst h
    exact M.Sim.pure rfl
  · refine M.Sim.bind (populateDataPar_sim A π s' items) fun s' s h => ?_
    subst h
    refine M.Sim.bind (m.build A b σ s' _ _ _) ?_
    rintro ⟨r', s'⟩ ⟨r, s⟩ ⟨rfl, rfl⟩
    exact M.Sim.pure rfl

theorem fromByteSlice_sim (bytes : Bytes) :
    M.Sim Fault.IsErr (fun t' t => BaseTree.mapStore m.erase t' = t) (BaseTree.fromByteSlice A b σ bytes)
      (BaseTree.fromByteSlice A b σ bytes) := by
  unfold BaseTree.fromByteSlice
  refine M.Sim.step fun n => M.Sim.step fun x => ?_
  refine M.Sim.bind (m.newFromSlice _ _) fun s' s h => ?_
  subst h
  refine M.Sim.bind (m.build A b σ s' _ _ _) ?_
  rintro ⟨r', s'⟩ ⟨r, s⟩ ⟨rfl, rfl⟩
  exact M.Sim.pure rfl

theorem fromByteSliceWithConfig_sim (bytes : Bytes) (c : StoreConfig) :
    M.Sim Fault.IsErr (fun t' t => BaseTree.mapStore m.erase t' = t) (BaseTree.fromByteSliceWithConfig A b σ bytes c)
      (BaseTree.fromByteSliceWithConfig A b σ bytes c) := by
  unfold BaseTree.fromByteSliceWithConfig
  refine M.Sim.step fun n => M.Sim.step fun x => ?_
  refine M.Sim.bind (m.newFromSliceWithConfig _ _ _ _) fun s' s h => ?_
  subst h
  refine M.Sim.bind (m.build A b σ s' _ _ _) ?_
  rintro ⟨r', s'⟩ ⟨r, s⟩ ⟨rfl, rfl⟩
  exact M.Sim.pure rfl

theorem fromDataStore_sim (sub top : Nat) (s : S') (leafs : Nat) (fs : FS) :
    Res.Sim Fault.IsErr (fun t' t => BaseTree.mapStore m.erase t' = t) (BaseTree.fromDataStore b sub top s leafs fs)
      (BaseTree.fromDataStore b sub top (m.erase s) leafs fs) := by
  unfold BaseTree.fromDataStore
  rw [m.len]
  refine Res.Sim.step fun _ => Res.Sim.step fun _ => Res.Sim.step fun _ => Res.Sim.step fun _ =>
    Res.Sim.step fun _ => Res.Sim.step fun _ => Res.Sim.step fun _ => Res.Sim.step fun _ => ?_
  refine Res.Sim.bind (MayFail.last fs s) fun r' r h => ?_
  subst h
  exact Res.Sim.ok rfl

theorem fromTreeSlice_sim (sub top : Nat) (data : Bytes) (leafs : Nat) :
    M.Sim Fault.IsErr (fun t' t => BaseTree.mapStore m.erase t' = t)
      (BaseTree.fromTreeSlice (S := S') b sub top data leafs)
      (BaseTree.fromTreeSlice b sub top data leafs) := by
  unfold BaseTree.fromTreeSlice
  refine M.Sim.step fun n => ?_
  refine M.Sim.bind (m.newFromSlice _ _) fun s' s h => ?_
  subst h
  refine M.Sim.bind (M.Sim.get fun fs => MayFail.last fs s') fun r' r h => ?_
  subst h
  exact M.Sim.pure rfl

theorem fromTreeSliceWithConfig_sim (sub top : Nat) (data : Bytes) (leafs : Nat) (c : StoreConfig) :
    M.Sim Fault.IsErr (fun t' t => BaseTree.mapStore m.erase t' = t)
      (BaseTree.fromTreeSliceWithConfig (S := S') b sub top data leafs c)
      (BaseTree.fromTreeSliceWithConfig b sub top data leafs c) := by
  unfold BaseTree.fromTreeSliceWithConfig
  refine M.Sim.step fun n => ?_
  refine M.Sim.bind (m.newFromSliceWithConfig _ _ _ _) fun s' s h => ?_
  subst h
  refine M.Sim.bind (M.Sim.get fun fs => MayFail.last fs s') fun r' r h => ?_
  subst h
  exact M.Sim.pure rfl

end constructors

/-! #### Proofs -/
section proofs
variable [StoreOps S' E] [StoreOps S E] [m : MayFailOps S' S E] (b : Nat) (fs : FS)

omit [Element E] [StoreOps S' E] [StoreOps S E] m in
theorem siblings_sim {rd' rd : Nat → Res E} (h : ∀ k, Res.Sim Fault.IsErr (· = ·) (rd' k) (rd k)) (j : Nat) :
    ∀ n k, Res.Sim Fault.IsErr (· = ·) (BaseTree.siblings rd' j n k) (BaseTree.siblings rd j n k)
  | 0, _ => Res.Sim.rfl
  | n + 1, k => by
    unfold BaseTree.siblings
    split
    · refine Res.Sim.bind (h k) fun e' e he => ?_
      subst he
      refine Res.Sim.bind (siblings_sim h j n (k + 1)) fun es' es he => ?_
      subst he
      exact Res.Sim.rfl
    · exact siblings_sim h j n (k + 1)

omit [Element E] [StoreOps S' E] [StoreOps S E] m in
theorem proofLoop_sim {rd' rd : Nat → Res E} (h : ∀ k, Res.Sim Fault.IsErr (· = ·) (rd' k) (rd k)) (total : Nat) :
    ∀ f base width j, Res.Sim Fault.IsErr (· = ·) (BaseTree.proofLoop rd' b total f base width j)
      (BaseTree.proofLoop rd b total f base width j)
  | 0, _, _, _ => Res.Sim.rfl
  | f + 1, base, width, j => by
    unfold BaseTree.proofLoop
    split
    · dsimp only
      refine Res.Sim.bind (siblings_sim (fun k => h (base + k)) _ _ _) fun e' e he => ?_
      subst he
      refine Res.Sim.bind (proofLoop_sim h total f _ _ _) fun es' es he => ?_
      subst he
      exact Res.Sim.rfl
    · exact Res.Sim.rfl

theorem genProof_sim (sub top : Nat) (t : BaseTree S' E) (i : Nat) :
    Res.Sim Fault.IsErr (· = ·) (t.genProof b sub top fs i) ((t.mapStore m.erase).genProof b sub top fs i) := by
  unfold BaseTree.genProof BaseTree.length BaseTree.readAt BaseTree.mapStore
  dsimp only
  rw [m.len]
  refine Res.Sim.step fun _ => Res.Sim.step fun _ => Res.Sim.step fun _ => Res.Sim.step fun _ =>
    Res.Sim.step fun _ => Res.Sim.step fun _ => Res.Sim.step fun _ => ?_
  refine Res.Sim.bind (m.readAt fs t.store i) fun e' e h => ?_
  subst h
  refine Res.Sim.bind (proofLoop_sim b (fun k => m.readAt fs t.store k) _ _ _ _ _) fun e' e h => ?_
  subst h
  exact Res.Sim.rfl

omit [Element E] [StoreOps S' E] [StoreOps S E] m in
theorem cachedProofLoop_sim {rd' rd prd : Nat → Res E} (h : ∀ k, Res.Sim Fault.IsErr (· = ·) (rd' k) (rd k))
    (total dw ci : Nat) : ∀ f base width pb sw ss j,
      Res.Sim Fault.IsErr (· = ·) (BaseTree.cachedProofLoop rd' prd b total dw ci f base width pb sw ss j)
        (BaseTree.cachedProofLoop rd prd b total dw ci f base width pb sw ss j)
  | 0, _, _, _, _, _, _ => Res.Sim.rfl
  | f + 1, base, width, pb, sw, ss, j => by
    unfold BaseTree.cachedProofLoop
    split
    · dsimp only
      refine Res.Sim.bind (siblings_sim (fun k => ?_) _ _ _) fun e' e he => ?_
      · split
        · exact h _
        · exact Res.Sim.rfl
      subst he
      refine Res.Sim.bind (cachedProofLoop_sim h total dw ci f _ _ _ _ _ _) fun es' es he => ?_
      subst he
      exact Res.Sim.rfl
    · exact Res.Sim.rfl

theorem genProofWithPartialTree_sim [FloatRows] (sub top : Nat) (t : BaseTree S' E) (i rows : Nat)
    (pt : BaseTree (VecStore E) E) :
    Res.Sim Fault.IsErr (· = ·) (t.genProofWithPartialTree b sub top fs i rows pt)
      ((t.mapStore m.erase).genProofWithPartialTree b sub top fs i rows pt) := by
  unfold BaseTree.genProofWithPartialTree BaseTree.length BaseTree.mapStore
  dsimp only
  rw [m.len]
  refine Res.Sim.step fun _ => Res.Sim.step fun _ => Res.Sim.step fun _ => Res.Sim.step fun _ =>
    Res.Sim.step fun _ => Res.Sim.step fun _ => Res.Sim.step fun _ => Res.Sim.step fun _ =>
    Res.Sim.step fun _ => Res.Sim.step fun _ => Res.Sim.step fun _ => Res.Sim.step fun _ =>
    Res.Sim.step fun _ => Res.Sim.step fun _ => ?_
  refine Res.Sim.bind (m.readAt fs t.store i) fun e' e h => ?_
  subst h
  refine Res.Sim.bind (cachedProofLoop_sim b (fun k => m.readAt fs t.store k) _ _ _ _ _ _ _ _ _ _)
    fun e' e h => ?_
  subst h
  exact Res.Sim.rfl

theorem genCachedProof_sim [FloatRows] (A : Alg E) (sub top : Nat) (σ : Sched) (t : BaseTree S' E)
    (i : Nat) (rows : Option Nat) :
    M.Sim Fault.IsErr (· = ·) (t.genCachedProof A b sub top σ i rows)
      ((t.mapStore m.erase).genCachedProof A b sub top σ i rows) := by
  unfold BaseTree.genCachedProof
  show M.Sim Fault.IsErr (· = ·) _ _
  refine M.Sim.step fun _ => M.Sim.step fun _ => M.Sim.step fun _ => M.Sim.step fun _ =>
    M.Sim.step fun _ => M.Sim.step fun _ => M.Sim.step fun _ => M.Sim.step fun _ =>
    M.Sim.step fun _ => M.Sim.step fun _ => ?_
  refine M.Sim.bind (M.Sim.get fun fs => m.readRangeInto fs t.store _ _ _ (Nat.le_add_right _ _)) fun e' e h => ?_
  subst h
  refine M.Sim.step fun _ => M.Sim.step fun _ => M.Sim.step fun _ => M.Sim.step fun _ =>
    M.Sim.step fun _ => ?_
  exact M.Sim.get fun fs => genProofWithPartialTree_sim b fs sub top t i _ _

end proofs

/-! #### Layers of trees -/
section layers
variable {C' C : Type} {f : C' → C}

omit [Element E] in
theorem idxP_map (f : C' → C) (cs : List C') (i : Nat) :
    Res.Sim Fault.IsErr (fun c' c => f c' = c) (idxP cs i) (idxP (cs.map f) i) := by
  unfold idxP
  rw [List.getElem?_map]
  cases cs[i]? with
  | none => exact Res.Sim.error _
  | some c => exact Res.Sim.ok rfl

omit [Element E] in
theorem locate_sim {lf' : C' → Nat} {lf : C → Nat} (hl : ∀ c, lf (f c) = lf' c) (t : Node C' E)
    (arity i : Nat) : Res.Sim Fault.IsErr (fun x' x => x'.1 = x.1 ∧ f x'.2.1 = x.2.1 ∧ x'.2.2 = x.2.2)
      (Node.locate lf' t arity i) (Node.locate lf (t.mapChildren f) arity i) := by
  unfold Node.locate Node.mapChildren
  refine Res.Sim.step fun _ => Res.Sim.step fun _ => ?_
  refine Res.Sim.bind (idxP_map f _ _) fun c' c h => ?_
  subst h
  rw [hl]
  refine Res.Sim.step fun _ => Res.Sim.ok ⟨rfl, rfl, rfl⟩

omit [Element E] in
theorem layerReadAt_sim {lf' : C' → Nat} {lf : C → Nat} {rd' : C' → Nat → Res E} {rd : C → Nat → Res E}
    (hl : ∀ c, lf (f c) = lf' c) (hr : ∀ c i, Res.Sim Fault.IsErr (· = ·) (rd' c i) (rd (f c) i)) (t : Node C' E)
    (arity i : Nat) : Res.Sim Fault.IsErr (· = ·) (Node.readAt lf' rd' t arity i)
      (Node.readAt lf rd (t.mapChildren f) arity i) := by
  unfold Node.readAt
  rw [show (t.mapChildren f).children.length = t.children.length from List.length_map _]
  refine Res.Sim.step fun _ => Res.Sim.bind (locate_sim hl t arity i) ?_
  rintro ⟨a', c', l'⟩ ⟨a, c, l⟩ ⟨h1, h2, h3⟩
  dsimp only at h1 h2 h3 ⊢
  subst h2 h3
  exact hr c' l'

omit [Element E] in
theorem layerLemma_sim {rt' : C' → E} {rt : C → E} (hl : ∀ c, rt (f c) = rt' c) (t : Node C' E) (ti : Nat) :
    ∀ n i, Res.Sim Fault.IsErr (· = ·) (Node.layerLemma rt' t ti n i) (Node.layerLemma rt (t.mapChildren f) ti n i)
  | 0, _ => Res.Sim.rfl
  | n + 1, i => by
    unfold Node.layerLemma
    split
    · refine Res.Sim.bind (idxP_map f _ _) fun c' c h => ?_
      subst h
      refine Res.Sim.bind (layerLemma_sim hl t ti n (i + 1)) fun l' l h => ?_
      subst h
      rw [hl]
      exact Res.Sim.rfl
    · exact layerLemma_sim hl t ti n (i + 1)

omit [Element E] in
theorem genSubTreeProof_sim {lf' : C' → Nat} {lf : C → Nat} {rt' : C' → E} {rt : C → E}
    {g' : C' → Nat → Res (Proof E)} {g : C → Nat → Res (Proof E)}
    (hl : ∀ c, lf (f c) = lf' c) (ht : ∀ c, rt (f c) = rt' c)
    (hg : ∀ c i, Res.Sim Fault.IsErr (· = ·) (g' c i) (g (f c) i)) (b pt ps : Nat) (t : Node C' E) (arity i : Nat) :
    Res.Sim Fault.IsErr (· = ·) (Node.genSubTreeProof lf' rt' g' b pt ps t arity i)
      (Node.genSubTreeProof lf rt g b pt ps (t.mapChildren f) arity i) := by
  unfold Node.genSubTreeProof
  rw [show (t.mapChildren f).children.length = t.children.length from List.length_map _]
  refine Res.Sim.step fun _ => Res.Sim.step fun _ => Res.Sim.step fun _ => Res.Sim.step fun _ => ?_
  refine Res.Sim.bind (idxP_map f _ _) fun c' c h => ?_
  subst h
  rw [hl]
  refine Res.Sim.step fun _ => Res.Sim.bind (hg c' _) fun p' p h => ?_
  subst h
  refine Res.Sim.bind (layerLemma_sim ht t _ _ _) fun l' l h => ?_
  subst h
  exact Res.Sim.rfl

omit [Element E] in
theorem genCachedLayerProof_sim {lf' : C' → Nat} {lf : C → Nat} {rt' : C' → E} {rt : C → E}
    {g' : C' → Nat → M (Proof E)} {g : C → Nat → M (Proof E)}
    (hl : ∀ c, lf (f c) = lf' c) (ht : ∀ c, rt (f c) = rt' c)
    (hg : ∀ c i, M.Sim Fault.IsErr (· = ·) (g' c i) (g (f c) i)) (b pt ps : Nat) (t : Node C' E) (arity i : Nat) :
    M.Sim Fault.IsErr (· = ·) (Node.genCachedLayerProof lf' rt' g' b pt ps t arity i)
      (Node.genCachedLayerProof lf rt g b pt ps (t.mapChildren f) arity i) := by
  unfold Node.genCachedLayerProof
  refine M.Sim.step fun _ => M.Sim.step fun _ => ?_
  refine M.Sim.bind (M.Sim.ofRes (locate_sim hl t arity i)) ?_
  rintro ⟨a', c', l'⟩ ⟨a, c, l⟩ ⟨h1, h2, h3⟩
  dsimp only at h1 h2 h3 ⊢
  subst h1 h2 h3
  refine M.Sim.bind (hg c' _) fun p' p h => ?_
  subst h
  refine M.Sim.bind (M.Sim.ofRes (layerLemma_sim ht t _ _ _)) fun l' l h => ?_
  subst h
  exact M.Sim.rfl

end layers

section compound
variable [StoreOps S' E] [StoreOps S E] [m : MayFailOps S' S E] (fs : FS)

theorem tree1_readAt_sim (sub : Nat) : ∀ (t : Tree1 S' E) (i : Nat),
    Res.Sim Fault.IsErr (· = ·) (t.readAt sub fs i) ((t.mapStore m.erase).readAt sub fs i)
  | .base t, i => m.readAt fs t.store i
  | .sub t, i => layerReadAt_sim (f := BaseTree.mapStore m.erase) (lf := BaseTree.leafs) (lf' := BaseTree.leafs)
      (rd' := BaseTree.readAt fs) (rd := BaseTree.readAt fs) (fun _ => rfl) (fun c i => m.readAt fs c.store i) t sub i

theorem tree1_leafs (t : Tree1 S' E) : (t.mapStore m.erase).leafs = t.leafs := by cases t <;> rfl
theorem tree1_root (t : Tree1 S' E) : (t.mapStore m.erase).root = t.root := by cases t <;> rfl
theorem tree1_rowCount (t : Tree1 S' E) : (t.mapStore m.erase).rowCount = t.rowCount := by cases t <;> rfl
theorem tree1_length (t : Tree1 S' E) : (t.mapStore m.erase).length = t.length := by
  cases t
  · exact m.len _
  · rfl

theorem tree1_genProof_sim (b sub : Nat) : ∀ (t : Tree1 S' E) (i : Nat),
    Res.Sim Fault.IsErr (· = ·) (t.genProof b sub fs i) ((t.mapStore m.erase).genProof b sub fs i)
  | .base t, i => genProof_sim b fs sub 0 t i
  | .sub t, i => genSubTreeProof_sim (f := BaseTree.mapStore m.erase) (lf := BaseTree.leafs) (lf' := BaseTree.leafs) (rt := BaseTree.root) (rt' := BaseTree.root)
      (g' := BaseTree.genProof b 0 0 fs) (g := BaseTree.genProof b 0 0 fs) (fun _ => rfl) (fun _ => rfl) (fun c i => genProof_sim b fs 0 0 c i)
      b 0 sub t sub i

theorem tree1_genCachedProof_sim [FloatRows] (A : Alg E) (b sub : Nat) (σ : Sched) (rows : Option Nat) :
    ∀ (t : Tree1 S' E) (i : Nat), M.Sim Fault.IsErr (· = ·) (t.genCachedProof A b sub σ i rows)
      ((t.mapStore m.erase).genCachedProof A b sub σ i rows)
  | .base t, i => genCachedProof_sim b A sub 0 σ t i rows
  | .sub t, i => genCachedLayerProof_sim (f := BaseTree.mapStore m.erase) (lf := BaseTree.leafs) (lf' := BaseTree.leafs) (rt := BaseTree.root) (rt' := BaseTree.root)
      (g' := fun c i => c.genCachedProof A b 0 0 σ i rows) (g := fun c i => c.genCachedProof A b 0 0 σ i rows)
      (fun _ => rfl) (fun _ => rfl)
      (fun c i => genCachedProof_sim b A 0 0 σ c i rows) b 0 sub t sub i

theorem tree2_readAt_sim (sub top : Nat) : ∀ (t : Tree2 S' E) (i : Nat),
    Res.Sim Fault.IsErr (· = ·) (t.readAt sub top fs i) ((t.mapStore m.erase).readAt sub top fs i)
  | .base t, i => m.readAt fs t.store i
  | .sub t, i => layerReadAt_sim (f := BaseTree.mapStore m.erase) (lf := BaseTree.leafs) (lf' := BaseTree.leafs)
      (rd' := BaseTree.readAt fs) (rd := BaseTree.readAt fs) (fun _ => rfl) (fun c i => m.readAt fs c.store i) t sub i
  | .top t, i => layerReadAt_sim (f := Tree1.mapStore m.erase) (lf := Tree1.leafs) (lf' := Tree1.leafs)
      (rd' := Tree1.readAt sub fs) (rd := Tree1.readAt sub fs) tree1_leafs (tree1_readAt_sim fs sub) t top i

theorem tree2_genProof_sim (b sub top : Nat) : ∀ (t : Tree2 S' E) (i : Nat),
    Res.Sim Fault.IsErr (· = ·) (t.genProof b sub top fs i) ((t.mapStore m.erase).genProof b sub top fs i)
  | .base t, i => genProof_sim b fs sub top t i
  | .sub t, i => genSubTreeProof_sim (f := BaseTree.mapStore m.erase) (lf := BaseTree.leafs) (lf' := BaseTree.leafs) (rt := BaseTree.root) (rt' := BaseTree.root)
      (g' := BaseTree.genProof b 0 0 fs) (g := BaseTree.genProof b 0 0 fs) (fun _ => rfl) (fun _ => rfl) (fun c i => genProof_sim b fs 0 0 c i)
      b top sub t sub i
  | .top t, i => genSubTreeProof_sim (f := Tree1.mapStore m.erase) (lf := Tree1.leafs) (lf' := Tree1.leafs) (rt := Tree1.root) (rt' := Tree1.root)
      (g' := Tree1.genProof b sub fs) (g := Tree1.genProof b sub fs) tree1_leafs tree1_root (tree1_genProof_sim fs b sub) b top sub t top i

theorem tree2_genCachedProof_sim [FloatRows] (A : Alg E) (b sub top : Nat) (σ : Sched) (rows : Option Nat) :
    ∀ (t : Tree2 S' E) (i : Nat), M.Sim Fault.IsErr (· = ·) (t.genCachedProof A b sub top σ i rows)
      ((t.mapStore m.erase).genCachedProof A b sub top σ i rows)
  | .base t, i => genCachedProof_sim b A sub top σ t i rows
  | .sub t, i => genCachedLayerProof_sim (f := BaseTree.mapStore m.erase) (lf := BaseTree.leafs) (lf' := BaseTree.leafs) (rt := BaseTree.root) (rt' := BaseTree.root)
      (g' := fun c i => c.genCachedProof A b 0 0 σ i rows) (g := fun c i => c.genCachedProof A b 0 0 σ i rows)
      (fun _ => rfl) (fun _ => rfl)
      (fun c i => genCachedProof_sim b A 0 0 σ c i rows) b top sub t sub i
  | .top t, i => genCachedLayerProof_sim (f := Tree1.mapStore m.erase) (lf := Tree1.leafs) (lf' := Tree1.leafs) (rt := Tree1.root) (rt' := Tree1.root)
      (g' := fun c i => c.genCachedProof A b sub σ i rows) (g := fun c i => c.genCachedProof A b sub σ i rows)
      tree1_leafs tree1_root
      (fun c i => tree1_genCachedProof_sim A b sub σ rows c i) b top sub t top i

end compound

/-! #### Constructors of compound trees -/
section assemble
variable {C' C : Type} {f : C' → C}

omit [Element E] in
theorem assemble_map (A : Alg E) {l' n' r' : C' → Nat} {rt' : C' → E} {l n r : C → Nat} {rt : C → E}
    (hl : ∀ c, l (f c) = l' c) (hn : ∀ c, n (f c) = n' c) (hr : ∀ c, r (f c) = r' c)
    (ht : ∀ c, rt (f c) = rt' c) (arity : Nat) (cs : List C') :
    Res.Sim Fault.IsErr (fun t' t => Node.mapChildren f t' = t) (Node.assemble A l' n' r' rt' arity cs)
      (Node.assemble A l n r rt arity (cs.map f)) := by
  unfold Node.assemble
  have e1 : (∀ c ∈ cs.map f, some (r c) = (cs.map f).head?.map r) ↔
      (∀ c ∈ cs, some (r' c) = cs.head?.map r') := by
    simp only [List.mem_map, forall_exists_index, and_imp, forall_apply_eq_imp_iff₂, hr, List.head?_map,
      Option.map_map, Function.comp_def]
  have e2 : (∀ c ∈ cs.map f, some (n c) = (cs.map f).head?.map n) ↔
      (∀ c ∈ cs, some (n' c) = cs.head?.map n') := by
    simp only [List.mem_map, forall_exists_index, and_imp, forall_apply_eq_imp_iff₂, hn, List.head?_map,
      Option.map_map, Function.comp_def]
  have en : ∀ (P Q : Prop) [Decidable P] [Decidable Q], (P ↔ Q) → ∀ m, ensure P m = ensure Q m := by
    intro P Q _ _ h m
    unfold ensure
    by_cases hp : P
    · rw [if_pos hp, if_pos (h.1 hp)]
    · rw [if_neg hp, if_neg (fun hq => hp (h.2 hq))]
  rw [en _ _ e1, en _ _ e2, List.length_map]
  refine Res.Sim.step fun _ => Res.Sim.step fun _ => Res.Sim.step fun _ => Res.Sim.step fun _ => ?_
  refine Res.Sim.bind (idxP_map f _ _) fun c' c h => ?_
  subst h
  refine Res.Sim.ok ?_
  unfold Node.mapChildren
  simp only [hn, hr, List.map_map, Function.comp_def, ht, List.foldl_map, hl]

end assemble

section parts
variable [Store S' E] [Store S E] [m : MayFail S' S E] (A : Alg E) (b sub : Nat)

theorem fromTrees_sim (cs : List (BaseTree S' E)) :
    Res.Sim Fault.IsErr (fun t' t => Node.mapChildren (BaseTree.mapStore m.erase) t' = t) (fromTrees A sub cs)
      (fromTrees A sub (cs.map (BaseTree.mapStore m.erase))) :=
  assemble_map (f := BaseTree.mapStore m.erase) (l := BaseTree.leafs) (l' := BaseTree.leafs)
    (n := BaseTree.length) (n' := BaseTree.length) (r := BaseTree.rowCount) (r' := BaseTree.rowCount)
    (rt := BaseTree.root) (rt' := BaseTree.root) A (fun _ => rfl) (fun t => m.len t.store) (fun _ => rfl)
    (fun _ => rfl) sub cs

theorem fromSubTrees_sim (cs : List (Tree1 S' E)) :
    Res.Sim Fault.IsErr (fun t' t => Node.mapChildren (Tree1.mapStore m.erase) t' = t) (fromSubTrees A sub cs)
      (fromSubTrees A sub (cs.map (Tree1.mapStore m.erase))) :=
  assemble_map (f := Tree1.mapStore m.erase) A tree1_leafs tree1_length tree1_rowCount tree1_root sub cs

omit [Element E] [Store S' E] [Store S E] m in
theorem collectM_sim {α β' β : Type} {g' : α → M β'} {g : α → M β} {h : β' → β}
    (hg : ∀ a, M.Sim Fault.IsErr (fun x' x => h x' = x) (g' a) (g a)) :
    ∀ xs, M.Sim Fault.IsErr (fun y' y => y'.map h = y) (collectM g' xs) (collectM g xs)
  | [] => M.Sim.pure rfl
  | x :: xs => by
    unfold collectM
    refine M.Sim.bind (hg x) fun y' y e => ?_
    subst e
    refine M.Sim.bind (collectM_sim hg xs) fun ys' ys e => ?_
    subst e
    exact M.Sim.pure rfl

variable [FloatRows]

theorem fromSlices_sim (datas : List Bytes) (leafs : Nat) :
    M.Sim Fault.IsErr (fun t' t => Node.mapChildren (BaseTree.mapStore m.erase) t' = t)
      (fromSlices A b sub datas leafs) (fromSlices A b sub datas leafs) := by
  unfold fromSlices
  refine M.Sim.bind (collectM_sim (h := BaseTree.mapStore m.erase) (fun d => fromTreeSlice_sim b 0 0 d leafs) datas) fun ts' ts h => ?_
  subst h
  exact M.Sim.ofRes (fromTrees_sim A sub ts')

theorem fromSlicesWithConfigs_sim (datas : List Bytes) (leafs : Nat) (cs : List StoreConfig) :
    M.Sim Fault.IsErr (fun t' t => Node.mapChildren (BaseTree.mapStore m.erase) t' = t)
      (fromSlicesWithConfigs A b sub datas leafs cs) (fromSlicesWithConfigs A b sub datas leafs cs) := by
  unfold fromSlicesWithConfigs
  have h1 : ∀ d : Bytes × Nat, M.Sim Fault.IsErr (fun t' t => BaseTree.mapStore m.erase t' = t)
      (do
        let c ← M.ofRes (idxP cs d.2)
        BaseTree.fromTreeSliceWithConfig b 0 0 d.1 leafs c)
      (do
        let c ← M.ofRes (idxP cs d.2)
        BaseTree.fromTreeSliceWithConfig b 0 0 d.1 leafs c) :=
    fun d => M.Sim.step fun c => fromTreeSliceWithConfig_sim b 0 0 d.1 leafs c
  refine M.Sim.bind (collectM_sim h1 datas.zipIdx) fun ts' ts h => ?_
  subst h
  exact M.Sim.ofRes (fromTrees_sim A sub ts')

theorem fromStoreConfigs_sim (leafs : Nat) (cs : List StoreConfig) :
    M.Sim Fault.IsErr (fun t' t => Node.mapChildren (BaseTree.mapStore m.erase) t' = t)
      (fromStoreConfigs A b sub leafs cs) (fromStoreConfigs A b sub leafs cs) := by
  unfold fromStoreConfigs
  refine M.Sim.bind (collectM_sim (h := BaseTree.mapStore m.erase) (fun c => M.Sim.step fun n => M.Sim.bind (m.newWithConfig _ _ _)
    fun s' s h => ?_) cs) fun ts' ts h => ?_
  · subst h
    exact M.Sim.get fun fs => fromDataStore_sim b 0 0 s' leafs fs
  subst h
  exact M.Sim.ofRes (fromTrees_sim A sub ts')

theorem fromSubTreeStoreConfigs_sim (top leafs : Nat) (cs : List StoreConfig) :
    M.Sim Fault.IsErr (fun t' t => Node.mapChildren (Tree1.mapStore m.erase) t' = t)
      (fromSubTreeStoreConfigs A b sub top leafs cs) (fromSubTreeStoreConfigs A b sub top leafs cs) := by
  unfold fromSubTreeStoreConfigs
  refine M.Sim.step fun per => ?_
  refine M.Sim.bind (collectM_sim (h := Tree1.mapStore m.erase)
    (fun c => M.Sim.bind (fromStoreConfigs_sim A b sub leafs c) fun t' t h => ?_) _) fun ts' ts h => ?_
  · subst h
    exact M.Sim.pure rfl
  subst h
  exact M.Sim.ofRes (fromSubTrees_sim A top ts')

theorem fromStores_sim (leafs : Nat) : ∀ (ss : List S'),
    M.Sim Fault.IsErr (fun t' t => Node.mapChildren (BaseTree.mapStore m.erase) t' = t)
      (fromStores A b sub leafs ss) (fromStores A b sub leafs (ss.map m.erase)) := by
  intro ss
  unfold fromStores
  have : ∀ ss : List S', M.Sim Fault.IsErr (fun y' y => y'.map (BaseTree.mapStore m.erase) = y)
      (collectM (fun s => M.get (BaseTree.fromDataStore (E := E) b 0 0 s leafs)) ss)
      (collectM (fun s => M.get (BaseTree.fromDataStore (E := E) b 0 0 s leafs)) (ss.map m.erase)) := by
    intro ss
    induction ss with
    | nil => exact M.Sim.pure rfl
    | cons s ss ih =>
      rw [List.map_cons]
      unfold collectM
      refine M.Sim.bind (M.Sim.get fun fs => fromDataStore_sim b 0 0 s leafs fs) fun y' y e => ?_
      subst e
      refine M.Sim.bind ih fun ys' ys e => ?_
      subst e
      exact M.Sim.pure rfl
  refine M.Sim.bind (this ss) fun ts' ts h => ?_
  subst h
  exact M.Sim.ofRes (fromTrees_sim A sub ts')

end parts
end MayFail
end Verif
