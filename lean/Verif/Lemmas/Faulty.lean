import Verif.Lemmas.MayFail
import Verif.Spec.Source
/-!
Readable forms of the simulations of Verif/Lemmas/MayFail.lean, and the store that fails according to a
plan.
-/
set_option linter.unusedSectionVars false
namespace Verif

/-! ### Readable forms of `Sim` -/

theorem Fault.IsErr.exists : ∀ {e : Fault}, e.IsErr → ∃ m, e = .err m
  | .err m, _ => ⟨m, rfl⟩

theorem Res.Sim.or_eq {α : Type} {x' x : Res α} (h : Res.Sim Fault.IsErr (· = ·) x' x) :
    x'.IsErr ∨ x' = x := by
  cases x' with
  | error e =>
    rcases h with h | h
    · obtain ⟨m, rfl⟩ := h.exists; exact .inl ⟨m, _root_.rfl⟩
    · exact .inr h.symm
  | ok a => obtain ⟨b, hb, rfl⟩ := h; exact .inr hb.symm

theorem Res.Sim.or_map {α' α : Type} {g : α' → α} {x' : Res α'} {x : Res α}
    (h : Res.Sim Fault.IsErr (fun a' a => g a' = a) x' x) : x'.IsErr ∨ x = x'.map g := by
  cases x' with
  | error e =>
    rcases h with h | h
    · obtain ⟨m, rfl⟩ := h.exists; exact .inl ⟨m, _root_.rfl⟩
    · exact .inr h
  | ok a => obtain ⟨b, hb, rfl⟩ := h; exact .inr hb

theorem M.Sim.or_eq {α : Type} {x' x : M α} (h : M.Sim Fault.IsErr (· = ·) x' x) (fs : FS) :
    (x' fs).1.IsErr ∨ x' fs = x fs := by
  have h := h fs
  cases hx : x' fs with
  | mk r fs' =>
    rw [hx] at h
    cases r with
    | error e =>
      rcases h with h | h
      · obtain ⟨m, rfl⟩ := h.exists; exact .inl ⟨m, _root_.rfl⟩
      · exact .inr h.symm
    | ok a => obtain ⟨b, hb, rfl⟩ := h; exact .inr hb.symm

theorem M.Sim.or_map {α' α : Type} {g : α' → α} {x' : M α'} {x : M α}
    (h : M.Sim Fault.IsErr (fun a' a => g a' = a) x' x) (fs : FS) :
    (x' fs).1.IsErr ∨ x fs = ((x' fs).1.map g, (x' fs).2) := by
  have h := h fs
  cases hx : x' fs with
  | mk r fs' =>
    rw [hx] at h
    cases r with
    | error e =>
      rcases h with h | h
      · obtain ⟨m, rfl⟩ := h.exists; exact .inl ⟨m, _root_.rfl⟩
      · exact .inr h
    | ok a => obtain ⟨b, hb, rfl⟩ := h; exact .inr hb

theorem M.Sim.ok_map {F : Fault → Prop} {α' α : Type} {g : α' → α} {x' : M α'} {x : M α}
    (h : M.Sim F (fun a' a => g a' = a) x' x) {fs fs' : FS} {a : α'} (hx : x' fs = (.ok a, fs')) :
    x fs = (.ok (g a), fs') := by
  have h := h fs
  rw [hx] at h
  obtain ⟨b, hb, rfl⟩ := h
  exact hb

/-! ### The failing store -/

namespace Faulty
variable {p : FaultPlan} {S E : Type}

theorem sim_ioError {α' α : Type} {R : α' → α → Prop} {x : Res α} :
    Res.Sim Fault.IsErr R ioError x := .inl trivial

theorem sim_onWrite (s : Faulty p S) (f : S → M S) :
    M.Sim Fault.IsErr (fun t' t => Faulty.inner t' = t) (s.onWrite f) (f s.inner) := by
  unfold onWrite
  split
  · exact fun fs => .inl trivial
  · intro fs
    cases h : f s.inner fs with
    | mk r fs' =>
      rw [M.bind_run, h]
      cases r with
      | error e => exact .inr rfl
      | ok t => exact ⟨t, rfl, rfl⟩

theorem sim_onNew (f : M S) :
    M.Sim Fault.IsErr (fun t' t => Faulty.inner t' = t) (onNew (p := p) f) f := by
  unfold onNew
  split
  · exact fun fs => .inl trivial
  · intro fs
    cases h : f fs with
    | mk r fs' =>
      rw [M.bind_run, h]
      cases r with
      | error e => exact .inr rfl
      | ok t => exact ⟨t, rfl, rfl⟩

theorem sim_if {α : Type} {c : Bool} {x : Res α} :
    Res.Sim Fault.IsErr (· = ·) (if c then ioError else x) x := by
  split
  · exact sim_ioError
  · exact Res.Sim.rfl

instance [StoreOps S E] : MayFailOps (Faulty p S) S E where
  erase := inner
  len _ := rfl
  isEmpty _ := rfl
  loaded _ := rfl
  readAt _ _ _ := sim_if
  readRange _ _ _ _ := sim_if
  readInto _ _ _ _ := sim_if
  readRangeInto _ _ _ _ _ _ := sim_if
  writeAt s _ _ := sim_onWrite s _
  copyFromSlice s _ _ := sim_onWrite s _
  push s _ := sim_onWrite s _

instance [Element E] [Store S E] [DefaultBuild S E] : MayFail (Faulty p S) S E where
  new _ := sim_onNew _
  newWithConfig _ _ _ := sim_onNew _
  newFromSlice _ _ := sim_onNew _
  newFromSliceWithConfig _ _ _ _ := sim_onNew _
  build A b σ s n rows c := by
    rw [DefaultBuild.build_eq (S := S) (E := E)]
    exact MayFail.defaultBuild_sim (erase := inner) (fun _ => rfl) (fun _ _ _ => sim_if)
      (fun _ _ _ _ => sim_if) (fun s _ _ => sim_onWrite s _) (fun s _ _ => sim_onWrite s _) A b σ s n rows c

end Faulty

section
variable {S' S E : Type} [Element E] [Store S' E] [Store S E] [m : MayFail S' S E] [FloatRows]
  {A : Alg E} {b : Nat}

theorem Source.build_sim (σ : Sched) (src : Source A) (cfg : Option StoreConfig) :
    M.Sim Fault.Ends (fun t' t => BaseTree.mapStore m.erase t' = t) (src.build b σ cfg)
      (src.build b σ cfg) := by
  cases src <;> cases cfg <;> unfold Source.build <;>
    try unfold BaseTree.new <;> try unfold BaseTree.newWithConfig <;> try unfold BaseTree.fromData <;> try unfold BaseTree.fromDataWithConfig
  · exact (MayFail.tryFromIter_sim A b σ _ _).mono Fault.IsErr.ends
  · exact MayFail.tryFromIterWithConfig_sim A b σ _ _ _
  · exact (MayFail.tryFromIter_sim A b σ _ _).mono Fault.IsErr.ends
  · exact MayFail.tryFromIterWithConfig_sim A b σ _ _ _
  · exact MayFail.fromParIter_sim A b σ _ _
  · exact (MayFail.fromParIterWithConfig_sim A b σ _ _ _).mono Fault.IsErr.ends
  · exact (MayFail.tryFromIter_sim A b σ _ _).mono Fault.IsErr.ends
  · exact MayFail.tryFromIterWithConfig_sim A b σ _ _ _
  · exact (MayFail.fromByteSlice_sim A b σ _).mono Fault.IsErr.ends
  · exact (MayFail.fromByteSliceWithConfig_sim A b σ _ _).mono Fault.IsErr.ends

end
end Verif
