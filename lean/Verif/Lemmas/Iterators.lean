import Verif.Lemmas.Reject
/-!
Filling a store from an arbitrary iterator: what is known when it succeeds, and which error comes
out when the iterator fails.
-/
set_option linter.unusedSectionVars false
namespace Verif
open Spec StoreOps

section rel
variable {S E : Type} [Element E] [StoreOps S E]

/-- Anything every write preserves is preserved by filling. -/
theorem populateLoop_rel {R : S → S → Prop} (hr : ∀ s, R s s) (ht : ∀ a b c, R a b → R b c → R a c)
    (hc : ∀ (s : S) buf i fs s' fs', copyFromSlice (E := E) s buf i fs = (.ok s', fs') → R s s') {A : Alg E} :
    ∀ (items : List (Res E)) (a : A.σ) (buf : Bytes) (s : S) (fs : FS) (r : Bytes × S) (fs' : FS),
    populateLoop A items a buf s fs = (.ok r, fs') → R s r.2
  | [], a, buf, s, fs, r, fs', h => by
    simp only [populateLoop, M.pure_run, Prod.mk.injEq, Except.ok.injEq] at h
    rw [← h.1]; exact hr s
  | item :: items, a, buf, s, fs, r, fs', h => by
    rw [populateLoop] at h
    simp only [M.bind_ok_iff] at h
    obtain ⟨e, fs1, h1, h⟩ := h
    split at h
    · simp only [M.bind_ok_iff] at h
      obtain ⟨s1, fs2, h2, h⟩ := h
      exact ht _ _ _ (hc _ _ _ _ _ _ h2) (populateLoop_rel hr ht hc items _ _ _ _ _ _ h)
    · exact populateLoop_rel hr ht hc items _ _ _ _ _ _ h

theorem populateData_rel {R : S → S → Prop} (hr : ∀ s, R s s) (ht : ∀ a b c, R a b → R b c → R a c)
    (hc : ∀ (s : S) buf i fs s' fs', copyFromSlice (E := E) s buf i fs = (.ok s', fs') → R s s') {A : Alg E}
    {items : List (Res E)} {s s' : S} {fs fs' : FS}
    (h : populateData A s items fs = (.ok s', fs')) : R s s' := by
  unfold populateData at h
  split at h
  · simp only [M.pure_run, Prod.mk.injEq, Except.ok.injEq] at h
    rw [← h.1]; exact hr s
  · simp only [M.bind_ok_iff] at h
    obtain ⟨⟨buf, s1⟩, fs1, h1, h⟩ := h
    exact ht _ _ _ (populateLoop_rel hr ht hc _ _ _ _ _ _ _ h1) (hc _ _ _ _ _ _ h)

theorem populateTasks_rel {R : S → S → Prop} (hr : ∀ s, R s s) (ht : ∀ a b c, R a b → R b c → R a c)
    (hc : ∀ (s : S) buf i fs s' fs', copyFromSlice (E := E) s buf i fs = (.ok s', fs') → R s s') {A : Alg E}
    (cs : List (List E)) : ∀ (ts : List Nat) (s : S) (fs : FS) (s' : S) (fs' : FS),
    populateTasks A cs ts s fs = (.ok s', fs') → R s s'
  | [], s, fs, s', fs', h => by
    simp only [populateTasks, M.pure_run, Prod.mk.injEq, Except.ok.injEq] at h
    rw [← h.1]; exact hr s
  | t :: ts, s, fs, s', fs', h => by
    rw [populateTasks] at h
    simp only [M.bind_ok_iff] at h
    obtain ⟨s1, fs1, h1, h⟩ := h
    exact ht _ _ _ (hc _ _ _ _ _ _ h1) (populateTasks_rel hr ht hc cs ts _ _ _ _ h)

theorem populateDataPar_rel {R : S → S → Prop} (hr : ∀ s, R s s) (ht : ∀ a b c, R a b → R b c → R a c)
    (hc : ∀ (s : S) buf i fs s' fs', copyFromSlice (E := E) s buf i fs = (.ok s', fs') → R s s') {A : Alg E}
    {π : ParOrder} {items : List E} {s s' : S} {fs fs' : FS}
    (h : populateDataPar A π s items fs = (.ok s', fs')) : R s s' := by
  unfold populateDataPar at h
  split at h
  · simp only [M.pure_run, Prod.mk.injEq, Except.ok.injEq] at h
    rw [← h.1]; exact hr s
  · exact populateTasks_rel hr ht hc _ _ _ _ _ _ h

/-- An error of the iterator ends the filling, once the items before it went through. -/
theorem populateLoop_error {A : Alg E} {e : Fault} (rest : List (Res E)) :
    ∀ (es : List E) (a : A.σ) (buf : Bytes) (s : S) (fs : FS) (r : Bytes × S) (fs' : FS),
    populateLoop A (es.map .ok) a buf s fs = (.ok r, fs') →
    populateLoop A (es.map .ok ++ .error e :: rest) a buf s fs = (.error e, fs')
  | [], a, buf, s, fs, r, fs', h => by
    simp only [List.map_nil, populateLoop, M.pure_run, Prod.mk.injEq, Except.ok.injEq] at h
    rw [← h.2]
    rfl
  | x :: es, a, buf, s, fs, r, fs', h => by
    simp only [List.map_cons, List.cons_append] at h ⊢
    rw [populateLoop] at h ⊢
    rw [M.bind_ok (M.ofRes_ok _ _)] at h ⊢
    dsimp only at h ⊢
    split
    · rename_i hb
      rw [if_pos hb] at h
      simp only [M.bind_ok_iff] at h
      obtain ⟨s1, fs1, h1, h⟩ := h
      rw [M.bind_ok h1]
      exact populateLoop_error rest es _ _ _ _ _ _ h
    · rename_i hb
      rw [if_neg hb] at h
      exact populateLoop_error rest es _ _ _ _ _ _ h

end rel

/-- Stores whose length grows by exactly what is written. -/
class CountingStore (S : Type) (E : outParam Type) [Element E] [StoreOps S E] : Prop where
  copy_len : ∀ (s : S) (buf : Bytes) (i : Nat) (fs : FS) (s' : S) (fs' : FS),
    copyFromSlice (E := E) s buf i fs = (.ok s', fs') → Element.byteLen E ∣ buf.length ∧
      len (E := E) s' = max (len (E := E) s) (i + buf.length / Element.byteLen E)

section count
variable {S E : Type} [Element E] [LawfulElement E] [StoreOps S E] [CountingStore S E]

theorem populateLoop_count {A : Alg E} :
    ∀ (items : List (Res E)) (a : A.σ) (buf : Bytes) (s : S) (fs : FS) (r : Bytes × S) (fs' : FS),
    Element.byteLen E ∣ buf.length →
    populateLoop A items a buf s fs = (.ok r, fs') →
    ∃ es : List E, items = es.map .ok ∧ Element.byteLen E ∣ r.1.length ∧
      len (E := E) r.2 + r.1.length / Element.byteLen E
        = len (E := E) s + buf.length / Element.byteLen E + es.length
  | [], a, buf, s, fs, r, fs', hd, h => by
    simp only [populateLoop, M.pure_run, Prod.mk.injEq, Except.ok.injEq] at h
    rw [← h.1]
    exact ⟨[], rfl, hd, by simp⟩
  | item :: items, a, buf, s, fs, r, fs', hd, h => by
    have hp := LawfulElement.byteLen_pos (E := E)
    rw [populateLoop] at h
    simp only [M.bind_ok_iff] at h
    obtain ⟨x, fs1, h1, h⟩ := h
    simp only [M.ofRes_run, Prod.mk.injEq] at h1
    obtain ⟨rfl, rfl⟩ := h1
    have hl : (buf ++ Element.toBytes (A.leaf (A.reset a) x).1).length
        = buf.length + Element.byteLen E := by
      rw [List.length_append, LawfulElement.length_toBytes]
    have hd' : Element.byteLen E ∣ (buf ++ Element.toBytes (A.leaf (A.reset a) x).1).length := by
      rw [hl]; exact Nat.dvd_add hd (Nat.dvd_refl _)
    have hq : (buf ++ Element.toBytes (A.leaf (A.reset a) x).1).length / Element.byteLen E
        = buf.length / Element.byteLen E + 1 := by
      rw [hl, Nat.add_div_right _ hp]
    split at h
    · simp only [M.bind_ok_iff] at h
      obtain ⟨s1, fs2, h2, h⟩ := h
      obtain ⟨_, h3⟩ := CountingStore.copy_len _ _ _ _ _ _ h2
      obtain ⟨es, g1, g2, g3⟩ := populateLoop_count items _ _ _ _ _ _ (by simp) h
      refine ⟨x :: es, by rw [g1]; rfl, g2, ?_⟩
      rw [g3, h3, hq]
      simp
      omega
    · obtain ⟨es, g1, g2, g3⟩ := populateLoop_count items _ _ _ _ _ _ hd' h
      refine ⟨x :: es, by rw [g1]; rfl, g2, ?_⟩
      rw [g3, hq]
      simp
      omega

theorem populateData_count {A : Alg E} {items : List (Res E)} {s s' : S} {fs fs' : FS}
    (h0 : isEmpty (E := E) s = true) (hl : len (E := E) s = 0)
    (h : populateData A s items fs = (.ok s', fs')) :
    ∃ es : List E, items = es.map .ok ∧ len (E := E) s' = es.length := by
  unfold populateData at h
  rw [h0, if_neg (by simp)] at h
  simp only [M.bind_ok_iff] at h
  obtain ⟨⟨buf, s1⟩, fs1, h1, h⟩ := h
  obtain ⟨es, g1, g2, g3⟩ := populateLoop_count items _ _ _ _ _ _ (by simp) h1
  obtain ⟨_, h3⟩ := CountingStore.copy_len _ _ _ _ _ _ h
  refine ⟨es, g1, ?_⟩
  simp only [hl, List.length_nil, Nat.zero_div] at g3 h3
  rw [h3]
  generalize buf.length / Element.byteLen E = q at *
  omega

end count

section instances
variable {E : Type} [Element E] [LawfulElement E]

theorem modP_ok_iff {a b r : Nat} : modP a b = .ok r ↔ b ≠ 0 ∧ a % b = r := by
  unfold modP
  split <;> simp_all

theorem mapM_length {α β : Type} {f : α → Res β} : ∀ {xs : List α} {ys : List β},
    xs.mapM f = .ok ys → ys.length = xs.length
  | [], ys, h => by simp at h; subst h; rfl
  | x :: xs, ys, h => by
    rw [List.mapM_cons] at h
    simp only [bind_ok_iff, Res.pure_eq, Except.ok.injEq] at h
    obtain ⟨y, h1, zs, h2, rfl⟩ := h
    simp [mapM_length h2]

theorem mEnsure_ok_iff {c : Prop} [Decidable c] {m : String} {fs fs' : FS} {u : Unit} :
    mEnsure c m fs = (.ok u, fs') ↔ c ∧ fs' = fs := by
  by_cases h : c
  · rw [mEnsure_true h]; simp [h, eq_comm]
  · rw [mEnsure_false h]; simp [h]

instance : CountingStore (VecStore E) E where
  copy_len s buf i fs s' fs' h := by
    change VecStore.copyFromSlice s buf i fs = _ at h
    have hp := LawfulElement.byteLen_pos (E := E)
    unfold VecStore.copyFromSlice at h
    simp only [M.bind_ok_iff, M.ofRes_run, Prod.mk.injEq, mEnsure_ok_iff, modP_ok_iff, M.pure_run,
      Except.ok.injEq] at h
    obtain ⟨r, _, ⟨⟨_, h1⟩, rfl⟩, _, _, ⟨h2, rfl⟩, new, _, ⟨h3, rfl⟩, rfl, _⟩ := h
    have hd : Element.byteLen E ∣ buf.length := Nat.dvd_of_mod_eq_zero (by omega)
    have hn : new.length = buf.length / Element.byteLen E := by
      rw [mapM_length h3]
      unfold chunksExact
      obtain ⟨m, hm⟩ := hd
      rw [hm, Nat.mul_div_cancel_left _ hp, chunks_eq hp (m := m) (by
        rw [List.length_take, hm, Nat.mul_comm m]; simp)]
      simp
    refine ⟨hd, ?_⟩
    show (_ ++ _ ++ _ : List E).length = max s.els.length _
    simp only [List.length_append, hn, List.length_take, List.length_drop]
    split
    · rw [resize_length]; omega
    · omega

instance : CountingStore (DiskStore E) E where
  copy_len s buf i fs s' fs' h := by
    change DiskStore.copyFromSlice s buf i fs = _ at h
    unfold DiskStore.copyFromSlice at h
    simp only [M.bind_ok_iff, M.ofRes_run, Prod.mk.injEq, mEnsure_ok_iff, modP_ok_iff, M.pure_run,
      Except.ok.injEq] at h
    obtain ⟨r, _, ⟨⟨_, h1⟩, rfl⟩, _, _, ⟨h2, rfl⟩, _, _, _, rfl, _⟩ := h
    exact ⟨Nat.dvd_of_mod_eq_zero (by omega), rfl⟩

instance : CountingStore (LevelCacheStore E) E where
  copy_len s buf i fs s' fs' h := by
    change LevelCacheStore.copyFromSlice s buf i fs = _ at h
    unfold LevelCacheStore.copyFromSlice at h
    simp only [M.bind_ok_iff, M.ofRes_run, Prod.mk.injEq, mEnsure_ok_iff, modP_ok_iff, M.pure_run,
      Except.ok.injEq] at h
    obtain ⟨r, _, ⟨⟨_, h1⟩, rfl⟩, _, _, ⟨h2, rfl⟩, _, _, _, rfl, _⟩ := h
    exact ⟨Nat.dvd_of_mod_eq_zero (by omega), rfl⟩

theorem MmapStore.ensureMap_len {s s' : MmapStore E} {fs fs' : FS}
    (h : MmapStore.ensureMap s fs = (.ok s', fs')) : s'.len = s.len ∧ s'.file = s.file := by
  unfold MmapStore.ensureMap at h
  cases hm : s.map
  · rw [hm] at h
    unfold MmapStore.reinit at h
    simp only [M.bind_ok_iff, M.get_run, Prod.mk.injEq, M.pure_run, Except.ok.injEq] at h
    obtain ⟨n, _, _, rfl, _⟩ := h
    exact ⟨rfl, rfl⟩
  · rw [hm] at h
    simp only [M.pure_run, Prod.mk.injEq, Except.ok.injEq] at h
    rw [h.1]; exact ⟨rfl, rfl⟩

instance : CountingStore (MmapStore E) E where
  copy_len s buf i fs s' fs' h := by
    change MmapStore.copyFromSlice s buf i fs = _ at h
    unfold MmapStore.copyFromSlice at h
    simp only [M.bind_ok_iff, M.ofRes_run, Prod.mk.injEq, mEnsure_ok_iff, modP_ok_iff, M.pure_run,
      Except.ok.injEq] at h
    obtain ⟨r, _, ⟨⟨_, h1⟩, rfl⟩, _, _, ⟨h2, rfl⟩, s1, _, h3, _, _, _, rfl, _⟩ := h
    refine ⟨Nat.dvd_of_mod_eq_zero (by omega), ?_⟩
    have := (MmapStore.ensureMap_len h3).1
    show max s1.len _ = max s.len _
    rw [this]

end instances

/-! ### Constructors -/
section
variable {S E : Type} [Element E] [LawfulElement E] [Store S E] [RejectingStore S E]
  [CountingStore S E] [FloatRows]
open LawfulWrite
namespace BaseTree

/-- A tree comes out only if every item was there and as many as announced. -/
theorem tryFromIter_honest {A : Alg E} {b : Nat} {σ : Sched} {hint : Option Nat}
    {items : List (Res E)} {fs fs' : FS} {t : BaseTree S E}
    (h : tryFromIter A b σ hint items fs = (.ok t, fs')) :
    ∃ es : List E, items = es.map .ok ∧ hint = some es.length := by
  unfold tryFromIter at h
  split at h
  · simp at h
  · rename_i leafs
    simp only [M.bind_ok_iff, M.ofRes_run, Prod.mk.injEq] at h
    obtain ⟨⟨size, rows⟩, fs1, ⟨h1, rfl⟩, s, fs2, h2, s2, fs3, h3, h4⟩ := h
    obtain ⟨s', fs2', g1, _, g2, g3, _⟩ := LawfulStore.new_ok (S := S) fs size
    rw [g1] at h2
    simp only [Prod.mk.injEq, Except.ok.injEq] at h2
    obtain ⟨rfl, rfl⟩ := h2
    obtain ⟨es, e1, e2⟩ := populateData_count ((LawfulStore.isEmpty_iff s').2 g2) g2 h3
    refine ⟨es, e1, ?_⟩
    by_contra hne
    have hne : StoreOps.len (E := E) s2 ≠ leafs := fun hc => hne (by rw [← hc, e2])
    obtain ⟨m, hm⟩ := RejectingStore.build_len (A := A) (b := b) (rows := rows) σ fs3 hne none
    obtain ⟨⟨root, s3⟩, fs4, h5, _⟩ := h4
    rw [hm] at h5
    simp at h5

theorem M.expect_ok_iff {α : Type} {x : M α} {fs fs' : FS} {a : α} {msg : String} :
    M.expect msg x fs = (.ok a, fs') ↔ x fs = (.ok a, fs') := by
  unfold M.expect
  rcases x fs with ⟨e | _, f⟩
  · cases e <;> simp
  · simp

theorem tryFromIterWithConfig_honest {A : Alg E} {b : Nat} {σ : Sched} {hint : Option Nat}
    {items : List (Res E)} {fs fs' : FS} {c : StoreConfig} (hc : fs.file c.file = none)
    {t : BaseTree S E} (h : tryFromIterWithConfig A b σ hint items c fs = (.ok t, fs')) :
    ∃ es : List E, items = es.map .ok ∧ hint = some es.length := by
  unfold tryFromIterWithConfig at h
  split at h
  · simp at h
  · rename_i leafs
    simp only [M.bind_ok_iff, M.ofRes_run, Prod.mk.injEq] at h
    obtain ⟨⟨size, rows⟩, fs1, ⟨h1, rfl⟩, s, fs2, h2, h⟩ := h
    obtain ⟨s', fs2', g1, _, g2, g3, _⟩ := LawfulStore.newWithConfig_ok (S := S) fs size b c hc
    rw [g1] at h2
    simp only [Prod.mk.injEq, Except.ok.injEq] at h2
    obtain ⟨rfl, rfl⟩ := h2
    rw [g3] at h
    simp only [Bool.false_eq_true, ↓reduceIte, M.bind_ok_iff, M.expect_ok_iff] at h
    obtain ⟨s2, fs3, h3, h4⟩ := h
    obtain ⟨es, e1, e2⟩ := populateData_count ((LawfulStore.isEmpty_iff s').2 g2) g2 h3
    refine ⟨es, e1, ?_⟩
    by_contra hne
    have hne : StoreOps.len (E := E) s2 ≠ leafs := fun hc => hne (by rw [← hc, e2])
    obtain ⟨m, hm⟩ := RejectingStore.build_len (A := A) (b := b) (rows := rows) σ fs3 hne (some c)
    obtain ⟨⟨root, s3⟩, fs4, h5, _⟩ := h4
    rw [hm] at h5
    simp at h5

/-- The error of the iterator is the error of the constructor. -/
theorem tryFromIter_error {A : Alg E} (hA : A.LawfulReset) {b : Nat} {σ : Sched} {hint size rows : Nat}
    (hsz : sizes b hint = .ok (size, rows)) (es : List E) (hfit : es.length ≤ size) (e : Fault)
    (rest : List (Res E)) (fs : FS) :
    ∃ fs', tryFromIter (S := S) A b σ (some hint) (es.map .ok ++ .error e :: rest) fs
      = (.error e, fs') := by
  obtain ⟨s, fs1, h1, h2, h3, h4, h5⟩ := LawfulStore.new_ok (S := S) fs size
  have h0 : Filled fs1 s size 0 (fun i => (es.map A.leafHash).getD i (A.leafHash Element.default)) :=
    ⟨h2, h3, fun i hi => by omega⟩
  obtain ⟨p, n, s1, fs2, g1, _⟩ := populateLoop_ok hA (es.map A.leafHash) (A.leafHash Element.default)
    (by simpa using hfit) es A.init [] 0 s fs1 h0 (by omega) (by simp)
  have g1' := populateLoop_error (e := e) rest es A.init [] s fs1 _ _ g1
  refine ⟨fs2, ?_⟩
  unfold tryFromIter
  dsimp only
  rw [M.bind_ok (a := (size, rows)) (fs' := fs) (by rw [M.ofRes_run, hsz])]
  dsimp only
  rw [M.bind_ok h1]
  apply M.bind_error
  unfold populateData
  rw [(LawfulStore.isEmpty_iff s).2 h3, if_neg (by simp)]
  exact M.bind_error g1'

/-- With a configuration the same error becomes a panic. -/
theorem tryFromIterWithConfig_error {A : Alg E} (hA : A.LawfulReset) {b : Nat} {σ : Sched}
    {hint size rows : Nat} (hsz : sizes b hint = .ok (size, rows)) (es : List E)
    (hfit : es.length ≤ size) (m : String) (rest : List (Res E)) {fs : FS} {c : StoreConfig}
    (hc : fs.file c.file = none) :
    ∃ fs', tryFromIterWithConfig (S := S) A b σ (some hint) (es.map .ok ++ .error (.err m) :: rest) c fs
      = (.error (.panic "failed to populate data"), fs') := by
  obtain ⟨s, fs1, h1, h2, h3, h4, h5⟩ := LawfulStore.newWithConfig_ok (S := S) fs size b c hc
  have h0 : Filled fs1 s size 0 (fun i => (es.map A.leafHash).getD i (A.leafHash Element.default)) :=
    ⟨h2, h3, fun i hi => by omega⟩
  obtain ⟨p, n, s1, fs2, g1, _⟩ := populateLoop_ok hA (es.map A.leafHash) (A.leafHash Element.default)
    (by simpa using hfit) es A.init [] 0 s fs1 h0 (by omega) (by simp)
  have g1' := populateLoop_error (e := .err m) rest es A.init [] s fs1 _ _ g1
  refine ⟨fs2, ?_⟩
  unfold tryFromIterWithConfig
  dsimp only
  rw [M.bind_ok (a := (size, rows)) (fs' := fs) (by rw [M.ofRes_run, hsz])]
  dsimp only
  rw [M.bind_ok h1, h4]
  simp only [Bool.false_eq_true, ↓reduceIte]
  apply M.bind_error
  have : populateData A s (es.map .ok ++ .error (.err m) :: rest) fs1 = (.error (.err m), fs2) := by
    unfold populateData
    rw [(LawfulStore.isEmpty_iff s).2 h3, if_neg (by simp)]
    exact M.bind_error g1'
  unfold M.expect
  rw [this]

end BaseTree
end
end Verif
