import Verif.Lemmas.ArityOne
import Verif.Spec.Source
/-!
The constructors again, uniformly over where the leaves come from.
-/
set_option linter.unusedSectionVars false
namespace Verif
open Spec StoreOps LawfulWrite

/-- Files a construction may create. -/
def NewFiles (cfg : Option StoreConfig) (fs fs' : FS) (f : FileId) : Prop :=
  match cfg with
  | none => NewTemp fs fs' f
  | some c => f = c.file

theorem flat_isLayout {E : Type} (H : List E → Nat → E) {b k : Nat} (leaves : List E) (d : E)
    (hn : leaves.length = b ^ k) : IsLayout H b k leaves (flat H b k fun i => leaves.getD i d) where
  count := hn
  leaf i h := by rw [flat_leaf _ _ _ (by omega)]; exact getD_of_lt h d
  step l j hl hj := flat_step H _ hl hj

theorem layout_unique {E : Type} {H : List E → Nat → E} {b k : Nat} {leaves : List E} {f g : Nat → E}
    (hf : IsLayout H b k leaves f) (hg : IsLayout H b k leaves g) :
    ∀ i, i < nodes b k → f i = g i := by
  have key : ∀ l, l ≤ k → ∀ j, j < b ^ (k - l) → f (rowStart b k l + j) = g (rowStart b k l + j) := by
    intro l
    induction l with
    | zero =>
      intro _ j hj
      simp only [rowStart, Nat.zero_add]
      have hj' : j < leaves.length := by rw [hf.count]; simpa using hj
      rw [hf.leaf j hj', hg.leaf j hj']
    | succ l ih =>
      intro hl j hj
      rw [hf.step l j (by omega) hj, hg.step l j (by omega) hj]
      congr 1
      apply List.map_congr_left
      intro c hc
      have hc := List.mem_range.1 hc
      apply ih (by omega)
      have : b ^ (k - l) = b * b ^ (k - (l + 1)) := by
        rw [← Nat.pow_succ']; congr 1; omega
      rw [this]
      calc b * j + c < b * j + b := by omega
        _ = b * (j + 1) := by ring
        _ ≤ b * b ^ (k - (l + 1)) := Nat.mul_le_mul_left _ hj
  intro i hi
  obtain ⟨l, j, hl, hj, rfl⟩ := row_of_pos b k i hi
  exact key l hl j hj

theorem nodes_pos (b k : Nat) : 0 < nodes b k := by
  cases k <;> simp [nodes]
  induction ‹Nat› <;> simp_all [nodes]

section
variable {E : Type} {A : Alg E}

theorem BaseTree.IsTreeOf.reads {S₁ S₂ : Type} [StoreOps S₁ E] [StoreOps S₂ E] {b k : Nat}
    {leaves : List E} {fs₁ fs₂ : FS} {t₁ : BaseTree S₁ E} {t₂ : BaseTree S₂ E}
    (h₁ : t₁.IsTreeOf A b k leaves fs₁) (h₂ : t₂.IsTreeOf A b k leaves fs₂) :
    ∀ i, i < t₁.length → t₁.readAt fs₁ i = t₂.readAt fs₂ i := by
  obtain ⟨f, hf, r1, e1⟩ := h₁.nodes
  obtain ⟨g, hg, r2, e2⟩ := h₂.nodes
  intro i hi
  rw [h₁.len] at hi
  rw [r1 i hi, r2 i hi, layout_unique hf hg i hi]

/-- The summary of a tree over the given leaves. -/
def BaseTree.HasSummary (A : Alg E) (b k : Nat) (leaves : List E) (s : E × Nat × Nat × Nat) : Prop :=
  ∃ f, IsLayout A.nodeHash b k leaves f ∧ s = (f (nodes b k - 1), b ^ k, nodes b k, k + 1)

theorem BaseTree.HasSummary.unique {b k₁ k₂ : Nat} (hb : 2 ≤ b) {leaves : List E}
    {s₁ s₂ : E × Nat × Nat × Nat}
    (h₁ : HasSummary A b k₁ leaves s₁) (h₂ : HasSummary A b k₂ leaves s₂) : s₁ = s₂ := by
  obtain ⟨f, hf, rfl⟩ := h₁
  obtain ⟨g, hg, rfl⟩ := h₂
  obtain rfl : k₁ = k₂ := Nat.pow_right_injective hb (hf.count.symm.trans hg.count)
  rw [layout_unique hf hg _ (by have := nodes_pos b k₁; omega)]

theorem BaseTree.IsTreeOf.hasSummary {S : Type} [StoreOps S E] {b k : Nat}
    {leaves : List E} {fs : FS} {t : BaseTree S E} (h : t.IsTreeOf A b k leaves fs) :
    HasSummary A b k leaves t.summary := by
  obtain ⟨f, hf, _, e⟩ := h.nodes
  exact ⟨f, hf, by rw [summary, e, h.leafs, h.len, h.rows]⟩

theorem BaseTree.IsCacheOf.hasSummary [Element E] {b k : Nat} {leaves : List E} {fs : FS}
    {c : StoreConfig} {t : BaseTree (LevelCacheStore E) E} (h : t.IsCacheOf A b k leaves c fs) :
    HasSummary A b k leaves t.summary := by
  obtain ⟨f, hf, e, _⟩ := h.nodes
  exact ⟨f, hf, by rw [summary, e, h.leafs, h.len, h.rows]⟩

theorem BaseTree.IsCacheOf.file_eq [Element E] {b k : Nat} {leaves : List E} {fs₁ fs₂ : FS}
    {c : StoreConfig} {t₁ t₂ : BaseTree (LevelCacheStore E) E}
    (h₁ : t₁.IsCacheOf A b k leaves c fs₁) (h₂ : t₂.IsCacheOf A b k leaves c fs₂)
    (hd : c.rowsToDiscard < k) :
    fs₁.file c.file = fs₂.file c.file := by
  obtain ⟨f, hf, _, e1⟩ := h₁.nodes
  obtain ⟨g, hg, _, e2⟩ := h₂.nodes
  rw [e1, e2]
  congr 2
  apply List.map_congr_left
  intro i hi
  have hi := List.mem_range.1 hi
  apply layout_unique hf hg
  have := rowStart_le_nodes b k (c.rowsToDiscard + 1) hd
  rw [show k - (c.rowsToDiscard + 1) = k - 1 - c.rowsToDiscard by omega] at this
  omega

@[simp] theorem Source.leaves_withOrder (π : ParOrder) (src : Source A) :
    (src.withOrder π).leaves = src.leaves := by cases src <;> rfl

theorem Source.valid_withOrder {π : ParOrder} (h : π.Valid) (src : Source A) :
    (src.withOrder π).Valid := by cases src <;> first | exact h | trivial

end

section
variable {S E : Type} [Element E] [LawfulElement E] [Store S E]

theorem BaseTree.IsMerkle.isTreeOf [LawfulStore S E] {A : Alg E} {b k : Nat} {leaves : List E} {d : E}
    {fs : FS} {t : BaseTree S E} (h : t.IsMerkle A b k (fun i => leaves.getD i d) fs)
    (hn : leaves.length = b ^ k) : t.IsTreeOf A b k leaves fs where
  leafs := h.leafs
  len := h.filled.len_eq
  rows := h.rows
  nodes := ⟨_, flat_isLayout A.nodeHash leaves d hn, fun i hi =>
    LawfulRead.readAt_ok h.filled.inv (by rw [h.filled.len_eq]; exact hi) (h.filled.vals i hi), by
    rw [flat_root, h.root]⟩

namespace Source
variable {A : Alg E} [FloatRows]

theorem data_leaves (hA : A.LawfulReset) (ds : List (HashableVal A)) :
    (Source.data ds).leaves = (BaseTree.dataItems A ds A.init).map A.leafHash := by
  rw [BaseTree.dataItems_eq hA]
  simp [leaves]

theorem data_length (hA : A.LawfulReset) (ds : List (HashableVal A)) :
    (BaseTree.dataItems A ds A.init).length = ds.length := by
  rw [BaseTree.dataItems_eq hA, List.length_map]

variable [LawfulStore S E]

theorem build_ok (hA : A.LawfulReset) {b k : Nat} (hb : Arity b) (hb' : b ≤ buildChunkNodes)
    (hk : 1 ≤ k) (hf : FloatRows.ExactAt b k) {σ : Sched} (hσ : σ.Valid) (src : Source A)
    (hs : src.Valid) (hn : src.leaves.length = b ^ k) {fs : FS} (cfg : Option StoreConfig)
    (hc : ∀ c ∈ cfg, fs.file c.file = none) :
    ∃ (t : BaseTree S E) (fs' : FS) (d : E), src.build b σ cfg fs = (.ok t, fs') ∧
      t.IsMerkle A b k (fun i => src.leaves.getD i d) fs' ∧
      Fresh (owns t.store) (NewFiles cfg fs fs') fs fs' := by
  have iter : ∀ items : List E, items.length = b ^ k → ∃ (t : BaseTree S E) (fs' : FS),
      (match cfg with
      | none => BaseTree.tryFromIter A b σ (some items.length) (items.map .ok)
      | some c => BaseTree.tryFromIterWithConfig A b σ (some items.length) (items.map .ok) c) fs
        = (.ok t, fs') ∧
      t.IsMerkle A b k (hashedLeaves A items) fs' ∧ Fresh (owns t.store) (NewFiles cfg fs fs') fs fs' := by
    intro items hi
    cases cfg with
    | none => exact BaseTree.tryFromIter_ok hA hb hb' hk hf hσ hi fs
    | some c => exact BaseTree.tryFromIterWithConfig_ok hA hb hb' hk hf hσ hi (hc c rfl)
  cases src with
  | new items =>
    obtain ⟨t, fs', h1, h2, h3⟩ := iter items (by simpa [leaves] using hn)
    rw [← hashedLeaves_eq] at h2
    exact ⟨t, fs', _, by cases cfg <;> exact h1, h2, h3⟩
  | iter items =>
    obtain ⟨t, fs', h1, h2, h3⟩ := iter items (by simpa [leaves] using hn)
    rw [← hashedLeaves_eq] at h2
    exact ⟨t, fs', _, by cases cfg <;> exact h1, h2, h3⟩
  | par π items =>
    have hn : items.length = b ^ k := by simpa [leaves] using hn
    cases cfg with
    | none =>
      obtain ⟨t, fs', h1, h2, h3⟩ := BaseTree.fromParIter_ok (S := S) hA hb hb' hk hf hσ hs hn fs
      rw [← hashedLeaves_eq] at h2
      exact ⟨t, fs', _, h1, h2, h3⟩
    | some c =>
      obtain ⟨t, fs', h1, h2, h3⟩ := BaseTree.fromParIterWithConfig_ok (S := S) hA hb hb' hk hf hσ hs hn
        (hc c rfl)
      rw [← hashedLeaves_eq] at h2
      exact ⟨t, fs', _, h1, h2, h3⟩
  | data ds =>
    have hl := data_length hA ds
    obtain ⟨t, fs', h1, h2, h3⟩ := iter (BaseTree.dataItems A ds A.init) (by
      rw [hl]; simpa [leaves] using hn)
    rw [← hashedLeaves_eq, ← data_leaves hA] at h2
    rw [hl] at h1
    exact ⟨t, fs', _, by cases cfg <;> exact h1, h2, h3⟩
  | bytes es =>
    cases cfg with
    | none =>
      obtain ⟨t, fs', h1, h2, h3⟩ := BaseTree.fromByteSlice_ok (S := S) (A := A) hb hb' hk hf hσ
        Element.default hn fs
      exact ⟨t, fs', _, h1, h2, h3⟩
    | some c =>
      obtain ⟨t, fs', h1, h2, h3⟩ := BaseTree.fromByteSliceWithConfig_ok (S := S) (A := A) hb hb' hk hf
        hσ Element.default hn (hc c rfl)
      exact ⟨t, fs', _, h1, h2, h3⟩

end Source
end

section
variable {S E : Type} [Element E] [LawfulElement E] [Store S E] [RejectingStore S E] [FloatRows]
  {A : Alg E}

theorem Source.build_err (hA : A.LawfulReset) {b : Nat} (hb : b ≠ 1) {σ : Sched} (hσ : σ.Valid)
    (src : Source A) (hs : src.Valid) (hf : FloatRows.FloorAt b src.leaves.length)
    (hno : ¬ BaseTree.Buildable b src.leaves.length) {fs : FS} (cfg : Option StoreConfig)
    (hc : ∀ c ∈ cfg, fs.file c.file = none) :
    BaseTree.Rejected S b src.leaves.length (src.build b σ cfg fs) := by
  have iter : ∀ items : List E, FloatRows.FloorAt b items.length → ¬ BaseTree.Buildable b items.length →
      BaseTree.Rejected S b items.length ((match cfg with
      | none => BaseTree.tryFromIter A b σ (some items.length) (items.map .ok)
      | some c => BaseTree.tryFromIterWithConfig A b σ (some items.length) (items.map .ok) c) fs) := by
    intro items hf hno
    cases cfg with
    | none => exact BaseTree.tryFromIter_err hA hb hσ hf hno fs
    | some c => exact BaseTree.tryFromIterWithConfig_err hA hb hσ hf hno (hc c rfl)
  cases src with
  | new items =>
    simp only [leaves, List.length_map] at hf hno ⊢
    have := iter items hf hno
    cases cfg <;> exact this
  | iter items =>
    simp only [leaves, List.length_map] at hf hno ⊢
    have := iter items hf hno
    cases cfg <;> exact this
  | par π items =>
    simp only [leaves, List.length_map] at hf hno ⊢
    cases cfg with
    | none => exact BaseTree.fromParIter_err hA hb hσ hs hf hno fs
    | some c => exact BaseTree.fromParIterWithConfig_err hA hb hσ hs hf hno (hc c rfl)
  | data ds =>
    have hl := data_length hA ds
    simp only [leaves, List.length_map] at hf hno ⊢
    rw [← hl] at hf hno ⊢
    have := iter _ hf hno
    rw [hl] at this ⊢
    cases cfg <;> exact this
  | bytes es =>
    cases cfg with
    | none => exact BaseTree.fromByteSlice_err hb hσ hf hno fs
    | some c => exact BaseTree.fromByteSliceWithConfig_err hb hσ hf hno (hc c rfl)

theorem Source.ne_one [NoArityOne S E] {b : Nat} {σ : Sched} {src : Source A} {cfg : Option StoreConfig}
    {fs fs' : FS} {t : BaseTree S E} (hc : ∀ c ∈ cfg, fs.file c.file = none)
    (h : src.build b σ cfg fs = (.ok t, fs')) : b ≠ 1 := by
  have hl : ∀ c ∈ cfg, ∀ size s fs1, Store.newWithConfig (S := S) size b c fs = (.ok s, fs1) →
      loadedFromDisk (E := E) s = false := by
    intro c h size s fs1 h1
    obtain ⟨s', fs2, h2, _, _, h3, _⟩ := LawfulStore.newWithConfig_ok (S := S) fs size b c (hc c h)
    rw [h1] at h2
    simp only [Prod.mk.injEq, Except.ok.injEq] at h2
    rw [h2.1]; exact h3
  cases src <;> cases cfg <;> simp only [build, BaseTree.new, BaseTree.newWithConfig, BaseTree.fromData,
    BaseTree.fromDataWithConfig] at h
  · exact BaseTree.tryFromIter_ne_one h
  · exact BaseTree.tryFromIterWithConfig_ne_one (hl _ rfl) h
  · exact BaseTree.tryFromIter_ne_one h
  · exact BaseTree.tryFromIterWithConfig_ne_one (hl _ rfl) h
  · exact BaseTree.fromParIter_ne_one h
  · exact BaseTree.fromParIterWithConfig_ne_one (hl _ rfl) h
  · exact BaseTree.tryFromIter_ne_one h
  · exact BaseTree.tryFromIterWithConfig_ne_one (hl _ rfl) h
  · exact BaseTree.fromByteSlice_ne_one h
  · exact BaseTree.fromByteSliceWithConfig_ne_one h

/-- Everything that can be said about a successful construction. -/
theorem Source.build_sound [NoArityOne S E] (hA : A.LawfulReset) {b : Nat} {σ : Sched} (hσ : σ.Valid)
    {src : Source A} (hs : src.Valid) (hf : FloatRows.FloorAt b src.leaves.length)
    {cfg : Option StoreConfig} {fs fs' : FS} {t : BaseTree S E}
    (hc : ∀ c ∈ cfg, fs.file c.file = none) (h : src.build b σ cfg fs = (.ok t, fs')) :
    Arity b ∧ b ≤ buildChunkNodes ∧ ∃ k d, 1 ≤ k ∧ FloatRows.ExactAt b k ∧ src.leaves.length = b ^ k ∧
      t.IsMerkle A b k (fun i => src.leaves.getD i d) fs' ∧
      Fresh (owns t.store) (NewFiles cfg fs fs') fs fs' := by
  by_cases hB : BaseTree.Buildable b src.leaves.length
  · obtain ⟨hb, hb', k, hk, hn⟩ := hB
    have he : FloatRows.ExactAt b k := (hn ▸ hf).exact hb (by omega)
    obtain ⟨t', fs1, d, h1, h2, h3⟩ := Source.build_ok (S := S) hA hb hb' hk he hσ src hs hn cfg hc
    rw [h] at h1
    simp only [Prod.mk.injEq, Except.ok.injEq] at h1
    obtain ⟨rfl, rfl⟩ := h1
    exact ⟨hb, hb', k, d, hk, he, hn, h2, h3⟩
  · obtain ⟨e, he, _⟩ := Source.build_err (S := S) hA (Source.ne_one hc h) hσ src hs hf hB cfg hc
    rw [h] at he
    simp at he

end

/-! ### Level cache -/
section
variable {E : Type} [Element E] [LawfulElement E] [FloatRows] {A : Alg E}

theorem Source.build_cached (hA : A.LawfulReset) {b k : Nat} (hb : Arity b) (hb' : b ≤ buildChunkNodes)
    (hf : FloatRows.ExactAt b k) {σ : Sched} (hσ : σ.Valid) (src : Source A)
    (hs : src.Valid) (hn : src.leaves.length = b ^ k) {fs : FS} {c : StoreConfig}
    (hd : c.rowsToDiscard < k) (hc : fs.file c.file = none) :
    ∃ (t : BaseTree (LevelCacheStore E) E) (fs' : FS) (d : E),
      src.build b σ (some c) fs = (.ok t, fs') ∧
      t.IsCached A b k (fun i => src.leaves.getD i d) c fs' ∧
      SameOutside (fun f => f = c.file) fs fs' := by
  have hk : 1 ≤ k := by omega
  have iter : ∀ items : List E, items.length = b ^ k → ∃ (t : BaseTree (LevelCacheStore E) E) (fs' : FS),
      BaseTree.tryFromIterWithConfig A b σ (some items.length) (items.map .ok) c fs = (.ok t, fs') ∧
      t.IsCached A b k (hashedLeaves A items) c fs' ∧ SameOutside (fun f => f = c.file) fs fs' :=
    fun items hi => BaseTree.tryFromIterWithConfig_cached hA hb hb' hk hf hσ hd hc hi
  cases src with
  | new items =>
    obtain ⟨t, fs', h1, h2, h3⟩ := iter items (by simpa [leaves] using hn)
    rw [← hashedLeaves_eq] at h2
    exact ⟨t, fs', _, h1, h2, h3⟩
  | iter items =>
    obtain ⟨t, fs', h1, h2, h3⟩ := iter items (by simpa [leaves] using hn)
    rw [← hashedLeaves_eq] at h2
    exact ⟨t, fs', _, h1, h2, h3⟩
  | par π items =>
    obtain ⟨t, fs', h1, h2, h3⟩ := BaseTree.fromParIterWithConfig_cached hA hb hb' hk hf hσ hd hc hs
      (items := items) (by simpa [leaves] using hn)
    rw [← hashedLeaves_eq] at h2
    exact ⟨t, fs', _, h1, h2, h3⟩
  | data ds =>
    have hl := data_length hA ds
    obtain ⟨t, fs', h1, h2, h3⟩ := iter (BaseTree.dataItems A ds A.init) (by
      rw [hl]; simpa [leaves] using hn)
    rw [← hashedLeaves_eq, ← data_leaves hA] at h2
    rw [hl] at h1
    exact ⟨t, fs', _, h1, h2, h3⟩
  | bytes es =>
    obtain ⟨t, fs', h1, h2, h3⟩ := BaseTree.fromByteSliceWithConfig_cached (A := A) hb hb' hk hf hσ hd hc
      Element.default hn
    exact ⟨t, fs', _, h1, h2, h3⟩

theorem Source.build_cached_err (hA : A.LawfulReset) {b : Nat} (hb : b ≠ 1) (σ : Sched)
    (src : Source A) (hs : src.Valid) (hf : FloatRows.FloorAt b src.leaves.length) {c : StoreConfig}
    (hno : ¬ (Arity b ∧ b ≤ buildChunkNodes ∧ ∃ k, c.rowsToDiscard < k ∧ src.leaves.length = b ^ k))
    {fs : FS} (hc : fs.file c.file = none) :
    ∃ m, (src.build (S := LevelCacheStore E) b σ (some c) fs).1 = .error (.err m) := by
  cases src with
  | new items =>
    simp only [leaves, List.length_map] at hf hno
    exact BaseTree.tryFromIterWithConfig_cache_err hA hb σ hf hno hc
  | iter items =>
    simp only [leaves, List.length_map] at hf hno
    exact BaseTree.tryFromIterWithConfig_cache_err hA hb σ hf hno hc
  | par π items =>
    simp only [leaves, List.length_map] at hf hno
    exact BaseTree.fromParIterWithConfig_cache_err hA hb σ hs hf hno hc
  | data ds =>
    have hl := data_length hA ds
    simp only [leaves, List.length_map] at hf hno
    rw [← hl] at hf hno
    have := BaseTree.tryFromIterWithConfig_cache_err hA hb σ hf hno hc
    rw [hl] at this
    exact this
  | bytes es => exact BaseTree.fromByteSliceWithConfig_cache_err hb σ hf hno hc

theorem Source.build_noConfig (hA : A.LawfulReset) {b : Nat} (hb : b ≠ 1) (σ : Sched)
    (src : Source A) (hs : src.Valid) (hf : FloatRows.FloorAt b src.leaves.length) (fs : FS) :
    ∃ m, (src.build (S := LevelCacheStore E) b σ none fs).1 = .error (.err m) := by
  cases src with
  | new items =>
    simp only [leaves, List.length_map] at hf
    exact BaseTree.tryFromIter_noConfig hA hb σ hf fs
  | iter items =>
    simp only [leaves, List.length_map] at hf
    exact BaseTree.tryFromIter_noConfig hA hb σ hf fs
  | par π items =>
    simp only [leaves, List.length_map] at hf
    exact BaseTree.fromParIter_noConfig hA hb σ hs hf fs
  | data ds =>
    have hl := data_length hA ds
    simp only [leaves, List.length_map] at hf
    rw [← hl] at hf
    have := BaseTree.tryFromIter_noConfig hA hb σ hf fs
    rw [hl] at this
    exact this
  | bytes es => exact BaseTree.fromByteSlice_noConfig hb σ hf fs

omit [LawfulElement E] in
theorem LevelCacheStore.newWithConfig_fresh {size b : Nat} {c : StoreConfig} {fs fs' : FS}
    {s : LevelCacheStore E} (hc : fs.file c.file = none)
    (h : Store.newWithConfig size b c fs = (.ok s, fs')) : s.len = 0 ∧ s.loadedFromDisk = false := by
  change LevelCacheStore.newWithConfig _ _ _ _ = _ at h
  unfold LevelCacheStore.newWithConfig at h
  rw [M.bind_ok (pathExists_run _ _), hc] at h
  simp only [Option.isSome_none, Bool.false_eq_true, ↓reduceIte, M.bind_ok_iff, M.pure_run,
    Prod.mk.injEq, Except.ok.injEq] at h
  obtain ⟨_, _, _, _, _, _, _, _, _, rfl, _⟩ := h
  exact ⟨rfl, rfl⟩

theorem Source.cached_ne_one {b : Nat} {σ : Sched} {src : Source A} {c : StoreConfig}
    {fs fs' : FS} {t : BaseTree (LevelCacheStore E) E} (hc : fs.file c.file = none)
    (h : src.build b σ (some c) fs = (.ok t, fs')) : b ≠ 1 := by
  have hl : ∀ size s fs1, Store.newWithConfig (S := LevelCacheStore E) size b c fs = (.ok s, fs1) →
      loadedFromDisk (E := E) s = false :=
    fun _ _ _ h => (LevelCacheStore.newWithConfig_fresh hc h).2
  cases src <;> simp only [build, BaseTree.newWithConfig, BaseTree.fromDataWithConfig] at h
  · exact BaseTree.tryFromIterWithConfig_ne_one hl h
  · exact BaseTree.tryFromIterWithConfig_ne_one hl h
  · exact BaseTree.fromParIterWithConfig_ne_one hl h
  · exact BaseTree.tryFromIterWithConfig_ne_one hl h
  · exact BaseTree.fromByteSliceWithConfig_ne_one h

theorem BaseTree.IsCached.isCacheOf {b k : Nat} {leaves : List E} {d : E} {c : StoreConfig}
    {fs : FS} {t : BaseTree (LevelCacheStore E) E}
    (h : t.IsCached A b k (fun i => leaves.getD i d) c fs) (hn : leaves.length = b ^ k) :
    t.IsCacheOf A b k leaves c fs where
  leafs := h.leafs
  len := by
    show t.store.len = _
    rw [h.store]; rfl
  rows := h.rows
  nodes := ⟨_, flat_isLayout A.nodeHash leaves d hn, by rw [flat_root, h.root], h.file⟩

theorem Source.build_cached_sound (hA : A.LawfulReset) {b : Nat} {σ : Sched} (hσ : σ.Valid)
    {src : Source A} (hs : src.Valid) (hf : FloatRows.FloorAt b src.leaves.length)
    {c : StoreConfig} {fs fs' : FS} {t : BaseTree (LevelCacheStore E) E}
    (hc : fs.file c.file = none) (h : src.build b σ (some c) fs = (.ok t, fs')) :
    Arity b ∧ b ≤ buildChunkNodes ∧ ∃ k d, c.rowsToDiscard < k ∧ FloatRows.ExactAt b k ∧
      src.leaves.length = b ^ k ∧
      t.IsCached A b k (fun i => src.leaves.getD i d) c fs' ∧
      SameOutside (fun f => f = c.file) fs fs' := by
  by_cases hB : Arity b ∧ b ≤ buildChunkNodes ∧ ∃ k, c.rowsToDiscard < k ∧ src.leaves.length = b ^ k
  · obtain ⟨hb, hb', k, hk, hn⟩ := hB
    have he : FloatRows.ExactAt b k := (hn ▸ hf).exact hb (by omega)
    obtain ⟨t', fs1, d, h1, h2, h3⟩ := Source.build_cached hA hb hb' he hσ src hs hn hk hc
    rw [h] at h1
    simp only [Prod.mk.injEq, Except.ok.injEq] at h1
    obtain ⟨rfl, rfl⟩ := h1
    exact ⟨hb, hb', k, d, hk, he, hn, h2, h3⟩
  · obtain ⟨m, he⟩ := Source.build_cached_err hA (Source.cached_ne_one hc h) σ src hs hf hB hc
    rw [h] at he
    simp at he

theorem BaseTree.cached_honest {b : Nat} {σ : Sched} {hint : Option Nat}
    {items : List (Res E)} {fs fs' : FS} {c : StoreConfig} (hc : fs.file c.file = none)
    {t : BaseTree (LevelCacheStore E) E}
    (h : BaseTree.tryFromIterWithConfig A b σ hint items c fs = (.ok t, fs')) :
    ∃ es : List E, items = es.map .ok ∧ hint = some es.length := by
  unfold BaseTree.tryFromIterWithConfig at h
  split at h
  · simp at h
  · rename_i leafs
    simp only [M.bind_ok_iff, M.ofRes_run, Prod.mk.injEq] at h
    obtain ⟨⟨size, rows⟩, fs1, ⟨h1, rfl⟩, s, fs2, h2, h⟩ := h
    obtain ⟨g2, g3⟩ := LevelCacheStore.newWithConfig_fresh hc h2
    rw [show loadedFromDisk (E := E) s = false from g3] at h
    simp only [Bool.false_eq_true, ↓reduceIte, M.bind_ok_iff, BaseTree.M.expect_ok_iff] at h
    obtain ⟨s2, fs3, h3, x, fs4, h4, _⟩ := h
    obtain ⟨es, e1, e2⟩ := populateData_count (by show (s.len == 0) = true; simp [g2]) g2 h3
    refine ⟨es, e1, ?_⟩
    change LevelCacheStore.build _ _ _ _ _ _ _ _ = _ at h4
    unfold LevelCacheStore.build at h4
    simp only [M.bind_ok_iff, mEnsure_ok_iff] at h4
    obtain ⟨_, _, _, _, _, ⟨h5, _⟩, _⟩ := h4
    rw [← h5, ← e2]
    rfl

end
end Verif
