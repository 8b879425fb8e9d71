import Verif.Spec.Replica
import Verif.Lemmas.Archive
import Verif.Lemmas.Crash
/-! Opening trees over a replica, whatever is in the files. -/
set_option linter.unusedSectionVars false
namespace Verif
open Spec StoreOps

section
variable {E : Type} [Element E] [LawfulElement E] {b k d : Nat} {fs : FS}

/-- A node in the cached rows, whatever the bytes there. -/
theorem LevelCacheStore.View.readAt_cached_bytes {s : LevelCacheStore E} (h : s.View b k d) (hd : d < k)
    {r : ExternalReader} (hr : s.reader = some r) {bs : Bytes} (hf : fs.file s.file = some bs)
    (hl : bs.length = nodes b (k - 1 - d) * Element.byteLen E) {i : Nat}
    (h1 : rowStart b k (d + 1) ≤ i) (h2 : i < nodes b k) :
    LevelCacheStore.readAt fs s i = .ok (Element.decode
      (region bs ((i - rowStart b k (d + 1)) * Element.byteLen E) (Element.byteLen E))) := by
  have hp := LawfulElement.byteLen_pos (E := E)
  have hb := h.inBounds_cached h1
  have hle := rowStart_le_nodes b k (d + 1) hd
  rw [show k - (d + 1) = k - 1 - d by omega] at hle
  have hge := pow_le_rowStart b k d
  have ha : s.adjustedStart (i * Element.byteLen E)
      = (i - rowStart b k (d + 1)) * Element.byteLen E := by
    unfold LevelCacheStore.adjustedStart
    rw [h.start, if_pos (by rw [ge_iff_le, mul_byteLen_le]; omega), hr]
    simp only [Option.isNone_some, Bool.false_eq_true, ↓reduceIte]
    rw [← Nat.sub_mul]
  have hlt : (i - rowStart b k (d + 1)) * Element.byteLen E + Element.byteLen E ≤ bs.length := by
    rw [hl, ← Nat.succ_mul]
    exact Nat.mul_le_mul_right _ (by omega)
  unfold LevelCacheStore.readAt
  dsimp only
  have hi : i < s.len := by rw [h.len]; exact h2
  rw [checkRange_ok (Nat.mul_lt_mul_of_pos_right hi hp)
    (by rw [← Nat.succ_mul]; exact Nat.mul_le_mul_right _ hi) hb, Res.ok_bind,
    LevelCacheStore.storeReadRange_some hr hb, h.width, if_neg (by rw [mul_byteLen_lt]; omega), ha,
    (readExactAt_ok_iff hp).2 ⟨_, hf, hlt, rfl⟩, Res.ok_bind,
    fromSlice_ok (by rw [region_length]; omega)]

variable [FloatRows]

theorem newFromConfig_run {rc : ReplicaConfig} {i : Nat} {bs : Bytes}
    (hr : fs.file (.named rc.path) = some bs) (hi : i < rc.offsets.length) :
    ExternalReader.newFromConfig rc i fs = (.ok (.ofFile (.named rc.path) rc.offsets[i]), fs) := by
  unfold ExternalReader.newFromConfig
  have hop : FS.openFile (.named rc.path) fs = (.ok (), fs) := by
    unfold FS.openFile; rw [M.get_run, FS.contents_ok hr]; rfl
  rw [M.bind_ok hop, M.bind_ok (a := rc.offsets[i]) (fs' := fs) (by rw [M.ofRes_run, idxP_ok hi])]
  rfl

theorem newFromConfig_missing {rc : ReplicaConfig} (i : Nat) (hr : fs.file (.named rc.path) = none) :
    ∃ m, ExternalReader.newFromConfig rc i fs = (.error (.err m), fs) := by
  unfold ExternalReader.newFromConfig
  have h : FS.openFile (.named rc.path) fs = (.error (.err "No such file or directory"), fs) := by
    unfold FS.openFile FS.contents
    rw [M.get_run, hr]
    rfl
  exact ⟨_, M.bind_error h⟩

/-- What is known of one opened tree. -/
structure OpenedOver (b k : Nat) (fs : FS) (c : StoreConfig) (u : BaseTree (LevelCacheStore E) E) : Prop where
  root : u.root = storedRoot E fs c
  len : u.length = nodes b k
  rows : u.rowCount = k + 1
  leafs : u.leafs = b ^ k

variable {rc : ReplicaConfig}

theorem openOver_ok (hb : Arity b) (hk : 1 ≤ k) (hf : FloatRows.ExactAt b k) {bs : Bytes}
    (hr : fs.file (.named rc.path) = some bs) {i : Nat} (hi : i < rc.offsets.length) {c : StoreConfig}
    (hc : HoldsCache E b k fs c) :
    ∃ u, (do
      let n ← M.ofRes (merkleTreeLen (b ^ k) b)
      let r ← ExternalReader.newFromConfig rc i
      let s : LevelCacheStore E ← LevelCacheStore.newFromDiskWithReader n b c r
      M.get (BaseTree.fromDataStore b 0 0 s (b ^ k)) : M (BaseTree (LevelCacheStore E) E)) fs
        = (.ok u, fs) ∧ OpenedOver b k fs c u := by
  obtain ⟨hd, cs, hfile, hl⟩ := hc
  have hp := nodes_pos b k
  have hw := LawfulElement.byteLen_pos (E := E)
  have hle := rowStart_le_nodes b k (c.rowsToDiscard + 1) hd
  rw [show k - (c.rowsToDiscard + 1) = k - 1 - c.rowsToDiscard by omega] at hle
  have hp2 := nodes_pos b (k - 1 - c.rowsToDiscard)
  have hview : LevelCacheStore.View b k c.rowsToDiscard
      (⟨nodes b k, c.file, b ^ k, rowStart b k (c.rowsToDiscard + 1) * Element.byteLen E, false,
        cs.length, some (.ofFile (.named rc.path) rc.offsets[i])⟩ : LevelCacheStore E) := ⟨rfl, rfl, rfl⟩
  have hread := hview.readAt_cached_bytes hd rfl hfile hl (i := nodes b k - 1) (by omega) (by omega)
  refine ⟨_, by
    rw [M.bind_ok (a := nodes b k) (fs' := fs) (by rw [M.ofRes_run, merkleTreeLen_pow hb hk]),
      M.bind_ok (newFromConfig_run hr hi),
      M.bind_ok (LevelCacheStore.newFromDiskWithReader_run hb hk hf hd hfile hl _), M.get_run,
      fromDataStore_view hb hk hf hview hread], ?_, rfl, rfl, rfl⟩
  show Element.decode _ = _
  unfold storedRoot
  rw [hfile]
  have e : nodes b k - 1 - rowStart b k (c.rowsToDiscard + 1) = nodes b (k - 1 - c.rowsToDiscard) - 1 := by omega
  simp only [Option.getD_some]
  rw [e, Nat.sub_mul, Nat.one_mul, ← hl]
  unfold region
  rw [List.take_of_length_le]
  rw [List.length_drop]
  omega

theorem openOver_err (hb : Arity b) (hk : 1 ≤ k) (hf : FloatRows.ExactAt b k) {i : Nat}
    (hi : i < rc.offsets.length) {c : StoreConfig}
    (hc : ¬ ((∃ bs, fs.file (.named rc.path) = some bs) ∧ HoldsCache E b k fs c)) :
    ∃ m, (do
      let n ← M.ofRes (merkleTreeLen (b ^ k) b)
      let r ← ExternalReader.newFromConfig rc i
      let s : LevelCacheStore E ← LevelCacheStore.newFromDiskWithReader n b c r
      M.get (BaseTree.fromDataStore b 0 0 s (b ^ k)) : M (BaseTree (LevelCacheStore E) E)) fs
        = (.error (.err m), fs) := by
  rw [M.bind_ok (a := nodes b k) (fs' := fs) (by rw [M.ofRes_run, merkleTreeLen_pow hb hk])]
  rcases hr : fs.file (.named rc.path) with _ | bs
  · obtain ⟨m, hm⟩ := newFromConfig_missing i hr
    exact ⟨m, M.bind_error hm⟩
  · rw [M.bind_ok (newFromConfig_run hr hi)]
    have hc' : ¬ HoldsCache E b k fs c := fun h => hc ⟨⟨bs, hr⟩, h⟩
    rcases hx : fs.file c.file with _ | cs
    · have h : ∃ m, LevelCacheStore.newFromDiskWithReader (E := E) (nodes b k) b c
          (.ofFile (.named rc.path) rc.offsets[i]) fs = (.error (.err m), fs) := by
        unfold LevelCacheStore.newFromDiskWithReader
        rw [M.bind_ok (pathExists_run _ _), hx]
        exact ⟨_, M.bind_error (mEnsure_false (by simp) _ _)⟩
      obtain ⟨m, hm⟩ := h
      exact ⟨m, M.bind_error hm⟩
    · obtain ⟨m, hm⟩ := LevelCacheStore.newFromDiskWithReader_wrong (E := E) hb hk hf hx
        (fun hd hl => hc' ⟨hd, cs, hx, hl⟩) (.ofFile (.named rc.path) rc.offsets[i])
      exact ⟨m, M.bind_error hm⟩

/-- A loop whose steps succeed exactly when `P`. -/
theorem collectM_exact {α β : Type} {f : α → M β} {P : α → Prop} {Q : α → β → Prop} {xs : List α}
    (h1 : ∀ x ∈ xs, P x → ∃ y, f x fs = (.ok y, fs) ∧ Q x y)
    (h2 : ∀ x ∈ xs, ¬ P x → ∃ m, f x fs = (.error (.err m), fs)) :
    ((∀ x ∈ xs, P x) → ∃ ys, collectM f xs fs = (.ok ys, fs) ∧ List.Forall₂ Q xs ys) ∧
    (¬ (∀ x ∈ xs, P x) → ∃ m, collectM f xs fs = (.error (.err m), fs)) := by
  induction xs with
  | nil => exact ⟨fun _ => ⟨[], rfl, .nil⟩, fun h => absurd (by simp) h⟩
  | cons x xs ih =>
    obtain ⟨ih1, ih2⟩ := ih (fun y hy => h1 y (by simp [hy])) (fun y hy => h2 y (by simp [hy]))
    unfold collectM
    refine ⟨fun h => ?_, fun h => ?_⟩
    · obtain ⟨y, hy, hq⟩ := h1 x (by simp) (h x (by simp))
      obtain ⟨ys, hys, hqs⟩ := ih1 fun z hz => h z (by simp [hz])
      exact ⟨y :: ys, by rw [M.bind_ok hy, M.bind_ok hys]; rfl, .cons hq hqs⟩
    · by_cases hx : P x
      · obtain ⟨y, hy, -⟩ := h1 x (by simp) hx
        obtain ⟨m, hm⟩ := ih2 fun hall => h fun z hz => by
          rcases List.mem_cons.1 hz with rfl | hz
          · exact hx
          · exact hall z hz
        exact ⟨m, by rw [M.bind_ok hy]; exact M.bind_error hm⟩
      · obtain ⟨m, hm⟩ := h2 x (by simp) hx
        exact ⟨m, M.bind_error hm⟩

theorem forall₂_map_eq {α β γ : Type} {f : α → γ} {g : β → γ} {xs : List α} {ys : List β}
    (h : List.Forall₂ (fun x y => g y = f x) xs ys) : ys.map g = xs.map f := by
  induction h with
  | nil => rfl
  | cons h _ ih => rw [List.map_cons, List.map_cons, h, ih]

theorem zipIdx_map_fst {α : Type} (xs : List α) : xs.zipIdx.map Prod.fst = xs := by
  refine List.ext_getElem (by simp) fun i h1 h2 => ?_
  simp

theorem flatten_configGroups {α : Type} (per n : Nat) (cs : List α) :
    (configGroups per n cs).flatten = cs.take (n * per) := by
  induction n generalizing cs with
  | zero => simp [configGroups]
  | succ n ih =>
    rw [configGroups, List.flatten_cons, ih, Nat.succ_mul, Nat.add_comm (n * per), List.take_add]

end
end Verif
