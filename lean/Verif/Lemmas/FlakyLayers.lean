import Mathlib.Data.List.Forall2
import Verif.Lemmas.FlakyOk
/-
What the runs of `build` over a failing disk consist of (src/store/disk.rs:318-439, src/store/level_cache.rs:455-595).
-/
namespace Verif
namespace Flaky

/-- A parallel loop that ended well has done the reading half of each of its tasks. -/
theorem runSteps_ok {S : Type} {rd : Nat → S → FS → Res Bytes} {wr : Nat → Bytes → S → M S} {P : S → Prop}
    (hw : ∀ t bs s fs s' fs', P s → wr t bs s fs = (.ok s', fs') → P s') :
    ∀ (ts : List Nat) (pend : Nat → Option Bytes) (s s' : S) (fs fs' : FS), P s →
      runSteps rd wr ts pend s fs = (.ok s', fs') →
      P s' ∧ ∀ t ∈ ts, pend t = none → ∃ s1 fs1 bs, P s1 ∧ rd t s1 fs1 = .ok bs := by
  intro ts
  induction ts with
  | nil =>
    intro _ _ _ _ _ hP h
    cases h
    exact ⟨hP, fun t ht => by cases ht⟩
  | cons u ts ih =>
    intro pend s s' fs fs' hP h
    unfold runSteps at h
    cases hq : pend u with
    | none =>
      rw [hq] at h
      obtain ⟨bs, f1, h1, h2⟩ := M.bind_ok_iff.1 h
      obtain ⟨k1, k2⟩ := ih _ _ _ _ _ hP h2
      refine ⟨k1, fun t ht hp => ?_⟩
      by_cases htu : t = u
      · subst htu
        exact ⟨s, fs, bs, hP, (get_ok h1).1⟩
      · exact k2 t ((List.mem_cons.1 ht).resolve_left htu) (by rw [if_neg htu]; exact hp)
    | some bs =>
      rw [hq] at h
      obtain ⟨s1, f1, h1, h2⟩ := M.bind_ok_iff.1 h
      obtain ⟨k1, k2⟩ := ih _ _ _ _ _ (hw _ _ _ _ _ _ hP h1) h2
      refine ⟨k1, fun t ht hp => k2 t ((List.mem_cons.1 ht).resolve_left ?_) hp⟩
      rintro rfl
      rw [hq] at hp
      cases hp

theorem forall_of_forall₂ {α β : Type} {P : α → Prop} {xs : List α} {ys : List β}
    (h : List.Forall₂ (fun x _ => P x) xs ys) : ∀ x ∈ xs, P x := by
  induction h with
  | nil => intro x hx; cases hx
  | cons h0 _ ih =>
    intro x hx
    rcases List.mem_cons.1 hx with rfl | hx
    · exact h0
    · exact ih x hx

theorem mem_of_valid {σ : Sched} (hσ : σ.Valid) {l n t : Nat} (ht : t < n) : t ∈ σ l n := by
  have := hσ l n t
  rw [if_pos ht] at this
  exact List.count_pos_iff.1 (by omega)

theorem layersBelow_succ (b n j : Nat) :
    layersBelow b n (j + 1) = n + layersBelow b (n >>> log2Pow2 b) j := by
  induction j with
  | zero => simp [layersBelow]
  | succ j ih =>
    have hsh : n >>> ((j + 1) * log2Pow2 b) = n >>> log2Pow2 b >>> (j * log2Pow2 b) := by
      rw [Nat.add_mul, Nat.one_mul, Nat.add_comm, Nat.shiftRight_add]
    rw [layersBelow, ih, layersBelow, hsh, Nat.add_assoc]

namespace Disk
variable {E : Type} [Element E] {p : IoPlan}

theorem processLayer_reads {A : Alg E} {b : Nat} {σ : Sched} {s s' : DiskStore E} {w l r x : Nat} {fs fs' : FS}
    (h : processLayer p A b σ s w l r x fs = (.ok s', fs')) :
    s' = s ∧ ∀ t ∈ σ l (mmapTasks E b w), ∃ fs1,
      p.fails (.read s.file ((r + t * buildChunkNodes) * Element.byteLen E)
        (min buildChunkNodes (r + w - (r + t * buildChunkNodes)) * Element.byteLen E)) fs1 = false := by
  obtain ⟨_, f1, h1, h2⟩ := M.bind_ok_iff.1 h
  obtain ⟨_, f2, h3, h4⟩ := M.bind_ok_iff.1 h2
  obtain ⟨_, f3, h5, h6⟩ := M.bind_ok_iff.1 h4
  obtain ⟨k1, k2⟩ := runSteps_ok (P := (· = s)) (fun t bs s1 f s2 f' hs hw => by
    obtain ⟨_, g, -, k⟩ := M.bind_ok_iff.1 hw
    cases k
    exact hs) _ _ _ _ _ _ rfl h6
  refine ⟨k1, fun t ht => ?_⟩
  obtain ⟨s1, fs1, bs, rfl, hr⟩ := k2 t ht rfl
  unfold layerRead at hr
  obtain ⟨_, g1, -⟩ := bind_ok_iff.1 hr
  have := readRange_ok g1
  rw [← Nat.sub_mul, Nat.add_sub_cancel_left] at this
  exact ⟨fs1, this⟩

/-- The loop of `build` runs `process_layer` once for each layer of more than one node. -/
theorem buildLoop_ok {A : Alg E} {b : Nat} {σ : Sched} :
    ∀ (f w l i : Nat) (s : DiskStore E) (r : DiskStore E × Nat) (fs fs' : FS),
      (l = 0 → i = 0 ∧ s.len = w) → buildLoop p A b σ f w l i s fs = (.ok r, fs') →
      r.1.file = s.file ∧ ∀ j, 1 < w >>> (j * log2Pow2 b) → ∃ s1 fs1 s2 fs2, s1.file = s.file ∧
        processLayer p A b σ s1 (w >>> (j * log2Pow2 b)) (l + j) (i + layersBelow b w j)
          (i + layersBelow b w (j + 1)) fs1 = (.ok s2, fs2) := by
  intro f
  induction f with
  | zero => intro _ _ _ _ _ _ _ _ h; cases h
  | succ f ih =>
    intro w l i s r fs fs' hl h
    unfold buildLoop at h
    by_cases hw : w > 1
    · rw [if_pos hw] at h
      obtain ⟨s1, f1, h1, h2⟩ := M.bind_ok_iff.1 h
      obtain ⟨k1, k2⟩ := ih _ _ _ _ _ _ _ (fun h0 => by omega) h2
      have hs1 := (processLayer_reads h1).1
      subst hs1
      have hrw : (if l = 0 then (0, s1.len) else (i, i + w)) = (i, i + w) := by
        split
        · rename_i h0
          rw [(hl h0).1, (hl h0).2, Nat.zero_add]
        · rfl
      rw [hrw] at h1
      refine ⟨k1, fun j hj => ?_⟩
      cases j with
      | zero =>
        exact ⟨s1, fs, s1, f1, rfl, by simpa [layersBelow] using h1⟩
      | succ j =>
        have hsh : w >>> ((j + 1) * log2Pow2 b) = w >>> log2Pow2 b >>> (j * log2Pow2 b) := by
          rw [Nat.add_mul, Nat.one_mul, Nat.add_comm, Nat.shiftRight_add]
        rw [hsh] at hj ⊢
        obtain ⟨s2, f2, s3, f3, g1, g2⟩ := k2 j hj
        refine ⟨s2, f2, s3, f3, g1, ?_⟩
        rw [layersBelow_succ, layersBelow_succ, ← Nat.add_assoc i w, ← Nat.add_assoc i w,
          show l + (j + 1) = l + 1 + j by omega]
        exact g2
    · rw [if_neg hw] at h
      cases h
      refine ⟨rfl, fun j hj => absurd hj ?_⟩
      have : w >>> (j * log2Pow2 b) ≤ w := Nat.shiftRight_le _ _
      omega

theorem build_layers {A : Alg E} {b : Nat} {σ : Sched} {s s' : DiskStore E} {n rows : Nat} {c : Option StoreConfig}
    {e : E} {fs fs' : FS} (h : build p A b σ s n rows c fs = (.ok (e, s'), fs')) (j : Nat)
    (hj : 1 < n >>> (j * log2Pow2 b)) :
    ∃ s1 fs1 s2 fs2, s1.file = s.file ∧
      processLayer p A b σ s1 (n >>> (j * log2Pow2 b)) j (layersBelow b n j) (layersBelow b n (j + 1)) fs1
        = (.ok s2, fs2) := by
  obtain ⟨_, f1, h1, h2⟩ := M.bind_ok_iff.1 h
  obtain ⟨_, f2, h3, h4⟩ := M.bind_ok_iff.1 h2
  obtain ⟨hn, rfl⟩ := mEnsure_ok_iff.1 h3
  obtain ⟨_, f3, h5, h6⟩ := M.bind_ok_iff.1 h4
  obtain ⟨r, f4, h7, h8⟩ := M.bind_ok_iff.1 h6
  obtain ⟨-, k⟩ := buildLoop_ok _ _ _ _ _ _ _ _ (fun _ => ⟨rfl, hn⟩) h7
  have := k j hj
  simpa only [Nat.zero_add] using this

theorem newFromSlice_ok {n : Nat} {data : Bytes} {s : DiskStore E} {fs fs' : FS}
    (h : newFromSlice p n data fs = (.ok s, fs')) :
    ∃ s1 fs1, (new p n fs : Res (DiskStore E) × FS) = (.ok s1, fs1) ∧ s1.file = s.file ∧
      p.fails (.write s.file 0 data) fs1 = false := by
  obtain ⟨_, f1, h1, h2⟩ := M.bind_ok_iff.1 h
  obtain ⟨-, rfl⟩ := ofRes_ok h1
  obtain ⟨_, f2, h3, h4⟩ := M.bind_ok_iff.1 h2
  obtain ⟨-, rfl⟩ := mEnsure_ok_iff.1 h3
  obtain ⟨s1, f3, h5, h6⟩ := M.bind_ok_iff.1 h4
  obtain ⟨_, f4, h7, h8⟩ := M.bind_ok_iff.1 h6
  cases h8
  exact ⟨s1, f3, h5, rfl, storeCopyFromSlice_ok h7⟩

theorem newFromSliceWithConfig_ok {n b : Nat} {data : Bytes} {c : StoreConfig} {s : DiskStore E} {fs fs' : FS}
    (h : newFromSliceWithConfig p n b data c fs = (.ok s, fs')) :
    ∃ s1 fs1, (newWithConfig p n b c fs : Res (DiskStore E) × FS) = (.ok s1, fs1) ∧ s1.file = s.file ∧
      (s1.loadedFromDisk = false → p.fails (.write s.file 0 data) fs1 = false) := by
  obtain ⟨_, f1, h1, h2⟩ := M.bind_ok_iff.1 h
  obtain ⟨-, rfl⟩ := ofRes_ok h1
  obtain ⟨_, f2, h3, h4⟩ := M.bind_ok_iff.1 h2
  obtain ⟨-, rfl⟩ := mEnsure_ok_iff.1 h3
  obtain ⟨s1, f3, h5, h6⟩ := M.bind_ok_iff.1 h4
  cases hl : s1.loadedFromDisk with
  | true =>
    rw [hl, if_pos rfl] at h6
    cases h6
    exact ⟨s, fs', h5, rfl, fun h0 => by rw [hl] at h0; cases h0⟩
  | false =>
    rw [hl, if_neg Bool.false_ne_true] at h6
    obtain ⟨_, f4, h7, h8⟩ := M.bind_ok_iff.1 h6
    cases h8
    exact ⟨s1, f3, h5, rfl, fun _ => storeCopyFromSlice_ok h7⟩

end Disk

namespace Cache
variable {E : Type} [Element E] {p : IoPlan}

theorem readRangeInternal_ok {fs : FS} {s : LevelCacheStore E} {a b : Nat} {es : List E}
    (h : readRangeInternal p fs s a b = .ok es) :
    p.fails (.read s.file (a * Element.byteLen E) (b * Element.byteLen E - a * Element.byteLen E)) fs = false := by
  unfold readRangeInternal storeReadRangeInternal subP at h
  simp only [bind_ok_iff] at h
  obtain ⟨_, _, bs, ⟨n, hn, _, _, h⟩, _⟩ := h
  split at hn <;> cases hn
  exact (rd_ok h).1

theorem processLayer_reads {A : Alg E} {b : Nat} {σ : Sched} {s s' : LevelCacheStore E} {w l r x : Nat} {fs fs' : FS}
    (h : processLayer p A b σ s w l r x fs = (.ok s', fs')) :
    s' = s ∧ ∀ t ∈ σ l (mmapTasks E b w), ∃ fs1,
      p.fails (.read s.file ((r + t * buildChunkNodes) * Element.byteLen E)
        (min buildChunkNodes (r + w - (r + t * buildChunkNodes)) * Element.byteLen E)) fs1 = false := by
  obtain ⟨_, f1, h1, h2⟩ := M.bind_ok_iff.1 h
  obtain ⟨_, f2, h3, h4⟩ := M.bind_ok_iff.1 h2
  obtain ⟨_, f3, h5, h6⟩ := M.bind_ok_iff.1 h4
  obtain ⟨k1, k2⟩ := runSteps_ok (P := (· = s)) (fun t bs s1 f s2 f' hs hw => by
    obtain ⟨_, g, -, k⟩ := M.bind_ok_iff.1 hw
    cases k
    exact hs) _ _ _ _ _ _ rfl h6
  refine ⟨k1, fun t ht => ?_⟩
  obtain ⟨s1, fs1, bs, rfl, hr⟩ := k2 t ht rfl
  unfold layerRead at hr
  obtain ⟨_, g1, -⟩ := bind_ok_iff.1 hr
  have := readRangeInternal_ok g1
  rw [← Nat.sub_mul, Nat.add_sub_cancel_left] at this
  exact ⟨fs1, this⟩

theorem frontTruncate_file {s s' : LevelCacheStore E} {c : StoreConfig} {n : Nat} {fs fs' : FS}
    (h : frontTruncate p s c n fs = (.ok s', fs')) : s'.file = c.file := by
  obtain ⟨_, f1, h1, k1⟩ := M.bind_ok_iff.1 h
  obtain ⟨_, f2, h2, k2⟩ := M.bind_ok_iff.1 k1
  obtain ⟨_, f3, h3, k3⟩ := M.bind_ok_iff.1 k2
  obtain ⟨_, f4, h4, k4⟩ := M.bind_ok_iff.1 k3
  obtain ⟨_, f5, h5, k5⟩ := M.bind_ok_iff.1 k4
  obtain ⟨_, f6, h6, k6⟩ := M.bind_ok_iff.1 k5
  obtain ⟨_, f7, h7, k7⟩ := M.bind_ok_iff.1 k6
  obtain ⟨_, f8, h8, k8⟩ := M.bind_ok_iff.1 k7
  obtain ⟨_, f9, h9, k9⟩ := M.bind_ok_iff.1 k8
  obtain ⟨_, f10, h10, k10⟩ := M.bind_ok_iff.1 k9
  cases k10
  rfl

/-- The loop of `build` runs `process_layer` once for each layer of more than one node, and `front_truncate` after
each layer that ends below the cache. -/
theorem buildLoop_ok {A : Alg E} {b : Nat} {σ : Sched} {c : StoreConfig} {cut : Nat} :
    ∀ (f w l i : Nat) (s : LevelCacheStore E) (r : LevelCacheStore E × Nat) (fs fs' : FS),
      (l = 0 → i = 0 ∧ s.len = w) → buildLoop p A b σ c cut f w l i s fs = (.ok r, fs') →
      ∀ j, 1 < w >>> (j * log2Pow2 b) → ∃ s1 fs1 s2 fs2, (s1.file = s.file ∨ s1.file = c.file) ∧
        processLayer p A b σ s1 (w >>> (j * log2Pow2 b)) (l + j)
          (if i + layersBelow b w j < cut then 0 else i + layersBelow b w j - cut)
          (if i + layersBelow b w j < cut then w >>> (j * log2Pow2 b) else i + layersBelow b w (j + 1) - cut) fs1
            = (.ok s2, fs2) ∧
        (i + layersBelow b w j < cut → ∃ s3 fs3, frontTruncate p s2 c (w >>> (j * log2Pow2 b)) fs2 = (.ok s3, fs3)) := by
  intro f
  induction f with
  | zero => intro _ _ _ _ _ _ _ _ h; cases h
  | succ f ih =>
    intro w l i s r fs fs' hl h
    unfold buildLoop at h
    by_cases hw : w > 1
    · rw [if_pos hw] at h
      obtain ⟨s1, f1, h1, h2⟩ := M.bind_ok_iff.1 h
      obtain ⟨s2, f2, h3, h4⟩ := M.bind_ok_iff.1 h2
      intro j hj
      cases j with
      | zero =>
        have hrw : (if l = 0 then (0, s.len) else if i < cut then (0, w) else (i - cut, i + w - cut)) =
            ((if i + 0 < cut then 0 else i + 0 - cut), if i + 0 < cut then w else i + (0 + w) - cut) := by
          by_cases h0 : l = 0
          · rw [if_pos h0, (hl h0).1, (hl h0).2]
            split <;> simp <;> omega
          · rw [if_neg h0]
            split <;> simp_all
        rw [hrw] at h1
        refine ⟨s, fs, s1, f1, .inl rfl, ?_, ?_⟩
        · simpa [layersBelow] using h1
        · intro hc
          rw [if_pos (by simpa [layersBelow] using hc)] at h3
          exact ⟨s2, f2, by simpa using h3⟩
      | succ j =>
        have hsh : w >>> ((j + 1) * log2Pow2 b) = w >>> log2Pow2 b >>> (j * log2Pow2 b) := by
          rw [Nat.add_mul, Nat.one_mul, Nat.add_comm, Nat.shiftRight_add]
        rw [hsh] at hj ⊢
        have k2 := ih _ _ _ _ _ _ _ (fun h0 => by omega) h4
        have hf : s2.file = s.file ∨ s2.file = c.file := by
          split at h3
          · exact .inr (frontTruncate_file h3)
          · cases h3
            exact .inl (by rw [(processLayer_reads h1).1])
        obtain ⟨s4, f4, s5, f5, g0, g1, g2⟩ := k2 j hj
        refine ⟨s4, f4, s5, f5, ?_, ?_, ?_⟩
        · rcases g0 with g0 | g0
          · rw [g0]; exact hf
          · exact .inr g0
        · rw [layersBelow_succ, layersBelow_succ, ← Nat.add_assoc i w, ← Nat.add_assoc i w,
            show l + (j + 1) = l + 1 + j by omega]
          exact g1
        · rw [layersBelow_succ, ← Nat.add_assoc]
          exact g2
    · rw [if_neg hw] at h
      cases h
      refine fun j hj => absurd hj ?_
      have : w >>> (j * log2Pow2 b) ≤ w := Nat.shiftRight_le _ _
      omega

theorem build_layers [FloatRows] {A : Alg E} {b : Nat} {σ : Sched} {s s' : LevelCacheStore E} {n rows : Nat}
    {c : StoreConfig} {e : E} {fs fs' : FS} (h : build p A b σ s n rows (some c) fs = (.ok (e, s'), fs')) :
    ∃ size len, merkleTreeCacheSize n b c.rowsToDiscard = .ok size ∧ merkleTreeLen n b = .ok len ∧ size ≤ len ∧
      ∀ j, 1 < n >>> (j * log2Pow2 b) → ∃ s1 fs1 s2 fs2, (s1.file = s.file ∨ s1.file = c.file) ∧
        processLayer p A b σ s1 (n >>> (j * log2Pow2 b)) j
          (if layersBelow b n j < len - size then 0 else layersBelow b n j - (len - size))
          (if layersBelow b n j < len - size then n >>> (j * log2Pow2 b)
            else layersBelow b n (j + 1) - (len - size)) fs1 = (.ok s2, fs2) ∧
        (layersBelow b n j < len - size →
          ∃ s3 fs3, frontTruncate p s2 c (n >>> (j * log2Pow2 b)) fs2 = (.ok s3, fs3)) := by
  obtain ⟨_, f1, h1, h2⟩ := M.bind_ok_iff.1 h
  obtain ⟨_, f2, h3, h4⟩ := M.bind_ok_iff.1 h2
  obtain ⟨hn, rfl⟩ := mEnsure_ok_iff.1 h3
  obtain ⟨_, f3, h5, h6⟩ := M.bind_ok_iff.1 h4
  obtain ⟨size, g1, k1, k2⟩ := M.bind_ok_iff.1 h6
  obtain ⟨q1, rfl⟩ := ofRes_ok k1
  obtain ⟨len, g2, k3, k4⟩ := M.bind_ok_iff.1 k2
  obtain ⟨q2, rfl⟩ := ofRes_ok k3
  obtain ⟨cut, g3, k5, k6⟩ := M.bind_ok_iff.1 k4
  obtain ⟨q3, rfl⟩ := ofRes_ok k5
  unfold subP at q3
  split at q3 <;> cases q3
  rename_i hle
  refine ⟨size, len, q1, q2, hle, ?_⟩
  obtain ⟨r, f4, h7, h8⟩ := M.bind_ok_iff.1 k6
  have k := buildLoop_ok _ _ _ _ _ _ _ _ (fun _ => ⟨rfl, hn⟩) h7
  simpa only [Nat.zero_add] using k

theorem newFromSlice_ok {n : Nat} {data : Bytes} {s : LevelCacheStore E} {fs fs' : FS}
    (h : newFromSlice p n data fs = (.ok s, fs')) :
    ∃ s1 fs1, (new p n fs : Res (LevelCacheStore E) × FS) = (.ok s1, fs1) ∧ s1.file = s.file ∧
      p.fails (.write s.file 0 data) fs1 = false := by
  obtain ⟨_, f1, h1, h2⟩ := M.bind_ok_iff.1 h
  obtain ⟨-, rfl⟩ := ofRes_ok h1
  obtain ⟨_, f2, h3, h4⟩ := M.bind_ok_iff.1 h2
  obtain ⟨-, rfl⟩ := mEnsure_ok_iff.1 h3
  obtain ⟨s1, f3, h5, h6⟩ := M.bind_ok_iff.1 h4
  obtain ⟨_, f4, h7, h8⟩ := M.bind_ok_iff.1 h6
  cases h8
  exact ⟨s1, f3, h5, rfl, storeCopyFromSlice_ok h7⟩

theorem newFromSliceWithConfig_ok [FloatRows] {n b : Nat} {data : Bytes} {c : StoreConfig} {s : LevelCacheStore E}
    {fs fs' : FS} (h : newFromSliceWithConfig p n b data c fs = (.ok s, fs')) :
    ∃ s1 fs1, (newWithConfig p n b c fs : Res (LevelCacheStore E) × FS) = (.ok s1, fs1) ∧ s1.file = s.file ∧
      (s1.loadedFromDisk = false → p.fails (.write s.file 0 data) fs1 = false) := by
  obtain ⟨_, f1, h1, h2⟩ := M.bind_ok_iff.1 h
  obtain ⟨-, rfl⟩ := ofRes_ok h1
  obtain ⟨_, f2, h3, h4⟩ := M.bind_ok_iff.1 h2
  obtain ⟨-, rfl⟩ := mEnsure_ok_iff.1 h3
  obtain ⟨s1, f3, h5, h6⟩ := M.bind_ok_iff.1 h4
  cases hl : s1.loadedFromDisk with
  | true =>
    rw [hl, if_pos rfl] at h6
    cases h6
    exact ⟨s, fs', h5, rfl, fun h0 => by rw [hl] at h0; cases h0⟩
  | false =>
    rw [hl, if_neg Bool.false_ne_true] at h6
    obtain ⟨_, f4, h7, h8⟩ := M.bind_ok_iff.1 h6
    cases h8
    exact ⟨s1, f3, h5, rfl, fun _ => storeCopyFromSlice_ok h7⟩

end Cache
end Flaky
end Verif
