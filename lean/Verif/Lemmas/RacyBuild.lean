import Verif.Lemmas.Racy
import Verif.Lemmas.M
import Verif.Lemmas.Iterators
import Verif.Lemmas.Populate
import Verif.Spec.Source
import Mathlib.Data.List.Nodup
/-! Byte by byte, the builds of `DiskStore` and `LevelCacheStore` do what they do chunk by chunk. -/
set_option linter.unusedSectionVars false
namespace Verif

/-- The two computations end well in the same cases, with the same result and the same files. -/
def M.OkEq {α : Type} (x y : M α) : Prop := ∀ fs a fs', x fs = (.ok a, fs') ↔ y fs = (.ok a, fs')

theorem M.OkEq.rfl {α : Type} {x : M α} : M.OkEq x x := fun _ _ _ => Iff.rfl

theorem M.OkEq.step {α β : Type} {x : M α} {f g : α → M β} (h : ∀ a, M.OkEq (f a) (g a)) :
    M.OkEq (x >>= f) (x >>= g) := by
  intro fs b fs'
  rw [M.bind_ok_iff, M.bind_ok_iff]
  exact exists_congr fun a => exists_congr fun f1 => and_congr_right fun _ => h a f1 b fs'

theorem M.OkEq.bind {α β : Type} {x y : M α} {f g : α → M β} (hx : M.OkEq x y)
    (h : ∀ a, M.OkEq (f a) (g a)) : M.OkEq (x >>= f) (y >>= g) := by
  intro fs b fs'
  rw [M.bind_ok_iff, M.bind_ok_iff]
  exact exists_congr fun a => exists_congr fun f1 => and_congr (hx fs a f1) (h a f1 b fs')

theorem M.OkEq.unit {α β : Type} {s : α} {y : M Unit} {z : M α} {x : M β} {g : α → M β}
    (h1 : M.OkEq (do y; pure s) z) (h2 : M.OkEq x (g s)) : M.OkEq (do y; x) (z >>= g) := by
  intro fs a fs'
  rw [M.bind_ok_iff, M.bind_ok_iff]
  constructor
  · rintro ⟨u, f1, q1, q2⟩
    refine ⟨s, f1, (h1 _ _ _).1 ?_, (h2 _ _ _).1 q2⟩
    rw [M.bind_ok q1]; rfl
  · rintro ⟨s1, f1, q1, q2⟩
    obtain ⟨u, f2, q3, q4⟩ := M.bind_ok_iff.1 ((h1 _ _ _).2 q1)
    cases q4
    exact ⟨u, f1, q3, (h2 _ _ _).2 q2⟩

theorem M.OkEq.ensure {α : Type} {c : Prop} [Decidable c] {m : String} {x y : M α}
    (h : c → M.OkEq x y) : M.OkEq (do mEnsure c m; x) (do mEnsure c m; y) := by
  intro fs a fs'
  rw [M.bind_ok_iff, M.bind_ok_iff]
  refine exists_congr fun u => exists_congr fun f1 => and_congr_right fun hc => ?_
  exact h (mEnsure_ok_iff.1 hc).1 f1 a fs'

namespace Racy
variable {E : Type} [Element E]

/-! ### A layer -/

theorem readExactAt_length {fs : FS} {f : FileId} {off n : Nat} {bs : Bytes}
    (h : fs.readExactAt f off n = .ok bs) : bs.length = n := by
  unfold FS.readExactAt at h
  obtain ⟨cur, -, h2⟩ := bind_ok_iff.1 h
  split at h2
  · rename_i h0; cases h2; simp [h0]
  · split at h2
    · rename_i h1; cases h2; unfold region; simp; omega
    · cases h2

theorem Layer.run_hash {y : Layer} {t : Nat}
    (h : ∀ bs o, bs.length = y.size t → y.hash t bs ≠ .ok o) :
    ∀ (sts : List Step) (m m' : Mem) (fs fs' : FS), Step.hash t ∈ sts → y.run sts m fs ≠ (.ok m', fs')
  | [], _, _, _, _, hm => by simp at hm
  | st :: sts, m, m', fs, fs', hm => by
    intro hr
    unfold Layer.run at hr
    obtain ⟨m1, f1, h1, h2⟩ := M.bind_ok_iff.1 hr
    rcases List.mem_cons.1 hm with he | he
    · subst he
      unfold Layer.step at h1
      dsimp only at h1
      obtain ⟨o, f2, h3, _⟩ := M.bind_ok_iff.1 h1
      rw [M.ofRes_run] at h3
      exact h _ _ (by simp) (Prod.mk.inj h3).1
    · exact Layer.run_hash h sts m1 m' f1 fs' he h2

theorem Layer.chunks_hash {S : Type} {y : Layer} {t : Nat}
    (h : ∀ bs o, bs.length = y.size t → y.hash t bs ≠ .ok o) :
    ∀ (ts : List Nat) (pend : Nat → Option Bytes) (s s' : S) (fs fs' : FS), pend t = none → t ∈ ts →
      runSteps (fun t _ fs => y.readAll t fs) (fun t bs s => do y.writeAll t bs; pure s) ts pend s fs
        ≠ (.ok s', fs')
  | [], _, _, _, _, _, _, hm => by simp at hm
  | u :: ts, pend, s, s', fs, fs', hp, hm => by
    intro hr
    unfold runSteps at hr
    by_cases hut : u = t
    · subst hut
      rw [hp] at hr
      obtain ⟨bs, f1, h1, -⟩ := M.bind_ok_iff.1 hr
      rw [M.get_run] at h1
      have h1 := (Prod.mk.inj h1).1
      unfold Layer.readAll at h1
      simp only [bind_ok_iff] at h1
      obtain ⟨-, -, b, h4, h3⟩ := h1
      exact h _ _ (readExactAt_length h4) h3
    · have hm' : t ∈ ts := (List.mem_cons.1 hm).resolve_left fun h => hut h.symm
      cases hu : pend u with
      | none =>
        rw [hu] at hr
        obtain ⟨bs, f1, h1, h2⟩ := M.bind_ok_iff.1 hr
        exact Layer.chunks_hash h ts _ s s' f1 fs' (by simp [Ne.symm hut, hp]) hm' h2
      | some bs =>
        rw [hu] at hr
        obtain ⟨s1, f1, h1, h2⟩ := M.bind_ok_iff.1 hr
        exact Layer.chunks_hash h ts _ s1 s' f1 fs' hp hm' h2

/-- `Layer.run_eq_chunks` for layers whose workers fail unless they have something to write. -/
theorem Layer.run_eq_chunks' {S : Type} {y : Layer} {n : Nat} {ω : Nat → Nat} {bs₀ : Bytes} {fs₀ : FS}
    (ha : y.Apart n ω)
    (hω : ∀ t, t < n → 0 < ω t ∨ ∀ bs o, bs.length = y.size t → y.hash t bs ≠ .ok o) {sts : List Step}
    (hv : Steps.Valid sts n y.size ω) {ts : List Nat} (hts : ∀ t, ts.count t = if t < n then 2 else 0)
    (hf : fs₀.file y.file = some bs₀) {s s' : S} {fs' : FS} :
    ((∃ m, y.run sts Mem.init fs₀ = (.ok m, fs')) ∧ s' = s) ↔
      runSteps (fun t _ fs => y.readAll t fs) (fun t bs s => do y.writeAll t bs; pure s) ts (fun _ => none) s
        fs₀ = (.ok s', fs') := by
  by_cases hall : ∀ t, t < n → 0 < ω t
  · exact Layer.run_eq_chunks ha hall hv hts hf
  · simp only [not_forall] at hall
    obtain ⟨t, ht, h0⟩ := hall
    have hh := (hω t ht).resolve_left h0
    constructor
    · rintro ⟨⟨m, hm⟩, -⟩
      refine absurd hm (Layer.run_hash hh sts _ _ _ _ ?_)
      have := hv.hash t
      rw [if_pos ht] at this
      exact List.count_pos_iff.1 (by omega)
    · intro h
      refine absurd h (Layer.chunks_hash hh ts _ _ _ _ _ rfl ?_)
      have := hts t
      rw [if_pos ht] at this
      exact List.count_pos_iff.1 (by omega)

theorem runSteps_fixed {S : Type} {rd rd' : Nat → S → FS → Res Bytes} {wr wr' : Nat → Bytes → S → M S} {s : S}
    (hr : ∀ t fs, rd t s fs = rd' t s fs) (hw : ∀ t bs, wr t bs s = wr' t bs s)
    (hs : ∀ t bs fs s' fs', wr t bs s fs = (.ok s', fs') → s' = s) :
    ∀ (ts : List Nat) (pend : Nat → Option Bytes) (fs : FS),
      runSteps rd wr ts pend s fs = runSteps rd' wr' ts pend s fs
  | [], _, _ => rfl
  | t :: ts, pend, fs => by
    unfold runSteps
    cases pend t with
    | none =>
      dsimp only
      rw [M.bind_run, M.bind_run, M.get_run, M.get_run, hr]
      cases rd' t s fs with
      | error e => rfl
      | ok bs => exact runSteps_fixed hr hw hs ts _ fs
    | some bs =>
      dsimp only
      rw [M.bind_run, M.bind_run, hw]
      cases h : wr' t bs s fs with
      | mk r f1 =>
        cases r with
        | error e => rfl
        | ok s1 =>
          have := hs t bs fs s1 f1 (by rw [hw]; exact h)
          subst this
          exact runSteps_fixed hr hw hs ts _ f1

theorem hashChunk_len {A : Alg E} {b level n : Nat} {ns : List E} {o : Bytes}
    (h : hashChunk A b level n ns = .ok o) : o.length = n / b * Element.byteLen E := by
  unfold hashChunk at h
  simp only [bind_ok_iff, ensure_ok_iff] at h
  obtain ⟨_, h1, h2⟩ := h
  rw [← Except.ok.inj h2]
  exact h1

theorem mmapTasks_pos {b width t : Nat} (h : t < mmapTasks E b width) :
    0 < Element.byteLen E ∧ 0 < chunkSize width t := by
  unfold mmapTasks at h
  dsimp only at h
  have h1 : t < numChunks width := lt_of_lt_of_le h (Nat.min_le_left _ _)
  have h2 : 0 < (width * Element.byteLen E + writeChunkWidth E b - 1) / writeChunkWidth E b :=
    lt_of_le_of_lt (Nat.zero_le _) (lt_of_lt_of_le h (Nat.min_le_right _ _))
  constructor
  · rcases Nat.eq_zero_or_pos (Element.byteLen E) with h0 | h0
    · have : writeChunkWidth E b = 0 := by unfold writeChunkWidth; rw [h0]; simp
      rw [this] at h2
      simp at h2
    · exact h0
  · unfold numChunks at h1
    unfold chunkSize
    have : 0 < buildChunkNodes := by decide
    have h3 : t * buildChunkNodes < width := by
      by_contra hn
      have h4 : (width + buildChunkNodes - 1) / buildChunkNodes ≤ t := by
        rw [Nat.div_le_iff_le_mul_add_pred this, Nat.mul_comm]
        omega
      omega
    exact Nat.lt_min.2 ⟨this, by omega⟩

theorem apart_aux {b width t u ws : Nat} (htu : t < u) :
    ws * Element.byteLen E + t * writeChunkWidth E b
        + min (writeChunkWidth E b) (width * Element.byteLen E - t * writeChunkWidth E b)
      ≤ ws * Element.byteLen E + u * writeChunkWidth E b := by
  have h1 : (t + 1) * writeChunkWidth E b ≤ u * writeChunkWidth E b := Nat.mul_le_mul_right _ htu
  have h2 := Nat.min_le_left (writeChunkWidth E b) (width * Element.byteLen E - t * writeChunkWidth E b)
  rw [Nat.add_mul, Nat.one_mul] at h1
  omega

theorem apart_read {width t rs ws x : Nat} (h : rs + width ≤ ws) :
    (rs + t * buildChunkNodes) * Element.byteLen E + chunkSize width t * Element.byteLen E
      ≤ ws * Element.byteLen E + x ∨ chunkSize width t = 0 := by
  rcases Nat.eq_zero_or_pos (chunkSize width t) with h0 | h0
  · exact .inr h0
  · left
    have h1 : rs + t * buildChunkNodes + chunkSize width t ≤ ws := by
      unfold chunkSize at *
      have := Nat.min_le_right buildChunkNodes (width - t * buildChunkNodes)
      omega
    rw [← Nat.add_mul]
    exact le_trans (Nat.mul_le_mul_right _ h1) (Nat.le_add_right _ _)

theorem diskLayer_apart {A : Alg E} {b width level rs ws : Nat} {s : DiskStore E} (h : rs + width ≤ ws) :
    (diskLayer A b s width level rs ws).Apart (mmapTasks E b width) (outSize E b width) where
  rw t u ht _ := (apart_read h).resolve_right (mmapTasks_pos ht).2.ne'
  ww t u htu _ := apart_aux htu
  len t bs o _ ho := by
    unfold diskLayer at ho
    simp only [bind_ok_iff] at ho
    obtain ⟨ns, -, h2⟩ := ho
    exact hashChunk_len h2
  pos t ht := Nat.mul_pos (mmapTasks_pos ht).2 (mmapTasks_pos ht).1

theorem cacheLayer_apart {A : Alg E} {b width level rs ws : Nat} {s : LevelCacheStore E}
    (h : rs + width ≤ ws) :
    (cacheLayer A b s width level rs ws).Apart (mmapTasks E b width) (outSize E b width) where
  rw t u ht _ := (apart_read h).resolve_right (mmapTasks_pos ht).2.ne'
  ww t u htu _ := apart_aux htu
  len t bs o _ ho := by
    unfold cacheLayer at ho
    simp only [bind_ok_iff] at ho
    obtain ⟨ns, -, h2⟩ := ho
    exact hashChunk_len h2
  pos t ht := Nat.mul_pos (mmapTasks_pos ht).2 (mmapTasks_pos ht).1

theorem hash_nothing [LawfulElement E] {A : Alg E} {b width level t : Nat} (hb : 0 < b)
    (hc : 0 < chunkSize width t) (h0 : outSize E b width t = 0) {bs o : Bytes}
    (hl : bs.length = chunkSize width t * Element.byteLen E) :
    (do let ns ← decodeAll bs; hashChunk A b level (chunkSize width t) ns) ≠ (.ok o : Res Bytes) := by
  intro h
  have hp := LawfulElement.byteLen_pos (E := E)
  obtain ⟨ns, h1, h2⟩ := bind_ok_iff.1 h
  have h3 := hashChunk_len h2
  unfold outSize at h0
  rw [h0] at h3
  have h4 : 0 < ns.length := by
    rw [mapM_length h1, lt_chunks_length hp, hl, Nat.mul_zero]
    exact Nat.mul_pos hc hp
  unfold hashChunk at h2
  simp only [bind_ok_iff, ensure_ok_iff] at h2
  obtain ⟨_, -, h5⟩ := h2
  rw [← Except.ok.inj h5, length_encodeAll, List.length_map] at h3
  have h6 : 0 < (chunks b ns).length := by
    rw [lt_chunks_length hb]; simpa using h4
  have := Nat.mul_pos h6 hp
  omega

theorem outSize_or_fail [LawfulElement E] {A : Alg E} {b width level t : Nat} (hb : 0 < b)
    (ht : t < mmapTasks E b width) : 0 < outSize E b width t ∨
      ∀ bs o, bs.length = chunkSize width t * Element.byteLen E →
        (do let ns ← decodeAll bs; hashChunk A b level (chunkSize width t) ns) ≠ (.ok o : Res Bytes) := by
  rcases Nat.eq_zero_or_pos (outSize E b width t) with h0 | h0
  · exact .inr fun bs o hl => hash_nothing hb (mmapTasks_pos ht).2 h0 hl
  · exact .inl h0

theorem layerChunk (rs width t : Nat) :
    min buildChunkNodes (rs + width - (rs + t * buildChunkNodes)) = chunkSize width t := by
  unfold chunkSize
  rw [Nat.add_sub_add_left]

theorem subP_chunk (a c : Nat) :
    subP ((a + c) * Element.byteLen E) (a * Element.byteLen E) = .ok (c * Element.byteLen E) := by
  rw [subP_ok (Nat.mul_le_mul_right _ (Nat.le_add_right _ _)), ← Nat.sub_mul, Nat.add_sub_cancel_left]

theorem disk_layerRead {A : Alg E} {b width level rs ws : Nat} {s : DiskStore E} (t : Nat) (fs : FS) :
    DiskStore.layerRead A b width level rs t s fs = (diskLayer A b s width level rs ws).readAll t fs := by
  unfold DiskStore.layerRead Layer.readAll DiskStore.readRange DiskStore.storeReadRange diskLayer
  simp only [layerChunk, subP_chunk, Res.ok_bind, bind_assoc]

theorem cache_layerRead {A : Alg E} {b width level rs ws : Nat} {s : LevelCacheStore E} (t : Nat) (fs : FS) :
    LevelCacheStore.layerRead A b width level rs t s fs
      = (cacheLayer A b s width level rs ws).readAll t fs := by
  unfold LevelCacheStore.layerRead Layer.readAll LevelCacheStore.readRangeInternal
    LevelCacheStore.storeReadRangeInternal cacheLayer LevelCacheStore.checkRange
  simp only [layerChunk, subP_chunk, Res.ok_bind, bind_assoc]
  unfold ensure
  split <;> try rfl
  split <;> try rfl
  split <;> rfl

theorem disk_layerWrite {A : Alg E} {b width level rs ws : Nat} {s : DiskStore E} (t : Nat) (bs : Bytes) :
    mmapTaskWrite E b width ws s.file t bs = (diskLayer A b s width level rs ws).writeAll t bs := rfl

theorem cache_layerWrite {A : Alg E} {b width level rs ws : Nat} {s : LevelCacheStore E} (t : Nat) (bs : Bytes) :
    mmapTaskWrite E b width ws s.file t bs = (cacheLayer A b s width level rs ws).writeAll t bs := rfl

theorem openFile_ok {f : FileId} {fs fs' : FS} {u : Unit} (h : FS.openFile f fs = (.ok u, fs')) :
    fs' = fs ∧ ∃ bs, fs.file f = some bs := by
  unfold FS.openFile at h
  rw [M.get_run] at h
  obtain ⟨h1, h2⟩ := Prod.mk.inj h
  refine ⟨h2.symm, ?_⟩
  cases hf : fs.file f with
  | none => simp [FS.contents, hf] at h1
  | some bs => exact ⟨bs, rfl⟩

theorem pos_of_chunk {b : Nat} (h : buildChunkNodes % b = 0) : 0 < b := by
  rcases Nat.eq_zero_or_pos b with h0 | h0
  · subst h0; simp [buildChunkNodes] at h
  · exact h0

variable [LawfulElement E] {τ : ByteSched} {σ : Sched}

theorem disk_processLayer (hτ : τ.Valid) (hσ : σ.Valid) {A : Alg E} {b width level rs ws : Nat}
    (h : rs + width ≤ ws) (s : DiskStore E) :
    M.OkEq (do Disk.processLayer τ A b s width level rs ws; pure s)
      (DiskStore.processLayer A b σ s width level rs ws) := by
  intro fs s' fs'
  unfold Disk.processLayer DiskStore.processLayer
  simp only [M.bind_ok_iff]
  constructor
  · rintro ⟨_, f4, ⟨u, f1, h1, v, f2, h2, m, f3, h3, h4⟩, h5⟩
    obtain ⟨rfl, bs₀, hf⟩ := openFile_ok h1
    obtain ⟨hb, rfl⟩ := mEnsure_ok_iff.1 h2
    cases h4
    cases h5
    refine ⟨u, _, h1, v, _, h2, ?_⟩
    rw [runSteps_fixed (rd' := fun t _ fs => (diskLayer A b s width level rs ws).readAll t fs)
      (wr' := fun t bs s' => do (diskLayer A b s width level rs ws).writeAll t bs; pure s')
      (fun t fs => disk_layerRead t fs) (fun t bs => rfl) (fun t bs fs s' fs' h => by
        obtain ⟨_, _, _, h⟩ := M.bind_ok_iff.1 h
        cases h; rfl)]
    exact (Layer.run_eq_chunks' (diskLayer_apart h) (fun t ht => outSize_or_fail (pos_of_chunk hb) ht)
      (hτ level _ _ _) (hσ level _) hf).1 ⟨⟨m, h3⟩, rfl⟩
  · rintro ⟨u, f1, h1, v, f2, h2, h3⟩
    obtain ⟨rfl, bs₀, hf⟩ := openFile_ok h1
    obtain ⟨hb, rfl⟩ := mEnsure_ok_iff.1 h2
    rw [runSteps_fixed (rd' := fun t _ fs => (diskLayer A b s width level rs ws).readAll t fs)
      (wr' := fun t bs s' => do (diskLayer A b s width level rs ws).writeAll t bs; pure s')
      (fun t fs => disk_layerRead t fs) (fun t bs => rfl) (fun t bs fs s' fs' h => by
        obtain ⟨_, _, _, h⟩ := M.bind_ok_iff.1 h
        cases h; rfl)] at h3
    obtain ⟨⟨m, hm⟩, rfl⟩ := (Layer.run_eq_chunks' (diskLayer_apart h)
      (fun t ht => outSize_or_fail (pos_of_chunk hb) ht) (hτ level _ _ _) (hσ level _) hf).2 h3
    exact ⟨(), fs', ⟨u, _, h1, v, _, h2, m, fs', hm, rfl⟩, rfl⟩

theorem cache_processLayer (hτ : τ.Valid) (hσ : σ.Valid) {A : Alg E} {b width level rs ws : Nat}
    (h : rs + width ≤ ws) (s : LevelCacheStore E) :
    M.OkEq (do Cache.processLayer τ A b s width level rs ws; pure s)
      (LevelCacheStore.processLayer A b σ s width level rs ws) := by
  intro fs s' fs'
  unfold Cache.processLayer LevelCacheStore.processLayer
  simp only [M.bind_ok_iff]
  constructor
  · rintro ⟨_, f4, ⟨u, f1, h1, v, f2, h2, m, f3, h3, h4⟩, h5⟩
    obtain ⟨rfl, bs₀, hf⟩ := openFile_ok h1
    obtain ⟨hb, rfl⟩ := mEnsure_ok_iff.1 h2
    cases h4
    cases h5
    refine ⟨u, _, h1, v, _, h2, ?_⟩
    rw [runSteps_fixed (rd' := fun t _ fs => (cacheLayer A b s width level rs ws).readAll t fs)
      (wr' := fun t bs s' => do (cacheLayer A b s width level rs ws).writeAll t bs; pure s')
      (fun t fs => cache_layerRead t fs) (fun t bs => rfl) (fun t bs fs s' fs' h => by
        obtain ⟨_, _, _, h⟩ := M.bind_ok_iff.1 h
        cases h; rfl)]
    exact (Layer.run_eq_chunks' (cacheLayer_apart h) (fun t ht => outSize_or_fail (pos_of_chunk hb) ht)
      (hτ level _ _ _) (hσ level _) hf).1 ⟨⟨m, h3⟩, rfl⟩
  · rintro ⟨u, f1, h1, v, f2, h2, h3⟩
    obtain ⟨rfl, bs₀, hf⟩ := openFile_ok h1
    obtain ⟨hb, rfl⟩ := mEnsure_ok_iff.1 h2
    rw [runSteps_fixed (rd' := fun t _ fs => (cacheLayer A b s width level rs ws).readAll t fs)
      (wr' := fun t bs s' => do (cacheLayer A b s width level rs ws).writeAll t bs; pure s')
      (fun t fs => cache_layerRead t fs) (fun t bs => rfl) (fun t bs fs s' fs' h => by
        obtain ⟨_, _, _, h⟩ := M.bind_ok_iff.1 h
        cases h; rfl)] at h3
    obtain ⟨⟨m, hm⟩, rfl⟩ := (Layer.run_eq_chunks' (cacheLayer_apart h)
      (fun t ht => outSize_or_fail (pos_of_chunk hb) ht) (hτ level _ _ _) (hσ level _) hf).2 h3
    exact ⟨(), fs', ⟨u, _, h1, v, _, h2, m, fs', hm, rfl⟩, rfl⟩

/-! ### The builds -/

theorem disk_buildLoop (hτ : τ.Valid) (hσ : σ.Valid) {A : Alg E} {b : Nat} :
    ∀ (f width level lni : Nat) (s : DiskStore E), (level = 0 → width ≤ s.len) →
      M.OkEq (Disk.buildLoop τ A b f width level lni s) (DiskStore.buildLoop A b σ f width level lni s)
  | 0, _, _, _, _, _ => M.OkEq.rfl
  | f + 1, width, level, lni, s, hs => by
    unfold Disk.buildLoop DiskStore.buildLoop
    split
    · refine M.OkEq.unit (disk_processLayer hτ hσ ?_ s) (disk_buildLoop hτ hσ f _ _ _ _ (by simp))
      split
      · rename_i h0; simpa using hs h0
      · exact Nat.le_refl _
    · exact M.OkEq.rfl

theorem cache_buildLoop (hτ : τ.Valid) (hσ : σ.Valid) {A : Alg E} {b : Nat} {c : StoreConfig} {ci : Nat} :
    ∀ (f width level lni : Nat) (s : LevelCacheStore E), (level = 0 → width ≤ s.len) →
      M.OkEq (Cache.buildLoop τ A b c ci f width level lni s)
        (LevelCacheStore.buildLoop A b σ c ci f width level lni s)
  | 0, _, _, _, _, _ => M.OkEq.rfl
  | f + 1, width, level, lni, s, hs => by
    unfold Cache.buildLoop LevelCacheStore.buildLoop
    split
    · refine M.OkEq.unit (cache_processLayer hτ hσ ?_ s)
        (M.OkEq.step fun s => cache_buildLoop hτ hσ f _ _ _ _ (by simp))
      split
      · rename_i h0; simpa using hs h0
      · split
        · simp
        · dsimp only; omega
    · exact M.OkEq.rfl

theorem disk_build (hτ : τ.Valid) (hσ : σ.Valid) (A : Alg E) (b : Nat) (s : DiskStore E)
    (leafs rows : Nat) (c : Option StoreConfig) :
    M.OkEq (Disk.build τ A b s leafs rows) (DiskStore.build A b σ s leafs rows c) := by
  unfold Disk.build DiskStore.build
  refine M.OkEq.ensure fun _ => M.OkEq.ensure fun hl => M.OkEq.ensure fun _ => ?_
  exact M.OkEq.bind (disk_buildLoop hτ hσ _ _ _ _ _ fun _ => hl.ge) fun _ => M.OkEq.rfl

theorem cache_build [FloatRows] (hτ : τ.Valid) (hσ : σ.Valid) (A : Alg E) (b : Nat) (s : LevelCacheStore E)
    (leafs rows : Nat) (c : Option StoreConfig) :
    M.OkEq (Cache.build τ A b s leafs rows c) (LevelCacheStore.build A b σ s leafs rows c) := by
  unfold Cache.build LevelCacheStore.build
  refine M.OkEq.ensure fun _ => M.OkEq.ensure fun hl => M.OkEq.ensure fun _ => ?_
  cases c with
  | none => exact M.OkEq.rfl
  | some c =>
    refine M.OkEq.step fun _ => M.OkEq.step fun _ => M.OkEq.step fun _ => ?_
    exact M.OkEq.bind (cache_buildLoop hτ hσ _ _ _ _ _ fun _ => hl.ge) fun _ => M.OkEq.rfl

/-! ### The constructors -/

/-- Two implementations of the trait for one type of store that differ in `build` only, and there only
in the way they fail. -/
structure SameStore {S : Type} (i j : Store S E) : Prop where
  ops : i.toStoreOps = j.toStoreOps
  new : i.new = j.new
  newWithConfig : i.newWithConfig = j.newWithConfig
  newFromSlice : i.newFromSlice = j.newFromSlice
  newFromSliceWithConfig : i.newFromSliceWithConfig = j.newFromSliceWithConfig

variable [FloatRows]

theorem source_build {S : Type} {i j : Store S E} (h : SameStore i j) {σ' σ : Sched} {A : Alg E} {b : Nat}
    (hb : ∀ s n r c, M.OkEq (i.build A b σ' s n r c) (j.build A b σ s n r c)) (src : Source A)
    (cfg : Option StoreConfig) :
    M.OkEq (@Source.build S E A _ i _ b σ' src cfg) (@Source.build S E A _ j _ b σ src cfg) := by
  obtain @⟨io, i1, i2, i3, i4, i5, i6, i7, i8, i9⟩ := i
  obtain @⟨jo, j1, j2, j3, j4, j5, j6, j7, j8, j9⟩ := j
  obtain ⟨h0, h1, h2, h3, h4⟩ := h
  dsimp only at *
  subst h0 h1 h2 h3 h4
  have iter : ∀ hint items, M.OkEq
      (@BaseTree.tryFromIter S E _ (@Store.mk S E _ io i1 i2 i3 i4 i5 i6 i7 i8 i9) _ A b σ' hint items)
      (@BaseTree.tryFromIter S E _ (@Store.mk S E _ io i1 i2 i3 i4 j5 j6 j7 j8 j9) _ A b σ hint items) := by
    intro hint items
    unfold BaseTree.tryFromIter
    cases hint with
    | none => exact M.OkEq.rfl
    | some n =>
      exact M.OkEq.step fun _ => M.OkEq.step fun _ => M.OkEq.step fun _ =>
        M.OkEq.bind (hb _ _ _ _) fun _ => M.OkEq.rfl
  have iterC : ∀ hint items c, M.OkEq
      (@BaseTree.tryFromIterWithConfig S E _ (@Store.mk S E _ io i1 i2 i3 i4 i5 i6 i7 i8 i9) _ A b σ' hint items c)
      (@BaseTree.tryFromIterWithConfig S E _ (@Store.mk S E _ io i1 i2 i3 i4 j5 j6 j7 j8 j9) _ A b σ hint items c) := by
    intro hint items c
    unfold BaseTree.tryFromIterWithConfig
    cases hint with
    | none => exact M.OkEq.rfl
    | some n =>
      refine M.OkEq.step fun _ => M.OkEq.step fun s => ?_
      split
      · exact M.OkEq.rfl
      · exact M.OkEq.step fun _ => M.OkEq.bind (hb _ _ _ _) fun _ => M.OkEq.rfl
  cases src with
  | new items =>
    cases cfg with
    | none => exact iter (some items.length) (items.map .ok)
    | some c => exact iterC (some items.length) (items.map .ok) c
  | iter items =>
    cases cfg with
    | none => exact iter (some items.length) (items.map .ok)
    | some c => exact iterC (some items.length) (items.map .ok) c
  | data ds =>
    cases cfg with
    | none => exact iter (some ds.length) ((BaseTree.dataItems A ds A.init).map .ok)
    | some c => exact iterC (some ds.length) ((BaseTree.dataItems A ds A.init).map .ok) c
  | par π items =>
    cases cfg with
    | none =>
      exact M.OkEq.step fun _ => M.OkEq.step fun _ => M.OkEq.step fun _ =>
        M.OkEq.bind (hb _ _ _ _) fun _ => M.OkEq.rfl
    | some c =>
      dsimp only [Source.build]
      unfold BaseTree.fromParIterWithConfig
      refine M.OkEq.step fun _ => M.OkEq.step fun s => ?_
      split
      · exact M.OkEq.rfl
      · exact M.OkEq.step fun _ => M.OkEq.bind (hb _ _ _ _) fun _ => M.OkEq.rfl
  | bytes es =>
    cases cfg with
    | none =>
      exact M.OkEq.step fun _ => M.OkEq.step fun _ => M.OkEq.step fun _ =>
        M.OkEq.bind (hb _ _ _ _) fun _ => M.OkEq.rfl
    | some c =>
      exact M.OkEq.step fun _ => M.OkEq.step fun _ => M.OkEq.step fun _ =>
        M.OkEq.bind (hb _ _ _ _) fun _ => M.OkEq.rfl

theorem disk_source (hτ : τ.Valid) (hσ : σ.Valid) {σ' : Sched} {A : Alg E} {b : Nat} (src : Source A)
    (cfg : Option StoreConfig) :
    M.OkEq (src.build (S := Disk τ E) b σ' cfg) (src.build (S := DiskStore E) b σ cfg) := by
  have h := @source_build E _ _ _ (DiskStore E) (Disk.instStoreOfFloatRows (τ := τ)) inferInstance
    ⟨rfl, rfl, rfl, rfl, rfl⟩ σ' σ A b (fun s n r c => disk_build hτ hσ A b s n r c) src cfg
  exact h

theorem cache_source (hτ : τ.Valid) (hσ : σ.Valid) {σ' : Sched} {A : Alg E} {b : Nat} (src : Source A)
    (cfg : Option StoreConfig) :
    M.OkEq (src.build (S := Cache τ E) b σ' cfg) (src.build (S := LevelCacheStore E) b σ cfg) := by
  have h := @source_build E _ _ _ (LevelCacheStore E) (Cache.instStoreOfFloatRows (τ := τ)) inferInstance
    ⟨rfl, rfl, rfl, rfl, rfl⟩ σ' σ A b (fun s n r c => cache_build hτ hσ A b s n r c) src cfg
  exact h

/-! ### Possible orders -/
omit [Element E] [LawfulElement E] [FloatRows]

theorem idxOf_lt {α : Type} [DecidableEq α] {l l1 l2 : List α} {x y : α} (h : l = l1 ++ l2) (hx : x ∈ l1)
    (hy : y ∉ l1) : l.idxOf x < l.idxOf y := by
  subst h
  rw [List.idxOf_append_of_mem hx, List.idxOf_append_of_notMem hy]
  exact lt_of_lt_of_le (List.idxOf_lt_length_iff.2 hx) (Nat.le_add_right _ _)

theorem Steps.Valid.of_nodup {ts : List Step} {n : Nat} {ρ ω : Nat → Nat} (hn : ts.Nodup)
    (hr : ∀ t i, Step.read t i ∈ ts ↔ t < n ∧ i < ρ t) (hh : ∀ t, Step.hash t ∈ ts ↔ t < n)
    (hw : ∀ t i, Step.write t i ∈ ts ↔ t < n ∧ i < ω t)
    (h1 : ∀ t i, t < n → i < ρ t → ts.idxOf (.read t i) < ts.idxOf (.hash t))
    (h2 : ∀ t i, t < n → i < ω t → ts.idxOf (.hash t) < ts.idxOf (.write t i)) :
    Steps.Valid ts n ρ ω where
  read t i := by rw [hn.count]; simp only [hr]
  hash t := by rw [hn.count]; simp only [hh]
  write t i := by rw [hn.count]; simp only [hw]
  read_hash := h1
  hash_write := h2

theorem ByteSched.sequential_valid : ByteSched.sequential.Valid := by
  intro level n ρ ω
  have hsplit : ∀ t, t < n → ∃ as bs, List.range n = as ++ t :: bs ∧ t ∉ as := by
    intro t ht
    obtain ⟨as, bs, h⟩ := List.append_of_mem (List.mem_range.2 ht)
    refine ⟨as, bs, h, fun hm => ?_⟩
    have := List.nodup_range (n := n)
    rw [h, List.nodup_append] at this
    exact this.2.2 t hm t (by simp) rfl
  refine Steps.Valid.of_nodup ?_ ?_ ?_ ?_ ?_ ?_
  · unfold ByteSched.sequential
    rw [List.nodup_flatMap]
    constructor
    · intro t _
      rw [List.nodup_append, List.nodup_cons]
      refine ⟨List.Nodup.map (fun a b h => by simpa using h) List.nodup_range,
        ⟨by simp, List.Nodup.map (fun a b h => by simpa using h) List.nodup_range⟩, ?_⟩
      intro a ha b hb hab
      subst hab
      simp only [List.mem_map, List.mem_cons] at ha hb
      obtain ⟨i, _, rfl⟩ := ha
      simp at hb
    · refine List.nodup_range.imp fun {t u} htu => ?_
      rw [Function.onFun, List.disjoint_left]
      intro a ha hb
      simp only [List.mem_append, List.mem_map, List.mem_cons] at ha hb
      rcases ha with ⟨i, _, rfl⟩ | rfl | ⟨i, _, rfl⟩ <;> simp [htu, htu.symm] at hb
  · intro t i; simp [ByteSched.sequential]
  · intro t; simp [ByteSched.sequential]
  · intro t i; simp [ByteSched.sequential]
  · intro t i ht hi
    obtain ⟨as, bs, hab, hn⟩ := hsplit t ht
    unfold ByteSched.sequential
    rw [hab, List.flatMap_append, List.flatMap_cons, ← List.append_assoc, ← List.append_assoc]
    refine idxOf_lt (l1 := as.flatMap _ ++ (List.range (ρ t)).map (.read t ·)) (List.append_assoc _ _ _) ?_ ?_
    · simp [hi]
    · simp [hn]
  · intro t i ht hi
    obtain ⟨as, bs, hab, hn⟩ := hsplit t ht
    unfold ByteSched.sequential
    rw [hab, List.flatMap_append, List.flatMap_cons]
    refine idxOf_lt (l1 := as.flatMap _ ++ ((List.range (ρ t)).map (.read t ·) ++ [.hash t]))
      (l2 := (List.range (ω t)).map (.write t ·) ++ _) (by simp only [List.append_assoc, List.cons_append]; rfl) ?_ ?_
    · simp
    · simp [hn]

theorem ByteSched.phases_valid : ByteSched.phases.Valid := by
  intro level n ρ ω
  refine Steps.Valid.of_nodup ?_ ?_ ?_ ?_ ?_ ?_
  · unfold ByteSched.phases
    have hb : ∀ (k : Nat → Nat) (c : Nat → Nat → Step) (hc : ∀ t u i j, c t i = c u j → t = u ∧ i = j),
        ((List.range n).flatMap fun t => (List.range (k t)).map (c t ·)).Nodup := by
      intro k c hc
      rw [List.nodup_flatMap]
      refine ⟨fun t _ => List.Nodup.map (fun i j h => (hc _ _ _ _ h).2) List.nodup_range, ?_⟩
      refine List.nodup_range.imp fun {t u} htu => ?_
      rw [Function.onFun, List.disjoint_left]
      intro a ha hb
      simp only [List.mem_map] at ha hb
      obtain ⟨i, _, rfl⟩ := ha
      obtain ⟨j, _, h⟩ := hb
      exact htu (hc _ _ _ _ h).1.symm
    rw [List.nodup_append, List.nodup_append]
    refine ⟨⟨hb ρ Step.read (by simp), List.Nodup.map (fun a b h => by simpa using h) List.nodup_range, ?_⟩,
      hb ω Step.write (by simp), ?_⟩
    · intro a ha b hb hab
      subst hab
      simp only [List.mem_map] at hb
      obtain ⟨i, _, rfl⟩ := hb
      simp at ha
    · intro a ha b hb hab
      subst hab
      simp only [List.mem_map, List.mem_flatMap] at hb
      obtain ⟨u, _, i, _, rfl⟩ := hb
      simp at ha
  · intro t i; simp [ByteSched.phases]
  · intro t; simp [ByteSched.phases]
  · intro t i; simp [ByteSched.phases]
  · intro t i ht hi
    unfold ByteSched.phases
    rw [List.append_assoc]
    exact idxOf_lt rfl (by simp [ht, hi]) (by simp)
  · intro t i ht hi
    unfold ByteSched.phases
    exact idxOf_lt rfl (by simp [ht]) (by simp)

end Racy
end Verif
