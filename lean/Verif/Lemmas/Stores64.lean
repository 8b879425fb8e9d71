import Verif.Lemmas.Construct64
import Verif.Lemmas.RangeReads
import Verif.Lemmas.Compound
/-!
`VecStore`, `MmapStore`, `DiskStore` and `LevelCacheStore` on words can be built as on natural numbers.
-/
set_option linter.unusedSectionVars false
namespace Verif
open Spec Word StoreOps

/-! #### Lengths of what is read -/

theorem readExactAt_length {fs : FS} {f : FileId} {a n : Nat} {bs : Bytes} (h : fs.readExactAt f a n = .ok bs) :
    bs.length = n := by
  unfold FS.readExactAt at h
  rw [bind_ok_iff] at h
  obtain ⟨c, _, h⟩ := h
  split at h
  · cases h; simp [*]
  · split at h
    · cases h; simp [region]; omega
    · cases h

section
variable {E : Type} [Element E] [LawfulElement E]

theorem decodeAll_length {bs : Bytes} {m : Nat} {es : List E} (hl : bs.length = m * Element.byteLen E)
    (h : decodeAll bs = .ok es) : es.length = m := by
  unfold decodeAll at h
  rw [mapM_ok_iff] at h
  rw [← h.length_eq, chunks_eq (LawfulElement.byteLen_pos (E := E)) (m := m) (by rw [hl, Nat.mul_comm])]
  simp

theorem chunksExact_length {bs : Bytes} {es : List E}
    (h : (chunksExact (Element.byteLen E) bs).mapM Element.fromSlice = .ok es) :
    es.length = bs.length / Element.byteLen E := by
  have hp := LawfulElement.byteLen_pos (E := E)
  have h1 := Nat.div_mul_le_self bs.length (Element.byteLen E)
  unfold chunksExact at h
  refine decodeAll_length (bs := bs.take (bs.length / Element.byteLen E * Element.byteLen E)) ?_ h
  rw [List.length_take]
  omega

theorem range_length {fs : FS} {f : FileId} {p a c : Nat} {es : List E}
    (h : (do let n ← subP (c * Element.byteLen E) (a * Element.byteLen E)
             let bs ← fs.readExactAt f p n
             decodeAll bs) = .ok es) : es.length ≤ c - a := by
  rw [bind_ok_iff] at h
  obtain ⟨n, h1, h⟩ := h
  rw [bind_ok_iff] at h
  obtain ⟨bs, h2, h⟩ := h
  have h3 := readExactAt_length h2
  unfold subP at h1
  split at h1
  · simp only [Except.ok.injEq] at h1
    refine Nat.le_of_eq (decodeAll_length (m := c - a) ?_ h)
    rw [Nat.sub_mul]; omega
  · cases h1

end

/-! #### `VecStore` -/
namespace Vec64
variable {E : Type} [Element E] [LawfulElement E] [FloatRows] {o : Overflow} {n b N W : Nat}

/-- How the two stores correspond. -/
def Rel (W : Nat) (s' : Vec64 o E) (s : VecStore E) : Prop := s' = ⟨s⟩ ∧ s.els.length ≤ W

theorem resize_length {α : Type} (xs : List α) {m : Nat} (h : xs.length ≤ m) (d : α) :
    (resize xs m d).length = m := by
  unfold resize
  rw [List.length_append, List.length_take, List.length_replicate]; omega

theorem resize64_eq {xs : List E} {m : Nat} (h : m * Element.byteLen E < 2 ^ 63) :
    resize64 xs m = .ok (resize xs m Element.default) := by
  unfold resize64
  rw [allocLen_ok h, Res.ok_bind]

theorem opsSim (hF : SizesFit E n b N W) : OpsSim (Vec64 o E) (VecStore E) (E := E) W (Rel W) where
  len h := by rw [h.1]; rfl
  isEmpty h := by rw [h.1]; rfl
  loaded _ := rfl
  le h := h.2
  empty {_ s} h he := by
    have he : s.els.isEmpty = true := he
    rw [List.isEmpty_iff] at he
    show s.els.length = 0
    rw [he]; rfl
  readAt fs i h _ := by rw [h.1]; rfl
  readRange fs a c h _ _ := by rw [h.1]; rfl
  readRange_len {_ s fs a c es} _ h := by
    have h : s.readRange a c = .ok es := h
    unfold VecStore.readRange at h
    split at h
    · simp only [Except.ok.injEq] at h
      rw [← h, List.length_take]; omega
    · cases h
  writeAt {s' s} e {i} h _ hi := by
    obtain ⟨rfl, hl⟩ := h
    have hW := hF.bound_lt
    have := half_lt_word
    show M.Sim _ _ (writeAt _ e i) (VecStore.writeAt s e i)
    unfold writeAt VecStore.writeAt
    dsimp only
    by_cases hc : s.els.length ≤ i
    · rw [if_pos hc, if_pos hc, Word.add_ok (by omega), M.ofRes_ok_bind, resize64_eq (hF.mul_lt (by omega)),
        M.ofRes_ok_bind]
      have h1 := resize_length s.els (show s.els.length ≤ i + 1 by omega) Element.default
      refine M.Sim.pure ⟨⟨rfl, ?_⟩, rfl, ?_⟩
      · simp only [List.length_set]; omega
      · show s.els.length ≤ (List.set _ _ _).length
        rw [List.length_set]; omega
    · rw [if_neg hc, if_neg hc]
      refine M.Sim.pure ⟨⟨rfl, ?_⟩, rfl, ?_⟩
      · simp only [List.length_set]; omega
      · show s.els.length ≤ (List.set _ _ _).length
        rw [List.length_set]
  copyFromSlice {s' s buf i} h _ hi := by
    obtain ⟨rfl, hl⟩ := h
    have hW := hF.bound_lt
    have := half_lt_word
    have hp := LawfulElement.byteLen_pos (E := E)
    have hi' : i + buf.length / Element.byteLen E ≤ W := by
      have h1 := Nat.div_mul_le_self buf.length (Element.byteLen E)
      refine Nat.le_of_mul_le_mul_right (c := Element.byteLen E) ?_ hp
      rw [Nat.add_mul]; omega
    show M.Sim _ _ (copyFromSlice _ buf i) (VecStore.copyFromSlice s buf i)
    unfold copyFromSlice VecStore.copyFromSlice
    dsimp only
    rw [modP_ok hp, M.ofRes_ok_bind, M.ofRes_ok_bind]
    refine M.Sim.step fun _ => ?_
    rw [Word.add_ok (by omega), M.ofRes_ok_bind]
    have he : (if s.els.length < i + buf.length / Element.byteLen E then
          resize64 s.els (i + buf.length / Element.byteLen E) else .ok s.els)
        = .ok (if s.els.length < i + buf.length / Element.byteLen E then
          resize s.els (i + buf.length / Element.byteLen E) Element.default else s.els) := by
      split
      · rw [resize64_eq (hF.mul_lt hi')]
      · rfl
    rw [he, M.ofRes_ok_bind]
    have hlen : (if s.els.length < i + buf.length / Element.byteLen E then
          resize s.els (i + buf.length / Element.byteLen E) Element.default else s.els).length
          = max s.els.length (i + buf.length / Element.byteLen E) := by
      split
      · rw [resize_length _ (by omega)]; omega
      · omega
    generalize (if s.els.length < i + buf.length / Element.byteLen E then
          resize s.els (i + buf.length / Element.byteLen E) Element.default else s.els) = xs at *
    cases hm : (chunksExact (Element.byteLen E) buf).mapM (Element.fromSlice (E := E)) with
    | error e => exact M.Sim.throw e
    | ok new =>
      rw [M.ofRes_ok_bind, M.ofRes_ok_bind]
      have hn := chunksExact_length hm
      have key : (List.take i xs ++ new ++ List.drop (i + buf.length / Element.byteLen E) xs).length
          = max s.els.length (i + buf.length / Element.byteLen E) := by
        simp only [List.length_append, List.length_take, List.length_drop]; omega
      refine M.Sim.pure ⟨⟨rfl, ?_⟩, rfl, ?_, ?_⟩
      · show List.length _ ≤ W
        rw [key]; omega
      · show s.els.length ≤ List.length _
        rw [key]; omega
      · show List.length _ ≤ max s.els.length _
        rw [key]

theorem new_sim (hF : SizesFit E n b N W) :
    M.Sim NoFault (fun t' t => Rel W t' t ∧ loadedFromDisk (E := E) t = false ∧ StoreOps.len (E := E) t = 0)
      (new N : M (Vec64 o E)) (pure ⟨[]⟩) := by
  unfold new
  rw [allocLen_ok (hF.mul_lt hF.size_le.2), M.ofRes_ok_bind]
  exact M.Sim.pure ⟨⟨rfl, by simp⟩, rfl, rfl⟩

theorem newFromSlice_sim (hF : SizesFit E n b N W) {bs : Bytes} (hb : bs.length / Element.byteLen E ≤ N) :
    M.Sim NoFault (fun t' t => Rel W t' t ∧ (loadedFromDisk (E := E) t = false →
        StoreOps.len (E := E) t = bs.length / Element.byteLen E))
      (newFromSlice N bs : M (Vec64 o E)) (VecStore.newFromSlice N bs) := by
  have hW := hF.size_le
  unfold newFromSlice VecStore.newFromSlice
  refine M.Sim.ofRes (Res.Sim.step fun _ => ?_)
  cases hm : (chunksExact (Element.byteLen E) bs).mapM (Element.fromSlice (E := E)) with
  | error e => exact Res.Sim.error e
  | ok new =>
    have hn := chunksExact_length hm
    rw [Res.ok_bind, Res.ok_bind, Word.sub_ok (by omega), subP_ok (by omega), Res.ok_bind, Res.ok_bind,
      show new.length + (N - new.length) = N by omega, allocLen_ok (hF.mul_lt hW.2), Res.ok_bind]
    exact Res.Sim.ok ⟨⟨rfl, by show new.length ≤ W; omega⟩, fun _ => hn⟩

theorem storeSim (hF : SizesFit E n b N W) : StoreSim (Vec64 o E) (VecStore E) (E := E) n b N W (Rel W) where
  toOpsSim := opsSim hF
  loaded_len _ h := by cases h
  new := new_sim hF
  newWithConfig _ := (new_sim hF).relax fun _ _ h => h.1
  newFromSlice _ _ hb := newFromSlice_sim hF hb
  newFromSliceWithConfig _ _ _ hb := newFromSlice_sim hF hb
  build A _ hσ _ _ c hR := defaultBuild64_sim (opsSim hF) hF A hσ _ c hR fun h => by cases h

end Vec64

/-! #### `MmapStore` -/
namespace Mmap64
variable {E : Type} [Element E] [LawfulElement E] [FloatRows] {o : Overflow} {n b N W : Nat}

/-- How the two stores correspond. -/
def Rel (W : Nat) (s' : Mmap64 o E) (s : MmapStore E) : Prop := s' = ⟨s⟩ ∧ s.len ≤ W

theorem opsSim (hF : SizesFit E n b N W) : OpsSim (Mmap64 o E) (MmapStore E) (E := E) W (Rel W) where
  len h := by rw [h.1]; rfl
  isEmpty h := by rw [h.1]; rfl
  loaded _ := rfl
  le h := h.2
  empty {_ s} h he := by
    have he : (s.len == 0) = true := he
    show s.len = 0
    simpa using he
  readAt {_ _} fs {i} h hi := by
    obtain ⟨rfl, hl⟩ := h
    have := half_lt_word
    have h1 := hF.mul_lt hl
    have h2 : (i + 1) * Element.byteLen E < 2 ^ 63 := hF.mul_lt hi
    exact readAt_eq fs (by omega) (by omega)
  readRange fs a c h hac hc := by
    obtain ⟨rfl, hl⟩ := h
    have := half_lt_word
    have h1 := hF.mul_lt hl
    have h2 := hF.mul_lt hc
    exact readRange_eq fs (by omega) hac (by omega)
  readRange_len {_ s fs a c es} _ h := by
    have h : s.readRange fs a c = .ok es := h
    unfold MmapStore.readRange at h
    simp only [bind_ok_iff] at h
    obtain ⟨_, _, bs, h1, h⟩ := h
    unfold MmapStore.mapRead at h1
    cases hm : s.map with
    | none => rw [hm] at h1; cases h1
    | some m =>
      rw [hm] at h1
      dsimp only at h1
      split at h1
      · rw [bind_ok_iff] at h1
        obtain ⟨cs, _, h1⟩ := h1
        split at h1
        · simp only [Except.ok.injEq] at h1
          refine Nat.le_of_eq (decodeAll_length (m := c - a) ?_ h)
          rw [← h1, region, List.length_take, List.length_drop, Nat.sub_mul]; omega
        · cases h1
      · cases h1
  writeAt {s' s} e {i} h _ hi := by
    obtain ⟨rfl, hl⟩ := h
    have := half_lt_word
    have h2 : (i + 1) * Element.byteLen E < 2 ^ 63 := hF.mul_lt hi
    show M.Sim _ _ (writeAt _ e i) (s.writeAt e i)
    rw [writeAt_eq e (by omega)]
    refine (M.Sim.of_map (fun t : MmapStore E => t.len = max s.len (i + 1)) ?_).relax ?_
    · intro fs t fs' h
      unfold MmapStore.writeAt at h
      obtain ⟨m, fs1, h1, h⟩ := M.bind_ok_iff.1 h
      have h3 := ensureMap_len h1
      rw [if_pos (LawfulElement.length_toBytes e)] at h
      obtain ⟨_, fs2, _, h⟩ := M.bind_ok_iff.1 h
      cases h
      show max m.len _ = _
      rw [h3]
    · rintro t' t ⟨rfl, h⟩
      refine ⟨⟨rfl, by omega⟩, rfl, ?_⟩
      show s.len ≤ t.len
      omega
  copyFromSlice {s' s buf i} h _ hi := by
    obtain ⟨rfl, hl⟩ := h
    have := half_lt_word
    have hb := hF.bytes
    have hp := LawfulElement.byteLen_pos (E := E)
    have hi' : i + buf.length / Element.byteLen E ≤ W := by
      have h1 := Nat.div_mul_le_self buf.length (Element.byteLen E)
      refine Nat.le_of_mul_le_mul_right (c := Element.byteLen E) ?_ hp
      rw [Nat.add_mul]; omega
    show M.Sim _ _ (copyFromSlice _ buf i) (s.copyFromSlice buf i)
    rw [copyFromSlice_eq buf (by omega)]
    refine (M.Sim.of_map (fun t : MmapStore E => t.len = max s.len (i + buf.length / Element.byteLen E)) ?_).relax ?_
    · intro fs t fs' h
      unfold MmapStore.copyFromSlice at h
      obtain ⟨_, fs1, _, h⟩ := M.bind_ok_iff.1 h
      obtain ⟨_, fs2, _, h⟩ := M.bind_ok_iff.1 h
      obtain ⟨m, fs3, h1, h⟩ := M.bind_ok_iff.1 h
      have h3 := ensureMap_len h1
      obtain ⟨_, fs4, _, h⟩ := M.bind_ok_iff.1 h
      cases h
      show max m.len _ = _
      rw [h3]
    · rintro t' t ⟨rfl, h⟩
      refine ⟨⟨rfl, by omega⟩, rfl, ?_, ?_⟩
      · show s.len ≤ t.len
        omega
      · show t.len ≤ max s.len _
        omega

theorem new_sim (hF : SizesFit E n b N W) :
    M.Sim NoFault (fun t' t => Rel W t' t ∧ StoreOps.len (E := E) t = 0)
      (new N : M (Mmap64 o E)) (MmapStore.new N) := by
  have := half_lt_word
  have h1 := hF.mul_lt hF.size_le.2
  unfold new MmapStore.new
  rw [Word.mul_ok (by rw [Nat.mul_comm]; omega), M.ofRes_ok_bind]
  exact M.Sim.step fun f => M.Sim.step fun _ => M.Sim.pure ⟨⟨rfl, Nat.zero_le _⟩, rfl⟩

theorem newWithConfig_sim (hF : SizesFit E n b N W) (c : StoreConfig) :
    M.Sim NoFault (Rel W) (newWithConfig N b c : M (Mmap64 o E)) (MmapStore.newWithConfig N b c) := by
  have := half_lt_word
  have h1 := hF.mul_lt hF.size_le.2
  unfold newWithConfig MmapStore.newWithConfig
  refine M.Sim.step fun ex => ?_
  split
  · unfold newFromDisk MmapStore.newFromDisk
    refine M.Sim.step fun _ => M.Sim.step fun _ => M.Sim.step fun _ => ?_
    rw [Word.mul_ok (by omega), M.ofRes_ok_bind]
    exact M.Sim.step fun _ => M.Sim.pure ⟨rfl, hF.size_le.2⟩
  · refine M.Sim.step fun _ => ?_
    rw [Word.mul_ok (by rw [Nat.mul_comm]; omega), M.ofRes_ok_bind]
    exact M.Sim.step fun _ => M.Sim.pure ⟨rfl, Nat.zero_le _⟩

theorem newFromSlice_sim (hF : SizesFit E n b N W) {bs : Bytes} (hb : bs.length / Element.byteLen E ≤ N) :
    M.Sim NoFault (fun t' t => Rel W t' t ∧ (loadedFromDisk (E := E) t = false →
        StoreOps.len (E := E) t = bs.length / Element.byteLen E))
      (newFromSlice N bs : M (Mmap64 o E)) (MmapStore.newFromSlice N bs) := by
  have hW := hF.size_le
  unfold newFromSlice MmapStore.newFromSlice
  refine M.Sim.step fun _ => M.Sim.step fun _ => M.Sim.bind (new_sim hF) ?_
  rintro _ s ⟨⟨rfl, _⟩, _⟩
  have := mapWrite_eq s 0 bs
  rw [Nat.zero_add] at this
  dsimp only
  rw [this]
  exact M.Sim.step fun _ => M.Sim.pure ⟨⟨rfl, by show bs.length / _ ≤ W; omega⟩, fun _ => rfl⟩

theorem newFromSliceWithConfig_sim (hF : SizesFit E n b N W) {bs : Bytes} (c : StoreConfig)
    (hb : bs.length / Element.byteLen E ≤ N) :
    M.Sim NoFault (fun t' t => Rel W t' t ∧ (loadedFromDisk (E := E) t = false →
        StoreOps.len (E := E) t = bs.length / Element.byteLen E))
      (newFromSliceWithConfig N b bs c : M (Mmap64 o E)) (MmapStore.newFromSliceWithConfig N b bs c) := by
  have hW := hF.size_le
  unfold newFromSliceWithConfig MmapStore.newFromSliceWithConfig
  refine M.Sim.step fun _ => M.Sim.step fun _ => M.Sim.bind (newWithConfig_sim hF c) ?_
  rintro _ s ⟨rfl, _⟩
  dsimp only
  refine M.Sim.step fun m => ?_
  have := mapWrite_eq m 0 bs
  rw [Nat.zero_add] at this
  rw [this]
  exact M.Sim.step fun _ => M.Sim.pure ⟨⟨rfl, by show bs.length / _ ≤ W; omega⟩, fun _ => rfl⟩

theorem storeSim (hF : SizesFit E n b N W) : StoreSim (Mmap64 o E) (MmapStore E) (E := E) n b N W (Rel W) where
  toOpsSim := opsSim hF
  loaded_len _ h := by cases h
  new := (new_sim hF).relax fun _ _ h => ⟨h.1, rfl, h.2⟩
  newWithConfig := newWithConfig_sim hF
  newFromSlice _ _ hb := newFromSlice_sim hF hb
  newFromSliceWithConfig _ c _ hb := newFromSliceWithConfig_sim hF c hb
  build A _ hσ _ _ c hR := defaultBuild64_sim (opsSim hF) hF A hσ _ c hR fun h => by cases h

end Mmap64

/-! #### The memory-mapped layers of `DiskStore` and `LevelCacheStore` -/
section layer
variable {S' S E : Type} [Element E] [LawfulElement E] {n b N W : Nat} (hF : SizesFit E n b N W) {o : Overflow}
  (A : Alg E) {σ : Sched}
include hF

theorem mapBounds64_eq {w ws : Nat} (hw : w ≤ W) (hs : ws ≤ W) :
    mapBounds64 E o w ws = .ok (ws * Element.byteLen E, w * Element.byteLen E) := by
  have := half_lt_word
  have h1 := hF.mul_lt hw
  have h2 := hF.mul_lt hs
  unfold mapBounds64
  rw [Word.mul_ok (by omega), Res.ok_bind, Word.mul_ok (by omega), Res.ok_bind]

theorem mapPieces64_eq {w rs : Nat} (hr : rs + w ≤ W) :
    mapPieces64 E o b w rs = (do
      ensure (buildChunkNodes % b = 0) "Invalid chunk size"
      .ok (writeChunkWidth E b, rs + w)) := by
  have := half_lt_word
  have hW := hF.bound_lt
  have hp := LawfulElement.byteLen_pos (E := E)
  have hb := hF.block
  have hB : buildChunkNodes ≤ buildDataBlockSize := by decide
  have h1 : buildChunkNodes / b * Element.byteLen E ≤ buildDataBlockSize * Element.byteLen E :=
    Nat.mul_le_mul_right _ (Nat.le_trans (Nat.div_le_self _ _) hB)
  unfold mapPieces64 writeChunkWidth
  rw [hF.shr_eq, Res.ok_bind, Word.mul_ok (by omega), Res.ok_bind, hF.arity.shiftRight]
  by_cases hc : buildChunkNodes % b = 0
  · rw [ensure_true hc, Res.ok_bind, Res.ok_bind, Word.add_ok (by omega), Res.ok_bind, if_neg, Res.ok_bind]
    have h2 : b ≤ buildChunkNodes := Nat.le_of_dvd (by decide) (Nat.dvd_of_mod_eq_zero hc)
    have h3 : 0 < buildChunkNodes / b := Nat.div_pos h2 (by have := hF.arity.two_le; omega)
    exact Nat.ne_of_gt (Nat.mul_pos h3 hp)
  · rw [ensure_false hc, Res.error_bind, Res.error_bind]

theorem mapLayer64_sim (hσ : σ.Valid) {rd' : FS → S' → Nat → Nat → Res (List E)}
    {rd : FS → S → Nat → Nat → Res (List E)} {file' : S' → FileId} {file : S → FileId} {s' : S'} {s : S}
    (hf : file' s' = file s) (h1 : ∀ fs a c, a ≤ c → c ≤ W → rd' fs s' a c = rd fs s a c)
    (h2 : ∀ fs a c es, rd fs s a c = .ok es → es.length ≤ c - a) {w l rs ws : Nat} (hr : rs + w ≤ W)
    (hw : ws ≤ W) :
    M.Sim NoFault (fun t' t => t' = s' ∧ t = s) (mapLayer64 o rd' file' A b σ s' w l rs ws) (do
      FS.openFile (file s)
      mEnsure (buildChunkNodes % b = 0) "Invalid chunk size"
      runSteps (fun t s fs => do
          let chunkIndex := rs + t * buildChunkNodes
          let chunkSize := min buildChunkNodes (rs + w - chunkIndex)
          let nodes ← rd fs s chunkIndex (chunkIndex + chunkSize)
          hashChunk A b l chunkSize nodes)
        (fun t bs s => do
          mmapTaskWrite E b w ws (file s) t bs
          pure s)
        (σ l (mmapTasks E b w)) (fun _ => none) s) := by
  unfold mapLayer64
  rw [mapBounds64_eq hF (by omega) hw, M.ofRes_ok_bind, mapPieces64_eq hF hr, hf]
  dsimp only
  refine M.Sim.step fun _ => ?_
  by_cases hc : buildChunkNodes % b = 0
  swap
  · intro fs
    rw [ensure_false hc, Res.error_bind, M.ofRes_error_bind, M.bind_error (mEnsure_false hc _ fs)]
    exact .inr rfl
  rw [ensure_true hc, Res.ok_bind, M.ofRes_ok_bind]
  intro fs
  rw [M.bind_ok (mEnsure_true hc _ fs)]
  revert fs
  have ht : MapPlan.tasks ⟨ws * Element.byteLen E, w * Element.byteLen E, writeChunkWidth E b, rs + w⟩ rs
      = mmapTasks E b w := by
    unfold MapPlan.tasks mmapTasks
    dsimp only
    rw [Nat.add_sub_cancel_left]
  dsimp only
  rw [ht]
  refine runSteps_same (P := fun _ _ => True) (R := fun t' t => t' = s' ∧ t = s) _ _ _ _ ?_ ?_ (by simp) ⟨rfl, rfl⟩
  · rintro t ht _ _ fs ⟨rfl, rfl⟩
    have ht := hσ.lt ht
    refine ⟨layerRead64_eq hF A fs (h1 fs) (h2 fs) hr ?_, fun _ _ => trivial⟩
    unfold mmapTasks at ht
    dsimp only at ht
    omega
  · rintro t ht bs _ _ ⟨rfl, rfl⟩ _
    unfold MapPlan.write mmapTaskWrite
    dsimp only
    rw [hf]
    exact M.Sim.step fun _ => M.Sim.pure ⟨rfl, rfl⟩

end layer

/-! #### `DiskStore` -/
namespace Disk64
variable {E : Type} [Element E] [LawfulElement E] [FloatRows] {o : Overflow} {n b N W : Nat}

/-- How the two stores correspond. -/
def Rel (N W : Nat) (s' : Disk64 o E) (s : DiskStore E) : Prop :=
  s' = ⟨s⟩ ∧ s.len ≤ W ∧ s.storeSize ≤ W * Element.byteLen E ∧ (s.loadedFromDisk = true → s.len = N)

theorem opsSim (hF : SizesFit E n b N W) : OpsSim (Disk64 o E) (DiskStore E) (E := E) W (Rel N W) where
  len h := by rw [h.1]; rfl
  isEmpty h := by rw [h.1]; rfl
  loaded h := by rw [h.1]; rfl
  le h := h.2.1
  empty {_ s} h he := by
    have he : (s.len == 0) = true := he
    show s.len = 0
    simpa using he
  readAt {_ _} fs {i} h hi := by
    obtain ⟨rfl, hl, -, -⟩ := h
    have := half_lt_word
    have h2 : (i + 1) * Element.byteLen E < 2 ^ 63 := hF.mul_lt hi
    exact readAt_eq fs (hF.mul_lt hl) (by omega)
  readRange fs a c h hac hc := by
    obtain ⟨rfl, hl, -, -⟩ := h
    have := half_lt_word
    have h2 := hF.mul_lt hc
    exact readRange_eq fs (hF.mul_lt hl) hac (by omega)
  readRange_len {_ s fs a c es} _ h := by
    have h : s.readRange fs a c = .ok es := h
    unfold DiskStore.readRange DiskStore.storeReadRange at h
    dsimp only at h
    rw [bind_ok_iff] at h
    obtain ⟨_, _, h⟩ := h
    rw [bind_assoc] at h
    exact range_length h
  writeAt {s' s} e {i} h hd hi := by
    obtain ⟨rfl, hl, hz, hN⟩ := h
    have hd : s.loadedFromDisk = false := hd
    have := half_lt_word
    have hb := hF.bytes
    have h2 : (i + 1) * Element.byteLen E < 2 ^ 63 := hF.mul_lt hi
    show M.Sim _ _ (writeAt _ e i) (s.writeAt e i)
    rw [writeAt_eq (by omega) e (by omega)]
    refine (M.Sim.of_map (fun t : DiskStore E => t = { s with len := max s.len (i + 1) }) ?_).relax ?_
    · intro fs t fs' h
      unfold DiskStore.writeAt at h
      obtain ⟨_, fs2, _, h⟩ := M.bind_ok_iff.1 h
      cases h; rfl
    · rintro t' t ⟨rfl, rfl⟩
      refine ⟨⟨rfl, ?_, hz, fun h => ?_⟩, hd, ?_⟩
      · show max _ _ ≤ W
        omega
      · rw [hd] at h; cases h
      · show s.len ≤ max _ _
        omega
  copyFromSlice {s' s buf i} h hd hi := by
    obtain ⟨rfl, hl, hz, hN⟩ := h
    have hd : s.loadedFromDisk = false := hd
    have := half_lt_word
    have hb := hF.bytes
    have hp := LawfulElement.byteLen_pos (E := E)
    have hi' : i + buf.length / Element.byteLen E ≤ W := by
      have h1 := Nat.div_mul_le_self buf.length (Element.byteLen E)
      refine Nat.le_of_mul_le_mul_right (c := Element.byteLen E) ?_ hp
      rw [Nat.add_mul]; omega
    show M.Sim _ _ (copyFromSlice _ buf i) (s.copyFromSlice buf i)
    rw [copyFromSlice_eq (by omega) buf (by omega)]
    refine (M.Sim.of_map (fun t : DiskStore E =>
      t = { s with len := max s.len (i + buf.length / Element.byteLen E) }) ?_).relax ?_
    · intro fs t fs' h
      unfold DiskStore.copyFromSlice at h
      obtain ⟨_, fs1, _, h⟩ := M.bind_ok_iff.1 h
      obtain ⟨_, fs2, _, h⟩ := M.bind_ok_iff.1 h
      obtain ⟨_, fs3, _, h⟩ := M.bind_ok_iff.1 h
      cases h; rfl
    · rintro t' t ⟨rfl, rfl⟩
      refine ⟨⟨rfl, ?_, hz, fun h => ?_⟩, hd, ?_, ?_⟩
      · show max _ _ ≤ W
        omega
      · rw [hd] at h; cases h
      · show s.len ≤ max _ _
        omega
      · exact Nat.le_refl _

theorem new_sim (hF : SizesFit E n b N W) :
    M.Sim NoFault (fun t' t => Rel N W t' t ∧ loadedFromDisk (E := E) t = false ∧ StoreOps.len (E := E) t = 0)
      (new N : M (Disk64 o E)) (DiskStore.new N) := by
  have := half_lt_word
  have h1 := hF.mul_lt hF.size_le.2
  unfold new DiskStore.new
  rw [Word.mul_ok (by rw [Nat.mul_comm]; omega), M.ofRes_ok_bind]
  refine M.Sim.step fun f => M.Sim.step fun _ => M.Sim.pure ⟨⟨rfl, Nat.zero_le _, ?_, nofun⟩, rfl, rfl⟩
  show Element.byteLen E * N ≤ _
  rw [Nat.mul_comm]
  exact Nat.mul_le_mul_right _ hF.size_le.2

theorem newWithConfig_sim (hF : SizesFit E n b N W) (c : StoreConfig) :
    M.Sim NoFault (fun t' t => Rel N W t' t ∧ (loadedFromDisk (E := E) t = false → StoreOps.len (E := E) t = 0))
      (newWithConfig N b c : M (Disk64 o E)) (DiskStore.newWithConfig N b c) := by
  have := half_lt_word
  have h1 := hF.mul_lt hF.size_le.2
  have h2 := Nat.mul_le_mul_right (Element.byteLen E) hF.size_le.2
  unfold newWithConfig DiskStore.newWithConfig
  refine M.Sim.step fun ex => ?_
  split
  · unfold newFromDisk DiskStore.newFromDisk newFromDiskWithPath DiskStore.newFromDiskWithPath
    refine M.Sim.step fun _ => M.Sim.step fun _ => M.Sim.step fun _ => M.Sim.step fun z => ?_
    rw [Word.mul_ok (by omega), M.ofRes_ok_bind]
    by_cases hz : z = N * Element.byteLen E
    · subst hz
      exact M.Sim.step fun _ => M.Sim.pure ⟨⟨rfl, hF.size_le.2, h2, fun _ => rfl⟩, nofun⟩
    · intro fs
      rw [M.bind_error (mEnsure_false hz _ fs), M.bind_error (mEnsure_false hz _ fs)]
      exact .inr rfl
  · refine M.Sim.step fun _ => ?_
    rw [Word.mul_ok (by rw [Nat.mul_comm]; omega), M.ofRes_ok_bind]
    refine M.Sim.step fun _ => M.Sim.pure ⟨⟨rfl, Nat.zero_le _, ?_, nofun⟩, fun _ => rfl⟩
    show Element.byteLen E * N ≤ _
    rw [Nat.mul_comm]
    exact h2

theorem newFromSlice_sim (hF : SizesFit E n b N W) {bs : Bytes} (hl : bs.length ≤ W * Element.byteLen E)
    (hb : bs.length / Element.byteLen E ≤ N) :
    M.Sim NoFault (fun t' t => Rel N W t' t ∧ (loadedFromDisk (E := E) t = false →
        StoreOps.len (E := E) t = bs.length / Element.byteLen E))
      (newFromSlice N bs : M (Disk64 o E)) (DiskStore.newFromSlice N bs) := by
  have hW := hF.size_le
  have hB := hF.bytes
  have := half_lt_word
  unfold newFromSlice DiskStore.newFromSlice
  refine M.Sim.step fun _ => M.Sim.step fun _ => M.Sim.bind (new_sim hF) ?_
  rintro _ s ⟨⟨rfl, _, hz, _⟩, hd, _⟩
  have hd : s.loadedFromDisk = false := hd
  rw [storeCopyFromSlice_eq (by omega) (by omega)]
  refine M.Sim.step fun _ => M.Sim.pure ⟨⟨rfl, by show bs.length / _ ≤ W; omega, hz, fun h => ?_⟩, fun _ => rfl⟩
  rw [hd] at h; cases h

theorem newFromSliceWithConfig_sim (hF : SizesFit E n b N W) {bs : Bytes} (c : StoreConfig)
    (hl : bs.length ≤ W * Element.byteLen E) (hb : bs.length / Element.byteLen E ≤ N) :
    M.Sim NoFault (fun t' t => Rel N W t' t ∧ (loadedFromDisk (E := E) t = false →
        StoreOps.len (E := E) t = bs.length / Element.byteLen E))
      (newFromSliceWithConfig N b bs c : M (Disk64 o E)) (DiskStore.newFromSliceWithConfig N b bs c) := by
  have hW := hF.size_le
  have hB := hF.bytes
  have := half_lt_word
  unfold newFromSliceWithConfig DiskStore.newFromSliceWithConfig
  refine M.Sim.step fun _ => M.Sim.step fun _ => M.Sim.bind (newWithConfig_sim hF c) ?_
  rintro _ s ⟨⟨rfl, h1, hz, h2⟩, _⟩
  dsimp only
  cases hd : s.loadedFromDisk with
  | true => exact M.Sim.pure ⟨⟨rfl, h1, hz, h2⟩, fun h => by cases hd.symm.trans h⟩
  | false =>
    rw [if_neg (by decide), if_neg (by decide), storeCopyFromSlice_eq (by omega) (by omega)]
    refine M.Sim.step fun _ => M.Sim.pure ⟨⟨rfl, by show bs.length / _ ≤ W; omega, hz, fun h => ?_⟩, fun _ => rfl⟩
    cases h

variable (hF : SizesFit E n b N W) (A : Alg E) {σ : Sched}
include hF

theorem processLayer_sim (hσ : σ.Valid) {s' : Disk64 o E} {s : DiskStore E} (hR : Rel N W s' s) {w l rs ws : Nat}
    (hr : rs + w ≤ W) (hw : ws ≤ W) :
    M.Sim NoFault (fun t' t => t' = s' ∧ t = s) (processLayer A b σ s' w l rs ws)
      (DiskStore.processLayer A b σ s w l rs ws) :=
  mapLayer64_sim hF A hσ (rd := DiskStore.readRange) (file := DiskStore.file) (by rw [hR.1])
    (fun fs _ _ h1 h2 => (opsSim hF).readRange fs hR h1 h2) (fun _ _ _ _ h => (opsSim hF).readRange_len hR h) hr hw

theorem buildLoop_sim (hσ : σ.Valid) : ∀ (f w l x : Nat) (s' : Disk64 o E) (s : DiskStore E), x + 2 * w ≤ 2 * n →
    l + f ≤ n + 1 → s.len = x + w → (l = 0 → x = 0) → 0 < s.len → s.len < 2 * n → s.loadedFromDisk = false →
    Rel N W s' s →
    M.Sim NoFault (fun y' y => Rel N W y'.1 y.1 ∧ 0 < y.1.len ∧ y'.2 = y.2 ∧ y.2 ≤ n)
      (buildLoop A b σ f w l x s') (DiskStore.buildLoop A b σ f w l x s)
  | 0, _, _, _, _, _, _, _, _, _, _, _, _, _ => M.Sim.throw _
  | f + 1, w, l, x, s', s, hx, hl, hlen, h0, hp, hlt, hd, hR => by
    have hW := hF.bound_lt
    have hn := hF.leaves
    have hn2 := hF.two_le
    have := half_lt_word
    unfold buildLoop DiskStore.buildLoop
    by_cases hw : w > 1
    · have h8 := div_arity_lt (opsSim (o := o) hF) hF hw
      rw [if_pos hw, if_pos hw]
      have e1 : layerStarts64 o l x w s'.store.len = .ok (x, x + w) := by
        rw [layerStarts64_eq (opsSim (o := o) hF) hF (by omega), hR.1]
        by_cases hl0 : l = 0
        · rw [if_pos hl0, h0 hl0, Nat.zero_add, hlen, h0 hl0, Nat.zero_add]
        · rw [if_neg hl0]
      have e2 : (if l = 0 then (0, s.len) else (x, x + w)) = (x, x + w) := by
        by_cases hl0 : l = 0
        · rw [if_pos hl0, hlen, h0 hl0]
        · rw [if_neg hl0]
      rw [e1, M.ofRes_ok_bind, e2]
      dsimp only
      refine M.Sim.bind (processLayer_sim hF A hσ hR (by omega) (by omega)) ?_
      rintro _ _ ⟨rfl, rfl⟩
      obtain ⟨rfl, h1, h2, h3⟩ := hR
      rw [Word.add_ok (a := x) (b := w) (by omega), M.ofRes_ok_bind, Word.add_ok (a := l) (b := 1) (by omega),
        M.ofRes_ok_bind, hF.shr_eq, M.ofRes_ok_bind, hF.arity.shiftRight]
      dsimp only
      have hb := h8
      have hdiv := Nat.zero_le (w / b)
      rw [Word.add_ok (by omega), M.ofRes_ok_bind]
      refine buildLoop_sim hσ f _ _ _ _ _ (by omega) (by omega) ?_ (by omega) ?_ ?_ hd ⟨rfl, ?_, h2, fun h => ?_⟩
      · dsimp only; omega
      · dsimp only; omega
      · dsimp only; omega
      · dsimp only; omega
      · cases hd.symm.trans h
    · rw [if_neg hw, if_neg hw]
      exact M.Sim.pure ⟨hR, hp, rfl, by dsimp only; omega⟩

theorem build_sim (hσ : σ.Valid) {s' : Disk64 o E} {s : DiskStore E} (rows : Nat) (c : Option StoreConfig)
    (hR : Rel N W s' s) :
    M.Sim NoFault (fun x' x => x'.1 = x.1 ∧ Rel N W x'.2 x.2)
      (build A b σ s' n rows c) (DiskStore.build A b σ s n rows c) := by
  have hW := hF.bound_lt
  have hn := hF.leaves
  have hn2 := hF.two_le
  have := half_lt_word
  unfold build DiskStore.build
  rw [hF.npow2_eq, M.ofRes_ok_bind, hR.1]
  refine M.Sim.step fun _ => ?_
  by_cases hl : s.len = n
  swap
  · intro fs
    rw [M.bind_error (mEnsure_false hl _ fs), M.bind_error (mEnsure_false hl _ fs)]
    exact .inr rfl
  have hd : s.loadedFromDisk = false := by
    cases h : s.loadedFromDisk with
    | false => rfl
    | true => have := hR.2.2.2 h; have := hF.size_le; omega
  refine M.Sim.step fun _ => M.Sim.step fun _ => ?_
  refine M.Sim.bind (buildLoop_sim hF A hσ (n + 1) n 0 0 _ s (by omega) (by omega) (by omega) (by omega) (by omega)
    (by omega) hd ⟨rfl, hR.2⟩) ?_
  rintro ⟨t', l'⟩ ⟨t, l⟩ ⟨ht, hp, rfl, hle⟩
  dsimp only at *
  rw [hF.len64, ht.1]
  refine M.Sim.step fun _ => M.Sim.step fun _ => ?_
  rw [Word.add_ok (by omega), M.ofRes_ok_bind]
  refine M.Sim.step fun _ => M.Sim.bind (R := (· = ·)) (M.Sim.get fun fs => ?_) ?_
  · rw [last64_eq (opsSim hF) fs ⟨rfl, ht.2⟩ hp]; exact Res.Sim.rfl
  · rintro r _ rfl
    exact M.Sim.pure ⟨rfl, rfl, ht.2⟩

theorem storeSim : StoreSim (Disk64 o E) (DiskStore E) (E := E) n b N W (Rel N W) where
  toOpsSim := opsSim hF
  loaded_len h hd := h.2.2.2 hd
  new := new_sim hF
  newWithConfig c := (newWithConfig_sim hF c).relax fun _ _ h => h.1
  newFromSlice _ hl hb := newFromSlice_sim hF hl hb
  newFromSliceWithConfig _ c hl hb := newFromSliceWithConfig_sim hF c hl hb
  build A _ hσ _ _ c hR := build_sim hF A hσ _ c hR

end Disk64

/-! #### Sizes of `LevelCacheStore` -/

/-- Number of nodes in the rows below row `l` of a tree of `n` leaves. -/
def lowRows (n b : Nat) : Nat → Nat
  | 0 => 0
  | l + 1 => lowRows n b l + n / b ^ l

theorem lowRows_mono {n b : Nat} {i j : Nat} (h : i ≤ j) : lowRows n b i ≤ lowRows n b j := by
  induction h with
  | refl => exact Nat.le_refl _
  | step _ ih => exact Nat.le_trans ih (Nat.le_add_right _ _)

theorem merkleTreeCacheSize.loop_low {n b : Nat} (hb : Arity b) {N : Nat} : ∀ (j i c : Nat), lowRows n b i ≤ N →
    merkleTreeCacheSize.loop (log2Pow2 b) j (n / b ^ i) (N - lowRows n b i) = .ok c →
    lowRows n b (i + j) ≤ N ∧ c = N - lowRows n b (i + j)
  | 0, i, c, hi, h => by
    simp only [merkleTreeCacheSize.loop, Except.ok.injEq] at h
    exact ⟨hi, h.symm⟩
  | j + 1, i, c, hi, h => by
    unfold merkleTreeCacheSize.loop at h
    rw [bind_ok_iff] at h
    obtain ⟨r, h1, h2⟩ := h
    unfold subP at h1
    split at h1
    · rename_i hle
      simp only [Except.ok.injEq] at h1
      have e1 : r = N - lowRows n b (i + 1) := by rw [lowRows]; omega
      rw [e1, hb.shiftRight, Nat.div_div_eq_div_mul, ← Nat.pow_succ] at h2
      have := merkleTreeCacheSize.loop_low hb j (i + 1) c (by rw [lowRows]; omega) h2
      rw [show i + (j + 1) = i + 1 + j by omega]
      exact this
    · cases h1

/-- What is cached: all but the rows up to the last one to discard. -/
theorem merkleTreeCacheSize_low [FloatRows] {n b N d c : Nat} (hb : Arity b) (hN : merkleTreeLen n b = .ok N)
    (h : merkleTreeCacheSize n b d = .ok c) :
    d + 1 < merkleTreeRowCount n b ∧ lowRows n b (d + 1) ≤ N ∧ c = N - lowRows n b (d + 1) := by
  unfold merkleTreeCacheSize at h
  dsimp only at h
  rw [hN, Res.ok_bind, bind_ok_iff] at h
  obtain ⟨r, h1, h⟩ := h
  rw [ensure_bind_ok, bind_ok_iff] at h
  obtain ⟨hr, q, h2, h⟩ := h
  unfold subP at h1 h2
  split at h1
  · simp only [Except.ok.injEq] at h1
    rw [if_pos (by omega)] at h2
    simp only [Except.ok.injEq] at h2
    rw [show merkleTreeRowCount n b - q = d + 1 by omega] at h
    have := merkleTreeCacheSize.loop_low hb (d + 1) 0 c (Nat.zero_le _) (by simpa [lowRows] using h)
    rw [Nat.zero_add] at this
    exact ⟨by omega, this⟩
  · cases h1

theorem merkleTreeLen.loop_nodes {b : Nat} (hb : Arity b) {leafs : Nat} : ∀ (f K cur len r : Nat), cur ≤ b ^ K →
    merkleTreeLen.loop leafs (log2Pow2 b) f cur len = .ok r → r + b ^ K ≤ len + nodes b K
  | 0, _, _, _, _, _, h => by simp [merkleTreeLen.loop] at h
  | f + 1, K, cur, len, r, hc, h => by
    have hb2 := hb.two_le
    unfold merkleTreeLen.loop at h
    split at h
    · dsimp only at h
      rw [ensure_bind_ok, hb.shiftRight] at h
      rcases K with _ | K
      · have : cur / b = 0 := Nat.div_eq_of_lt (by simp at hc; omega)
        rw [this] at h
        have h := h.2
        cases f with
        | zero => simp [merkleTreeLen.loop] at h
        | succ f =>
          simp only [merkleTreeLen.loop, Nat.lt_irrefl, ↓reduceIte, Except.ok.injEq, gt_iff_lt] at h
          simp only [nodes, Nat.pow_zero]; omega
      · have h1 : cur / b ≤ b ^ K := by
          rw [Nat.pow_succ] at hc
          exact Nat.div_le_of_le_mul (by rw [Nat.mul_comm]; exact hc)
        have := merkleTreeLen.loop_nodes hb f K _ _ _ h1 h.2
        rw [nodes]; omega
    · simp only [Except.ok.injEq] at h
      have := pow_le_nodes b K
      omega

theorem merkleTreeLen_nodes {n b N K : Nat} (hb : Arity b) (hN : merkleTreeLen n b = .ok N) (hK : n ≤ b ^ K) :
    N ≤ nodes b K := by
  have hb2 := hb.two_le
  unfold merkleTreeLen at hN
  rw [ensure_bind_ok, ensure_bind_ok] at hN
  obtain ⟨h1, _, hN⟩ := hN
  split at hN
  · rename_i h2
    subst h2
    rw [ensure_bind_ok] at hN
    have hN := hN.2
    rw [subP_ok (by omega)] at hN
    simp only [Except.ok.injEq] at hN
    have := nodes_two K
    omega
  · obtain ⟨_, hs⟩ := hb.shift
    rw [if_neg (by omega)] at hN
    have := merkleTreeLen.loop_nodes hb _ K _ _ _ hK hN
    omega

namespace LevelCache64
variable {E : Type} [Element E] [LawfulElement E] [FloatRows] {o : Overflow} {n b N W : Nat}

/-- How the two stores correspond. -/
def Rel (N W : Nat) (s' : LevelCache64 o E) (s : LevelCacheStore E) : Prop :=
  s' = ⟨s⟩ ∧ s.len ≤ W ∧ s.dataWidth ≤ W ∧ s.reader = none ∧
    (s.loadedFromDisk = false → s.storeSize ≤ W * Element.byteLen E) ∧ (s.loadedFromDisk = true → s.len = N)

theorem Rel.fits (hF : SizesFit E n b N W) {s' : LevelCache64 o E} {s : LevelCacheStore E} (h : Rel N W s' s) :
    Fits s where
  len := hF.mul_lt h.2.1
  width := hF.mul_lt h.2.2.1
  reader r hr := by rw [h.2.2.2.1] at hr; cases hr

theorem opsSim (hF : SizesFit E n b N W) :
    OpsSim (LevelCache64 o E) (LevelCacheStore E) (E := E) W (Rel N W) where
  len h := by rw [h.1]; rfl
  isEmpty h := by rw [h.1]; rfl
  loaded h := by rw [h.1]; rfl
  le h := h.2.1
  empty {_ s} h he := by
    have he : (s.len == 0) = true := he
    show s.len = 0
    simpa using he
  readAt {_ _} fs {i} h hi := by
    have hf := h.fits hF
    obtain ⟨rfl, -⟩ := h
    have := half_lt_word
    have h2 : (i + 1) * Element.byteLen E < 2 ^ 63 := hF.mul_lt hi
    exact readAt_eq fs hf (by omega)
  readRange fs a c h hac hc := by
    have hf := h.fits hF
    obtain ⟨rfl, -⟩ := h
    have := half_lt_word
    have h2 := hF.mul_lt hc
    exact readRange_eq fs hf hac (by omega)
  readRange_len {_ s fs a c es} hR h := by
    have h : s.readRange fs a c = .ok es := h
    unfold LevelCacheStore.readRange LevelCacheStore.storeReadRange at h
    dsimp only at h
    rw [hR.2.2.2.1] at h
    simp only [bind_ok_iff, ensure_ok_iff] at h
    obtain ⟨_, _, bs, ⟨m, h1, _, _, h2⟩, h3⟩ := h
    refine range_length (fs := fs) (f := s.file) (p := s.adjustedStart (a * Element.byteLen E)) ?_
    rw [h1, Res.ok_bind, h2, Res.ok_bind, h3]
  writeAt {s' s} e {i} h hd hi := by
    obtain ⟨rfl, hl, hdw, hr, hz, hN⟩ := h
    have hd : s.loadedFromDisk = false := hd
    have := half_lt_word
    have hb := hF.bytes
    have hz' := hz hd
    have h2 : (i + 1) * Element.byteLen E < 2 ^ 63 := hF.mul_lt hi
    show M.Sim _ _ (writeAt _ e i) (s.writeAt e i)
    rw [writeAt_eq (by omega) e (by omega)]
    refine (M.Sim.of_map (fun t : LevelCacheStore E => t = { s with len := max s.len (i + 1) }) ?_).relax ?_
    · intro fs t fs' h
      unfold LevelCacheStore.writeAt at h
      obtain ⟨_, fs2, _, h⟩ := M.bind_ok_iff.1 h
      cases h; rfl
    · rintro t' t ⟨rfl, rfl⟩
      refine ⟨⟨rfl, ?_, hdw, hr, hz, fun h => ?_⟩, hd, ?_⟩
      · show max _ _ ≤ W
        omega
      · rw [hd] at h; cases h
      · show s.len ≤ max _ _
        omega
  copyFromSlice {s' s buf i} h hd hi := by
    obtain ⟨rfl, hl, hdw, hr, hz, hN⟩ := h
    have hd : s.loadedFromDisk = false := hd
    have := half_lt_word
    have hb := hF.bytes
    have hz' := hz hd
    have hp := LawfulElement.byteLen_pos (E := E)
    have hi' : i + buf.length / Element.byteLen E ≤ W := by
      have h1 := Nat.div_mul_le_self buf.length (Element.byteLen E)
      refine Nat.le_of_mul_le_mul_right (c := Element.byteLen E) ?_ hp
      rw [Nat.add_mul]; omega
    show M.Sim _ _ (copyFromSlice _ buf i) (s.copyFromSlice buf i)
    rw [copyFromSlice_eq (by omega) buf (by omega)]
    refine (M.Sim.of_map (fun t : LevelCacheStore E =>
      t = { s with len := max s.len (i + buf.length / Element.byteLen E) }) ?_).relax ?_
    · intro fs t fs' h
      unfold LevelCacheStore.copyFromSlice at h
      obtain ⟨_, fs1, _, h⟩ := M.bind_ok_iff.1 h
      obtain ⟨_, fs2, _, h⟩ := M.bind_ok_iff.1 h
      obtain ⟨_, fs3, _, h⟩ := M.bind_ok_iff.1 h
      cases h; rfl
    · rintro t' t ⟨rfl, rfl⟩
      refine ⟨⟨rfl, ?_, hdw, hr, hz, fun h => ?_⟩, hd, ?_, ?_⟩
      · show max _ _ ≤ W
        omega
      · rw [hd] at h; cases h
      · show s.len ≤ max _ _
        omega
      · exact Nat.le_refl _

variable (hF : SizesFit E n b N W) (hK : CacheFits n b)
include hF hK

theorem leafs_eq : merkleTreeLeafs64 o (N + 1) N b = merkleTreeLeafs N b := by
  have := half_lt_word
  have h1 := hF.bound_lt
  have h2 := hF.size_le
  have h3 := hF.arity_lt
  obtain ⟨K, hK1, hK2⟩ := hK.full
  exact merkleTreeLeafs64_eq (by omega) (by omega) hK2 (merkleTreeLen_nodes hF.arity hF.tree hK1) (by omega)
    (.inr h3)

/-- The number of leaves computed from the number of nodes. -/
theorem leafs_facts {m : Nat} (h : merkleTreeLeafs N b = .ok m) : b ≤ m ∧ m ≤ N ∧ merkleTreeLen m b = .ok N := by
  have hb := hF.arity.two_le
  have h1 := hF.size_le
  have h2 := hF.two_le
  obtain ⟨k, rfl, hk⟩ := (merkleTreeLeafs_ok_iff hF.arity N m).1 h
  replace hk : N = nodes b k := by
    rcases hk with hk | ⟨h3, hk⟩
    · exact hk
    · have hN := hF.tree
      subst h3
      unfold merkleTreeLen at hN
      rw [ensure_bind_ok, ensure_bind_ok, if_pos rfl, ensure_bind_ok, subP_ok (by omega)] at hN
      have hN := hN.2.2.2
      simp only [Except.ok.injEq] at hN
      have := nodes_two k
      omega
  have hk1 : 1 ≤ k := by
    rcases k with _ | k
    · simp [nodes] at hk; omega
    · omega
  refine ⟨(pow_le_iff hb).2 hk1, ?_, ?_⟩
  · rw [hk]; exact pow_le_nodes b k
  · rw [hk]; exact merkleTreeLen_pow hF.arity hk1

theorem cacheSize_eq {m d : Nat} (hm : b ≤ m) (hN : m ≤ W) :
    merkleTreeCacheSize64 o m b d = merkleTreeCacheSize m b d := by
  have h1 := hF.bound_lt
  have hb := hF.arity.two_le
  exact merkleTreeCacheSize64_eq (by omega) (.inr (.inl (by omega))) (by omega) (hK.rows m hm (by omega))

/-- The sizes that the constructors compute. -/
theorem plan_eq (c : StoreConfig) :
    plan E o N b c = (do let p ← LevelCacheStore.plan E N b c
                         .ok (p.1, N * Element.byteLen E, p.2.1, p.2.2)) ∧
    newPlan E o N b c = (do let p ← LevelCacheStore.plan E N b c
                            .ok (N * Element.byteLen E, p.1, p.2.2)) ∧
    ∀ p, LevelCacheStore.plan E N b c = .ok p → p.1 ≤ W := by
  have := half_lt_word
  have hW := hF.size_le
  have hlt := hF.bound_lt
  have hB := hF.mul_lt hW.2
  unfold plan newPlan LevelCacheStore.plan
  rw [leafs_eq hF hK, Word.mul_ok (a := Element.byteLen E) (b := N) (by rw [Nat.mul_comm]; omega), Res.ok_bind,
    Nat.mul_comm (Element.byteLen E)]
  cases hl : merkleTreeLeafs N b with
  | error e => exact ⟨rfl, rfl, nofun⟩
  | ok m =>
    obtain ⟨h1, h2, h3⟩ := leafs_facts hF hK hl
    simp only [Res.ok_bind, Word.npow2_ok (show m ≤ 2 ^ 63 by omega)]
    by_cases hp : m = nextPow2 m
    swap
    · simp only [ensure_false hp, Res.error_bind]
      exact ⟨trivial, trivial, nofun⟩
    simp only [ensure_true hp, Res.ok_bind]
    rw [Word.mul_ok (by omega), Res.ok_bind, cacheSize_eq hF hK h1 (by omega)]
    cases hc : merkleTreeCacheSize m b c.rowsToDiscard with
    | error e => exact ⟨rfl, rfl, nofun⟩
    | ok z =>
      obtain ⟨-, -, h4⟩ := merkleTreeCacheSize_low hF.arity h3 hc
      have h5 : z * Element.byteLen E ≤ N * Element.byteLen E := Nat.mul_le_mul_right _ (by omega)
      simp only [Res.ok_bind]
      rw [Word.mul_ok (by omega), Res.ok_bind, Word.sub_ok h5, subP_ok h5]
      simp only [Res.ok_bind, Word.sub_ok h5, Except.ok.injEq]
      refine ⟨trivial, trivial, ?_⟩
      rintro p rfl
      show m ≤ W
      omega

theorem new_sim :
    M.Sim NoFault (fun t' t => Rel N W t' t ∧ loadedFromDisk (E := E) t = false ∧ StoreOps.len (E := E) t = 0)
      (new N : M (LevelCache64 o E)) (LevelCacheStore.new N) := by
  have := half_lt_word
  have h1 := hF.mul_lt hF.size_le.2
  unfold new LevelCacheStore.new
  rw [Word.mul_ok (by rw [Nat.mul_comm]; omega), M.ofRes_ok_bind]
  refine M.Sim.step fun f => M.Sim.step fun _ =>
    M.Sim.pure ⟨⟨rfl, Nat.zero_le _, hF.size_le.2, rfl, fun _ => ?_, nofun⟩, rfl, rfl⟩
  show Element.byteLen E * N ≤ _
  rw [Nat.mul_comm]
  exact Nat.mul_le_mul_right _ hF.size_le.2

theorem newFromDisk_sim (c : StoreConfig) :
    M.Sim NoFault (fun t' t => Rel N W t' t ∧ loadedFromDisk (E := E) t = true)
      (newFromDisk N b c : M (LevelCache64 o E)) (LevelCacheStore.newFromDisk N b c) := by
  have hp := LawfulElement.byteLen_pos (E := E)
  obtain ⟨h1, -, h3⟩ := plan_eq (o := o) hF hK c
  unfold newFromDisk LevelCacheStore.newFromDisk
  refine M.Sim.step fun _ => M.Sim.step fun _ => M.Sim.step fun z => ?_
  rw [h1]
  cases hl : LevelCacheStore.plan E N b c with
  | error e => exact M.Sim.throw e
  | ok p =>
    obtain ⟨m, k, i⟩ := p
    have h3 := h3 _ hl
    rw [Res.ok_bind, M.ofRes_ok_bind, M.ofRes_ok_bind]
    dsimp only at *
    rw [Nat.mul_div_cancel _ hp]
    exact M.Sim.pure ⟨⟨rfl, hF.size_le.2, h3, rfl, nofun, fun _ => rfl⟩, rfl⟩

theorem newWithConfig_sim (c : StoreConfig) :
    M.Sim NoFault (Rel N W) (newWithConfig N b c : M (LevelCache64 o E)) (LevelCacheStore.newWithConfig N b c) := by
  obtain ⟨-, h2, h3⟩ := plan_eq (o := o) hF hK c
  unfold newWithConfig LevelCacheStore.newWithConfig
  refine M.Sim.step fun ex => ?_
  split
  · exact (newFromDisk_sim hF hK c).relax fun _ _ h => h.1
  · refine M.Sim.step fun _ => ?_
    rw [h2]
    cases hl : LevelCacheStore.plan E N b c with
    | error e => exact M.Sim.throw e
    | ok p =>
      obtain ⟨m, k, i⟩ := p
      have h3 := h3 _ hl
      rw [Res.ok_bind, M.ofRes_ok_bind, M.ofRes_ok_bind]
      dsimp only at *
      rw [Nat.mul_comm (Element.byteLen E)]
      exact M.Sim.step fun _ => M.Sim.pure ⟨rfl, Nat.zero_le _, h3, rfl,
        fun _ => Nat.mul_le_mul_right _ hF.size_le.2, nofun⟩

theorem newFromSlice_sim {bs : Bytes} (hl : bs.length ≤ W * Element.byteLen E)
    (hb : bs.length / Element.byteLen E ≤ N) :
    M.Sim NoFault (fun t' t => Rel N W t' t ∧ (loadedFromDisk (E := E) t = false →
        StoreOps.len (E := E) t = bs.length / Element.byteLen E))
      (newFromSlice N bs : M (LevelCache64 o E)) (LevelCacheStore.newFromSlice N bs) := by
  have hW := hF.size_le
  have hB := hF.bytes
  have := half_lt_word
  unfold newFromSlice LevelCacheStore.newFromSlice
  refine M.Sim.step fun _ => M.Sim.step fun _ => M.Sim.bind (new_sim hF hK) ?_
  rintro _ s ⟨⟨rfl, _, hdw, hr, hz, _⟩, hd, _⟩
  have hd : s.loadedFromDisk = false := hd
  have hz' := hz hd
  rw [storeCopyFromSlice_eq (by omega) (by omega)]
  refine M.Sim.step fun _ => M.Sim.pure ⟨⟨rfl, by show bs.length / _ ≤ W; omega, hdw, hr, hz, fun h => ?_⟩,
    fun _ => rfl⟩
  rw [hd] at h; cases h

theorem newFromSliceWithConfig_sim {bs : Bytes} (c : StoreConfig)
    (hl : bs.length ≤ W * Element.byteLen E) (hb : bs.length / Element.byteLen E ≤ N) :
    M.Sim NoFault (fun t' t => Rel N W t' t ∧ (loadedFromDisk (E := E) t = false →
        StoreOps.len (E := E) t = bs.length / Element.byteLen E))
      (newFromSliceWithConfig N b bs c : M (LevelCache64 o E))
      (LevelCacheStore.newFromSliceWithConfig N b bs c) := by
  have hW := hF.size_le
  have hB := hF.bytes
  have := half_lt_word
  unfold newFromSliceWithConfig LevelCacheStore.newFromSliceWithConfig
  refine M.Sim.step fun _ => M.Sim.step fun _ => M.Sim.bind (newWithConfig_sim hF hK c) ?_
  rintro _ s ⟨rfl, h1, hdw, hr, hz, h2⟩
  dsimp only
  cases hd : s.loadedFromDisk with
  | true => exact M.Sim.pure ⟨⟨rfl, h1, hdw, hr, hz, h2⟩, fun h => by cases hd.symm.trans h⟩
  | false =>
    have hz' := hz hd
    rw [if_neg (by decide), if_neg (by decide), storeCopyFromSlice_eq (by omega) (by omega)]
    refine M.Sim.step fun _ => M.Sim.pure ⟨⟨rfl, by show bs.length / _ ≤ W; omega, hdw, hr, fun _ => hz',
      fun h => ?_⟩, fun _ => rfl⟩
    cases h

omit hK in
theorem storeReadRangeInternal_eq {s : LevelCacheStore E} (hs : Fits s) (fs : FS) {a c : Nat} (hac : a ≤ c)
    (hc : c ≤ s.len * Element.byteLen E) :
    storeReadRangeInternal fs (⟨s⟩ : LevelCache64 o E) a c = s.storeReadRangeInternal fs a c := by
  have h1 := hs.len
  unfold storeReadRangeInternal LevelCacheStore.storeReadRangeInternal
  rw [Word.sub_ok hac, subP_ok hac, Res.ok_bind, Res.ok_bind, allocLen_ok (by omega), Res.ok_bind,
    checkBounds_eq hs]

omit hK in
theorem readRangeInternal_eq {s : LevelCacheStore E} (hs : Fits s) (fs : FS) {a c : Nat} (hac : a ≤ c)
    (hc : c ≤ W) : readRangeInternal fs (⟨s⟩ : LevelCache64 o E) a c = s.readRangeInternal fs a c := by
  have := half_lt_word
  have h2 := hF.mul_lt hc
  unfold readRangeInternal LevelCacheStore.readRangeInternal
  rw [elementsRange64_ok hac (by omega), Res.ok_bind]
  exact check_bind hs fun h => by rw [storeReadRangeInternal_eq hF hs fs (Nat.mul_le_mul_right _ hac) h]

omit hK in
theorem readAtInternal_eq {s : LevelCacheStore E} (hs : Fits s) (fs : FS) {i : Nat} (hi : i < W) :
    readAtInternal fs (⟨s⟩ : LevelCache64 o E) i = s.readAtInternal fs i := by
  have := half_lt_word
  have h2 : (i + 1) * Element.byteLen E < 2 ^ 63 := hF.mul_lt hi
  unfold readAtInternal LevelCacheStore.readAtInternal
  rw [elementRange64_ok (by omega), Res.ok_bind]
  exact check_bind hs fun h => by rw [storeReadRangeInternal_eq hF hs fs (by omega) h]

variable (A : Alg E) {σ : Sched}

omit hK in
theorem processLayer_sim (hσ : σ.Valid) {s' : LevelCache64 o E} {s : LevelCacheStore E} (hR : Rel N W s' s)
    {w l rs ws : Nat} (hr : rs + w ≤ W) (hw : ws ≤ W) :
    M.Sim NoFault (fun t' t => t' = s' ∧ t = s) (processLayer A b σ s' w l rs ws)
      (LevelCacheStore.processLayer A b σ s w l rs ws) := by
  refine mapLayer64_sim hF A hσ (rd := LevelCacheStore.readRangeInternal) (file := LevelCacheStore.file)
    (by rw [hR.1]) (fun fs _ _ h1 h2 => ?_) (fun fs a c es h => ?_) hr hw
  · rw [hR.1]
    exact readRangeInternal_eq hF (hR.fits hF) fs h1 h2
  · unfold LevelCacheStore.readRangeInternal LevelCacheStore.storeReadRangeInternal at h
    dsimp only at h
    simp only [bind_ok_iff, ensure_ok_iff] at h
    obtain ⟨_, _, bs, ⟨m, h1, _, _, h2⟩, h3⟩ := h
    refine range_length (fs := fs) (f := s.file) (p := a * Element.byteLen E) ?_
    rw [h1, Res.ok_bind, h2, Res.ok_bind, h3]

omit hK in
theorem frontTruncate_sim {s' : LevelCache64 o E} {s : LevelCacheStore E} (hR : Rel N W s' s) (c : StoreConfig)
    {w : Nat} (hw : w ≤ W) :
    M.Sim NoFault (fun t' t => Rel N W t' t ∧ t.len = s.len ∧ t.loadedFromDisk = s.loadedFromDisk)
      (frontTruncate s' c w) (s.frontTruncate c w) := by
  have := half_lt_word
  have h1 := hF.mul_lt hw
  obtain ⟨rfl, h⟩ := hR
  unfold frontTruncate LevelCacheStore.frontTruncate
  refine M.Sim.step fun _ => ?_
  rw [Word.mul_ok (by omega), M.ofRes_ok_bind]
  exact M.Sim.step fun _ => M.Sim.step fun _ => M.Sim.step fun _ => M.Sim.step fun _ => M.Sim.step fun _ =>
    M.Sim.pure ⟨⟨rfl, h⟩, rfl, rfl⟩

omit hK in
theorem buildLoop_sim (hσ : σ.Valid) (c : StoreConfig) (cis : Nat) : ∀ (f w l x : Nat) (s' : LevelCache64 o E)
    (s : LevelCacheStore E), x + 2 * w ≤ 2 * n → l + f ≤ n + 1 → x = lowRows n b l → w = n / b ^ l →
    (l = 0 ∧ s.len = w ∨ 1 ≤ l ∧ s.len = x) → s.loadedFromDisk = false → Rel N W s' s →
    M.Sim NoFault (fun y' y => Rel N W y'.1 y.1 ∧ y'.2 = y.2 ∧ y.2 ≤ n ∧ y.1.loadedFromDisk = false ∧
        (1 ≤ y.2 → y.1.len = lowRows n b y.2) ∧ l ≤ y.2 ∧ (1 < w → 1 ≤ y.2))
      (buildLoop A b σ c cis f w l x s') (LevelCacheStore.buildLoop A b σ c cis f w l x s)
  | 0, _, _, _, _, _, _, _, _, _, _, _, _ => M.Sim.throw _
  | f + 1, w, l, x, s', s, hx, hl, hxe, hwe, hlen, hd, hR => by
    have hW := hF.bound_lt
    have hn := hF.leaves
    have hn2 := hF.two_le
    have := half_lt_word
    unfold buildLoop LevelCacheStore.buildLoop
    by_cases hw : w > 1
    · have h8 := div_arity_lt (opsSim (o := o) hF) hF hw
      rw [if_pos hw, if_pos hw]
      obtain ⟨rs, ws, hr, hws, e1, e2⟩ : ∃ rs ws, rs + w ≤ W ∧ ws ≤ W ∧
          layerStarts o cis l x w s'.store.len = .ok (rs, ws) ∧
          (if l = 0 then (0, s.len) else if x < cis then (0, w) else (x - cis, x + w - cis)) = (rs, ws) := by
        unfold layerStarts
        have hl := hR.2.1
        by_cases hl0 : l = 0
        · exact ⟨0, s.len, by omega, hl, by rw [if_pos hl0, hR.1], by rw [if_pos hl0]⟩
        · by_cases hc : x < cis
          · exact ⟨0, w, by omega, by omega, by rw [if_neg hl0, if_pos hc], by rw [if_neg hl0, if_pos hc]⟩
          · refine ⟨x - cis, x + w - cis, by omega, by omega, ?_, by rw [if_neg hl0, if_neg hc]⟩
            rw [if_neg hl0, if_neg hc, Word.sub_ok (by omega), Res.ok_bind, Word.add_ok (by omega), Res.ok_bind,
              Word.sub_ok (by omega), Res.ok_bind]
      rw [e1, M.ofRes_ok_bind, e2]
      dsimp only
      refine M.Sim.bind (processLayer_sim hF A hσ hR hr hws) ?_
      rintro _ _ ⟨rfl, rfl⟩
      refine M.Sim.bind (R := fun t' t => Rel N W t' t ∧ t.loadedFromDisk = false) ?_ ?_
      · split
        · exact (frontTruncate_sim hF hR c (by omega)).relax fun _ _ h => ⟨h.1, by rw [h.2.2, hd]⟩
        · exact M.Sim.pure ⟨hR, hd⟩
      rintro _ t ⟨⟨rfl, h1, h2, h3, h4, h5⟩, hd⟩
      rw [Word.add_ok (a := x) (b := w) (by omega), M.ofRes_ok_bind, Word.add_ok (a := l) (b := 1) (by omega),
        M.ofRes_ok_bind, hF.shr_eq, M.ofRes_ok_bind, hF.arity.shiftRight]
      refine (buildLoop_sim hσ c cis f (w / b) (l + 1) (x + w) _ { t with len := x + w } (by omega)
        (by omega) ?_ ?_ (.inr ⟨by omega, rfl⟩) hd ⟨rfl, ?_, h2, h3, h4, fun h => ?_⟩).relax ?_
      · rw [lowRows, ← hxe, ← hwe]
      · rw [hwe, Nat.div_div_eq_div_mul, ← Nat.pow_succ]
      · show x + w ≤ W
        omega
      · cases hd.symm.trans h
      · rintro y' y ⟨g1, g2, g3, g4, g5, g6, _⟩
        exact ⟨g1, g2, g3, g4, g5, by omega, fun _ => by omega⟩
    · rw [if_neg hw, if_neg hw]
      refine M.Sim.pure ⟨hR, rfl, by dsimp only; omega, hd, fun h => ?_, Nat.le_refl _, by omega⟩
      dsimp only at *
      rcases hlen with h' | h'
      · omega
      · rw [h'.2, hxe]

theorem build_sim (hσ : σ.Valid) {s' : LevelCache64 o E} {s : LevelCacheStore E} (c : Option StoreConfig)
    (hR : Rel N W s' s) :
    M.Sim NoFault (fun x' x => x'.1 = x.1 ∧ Rel N W x'.2 x.2)
      (build A b σ s' n (merkleTreeRowCount n b) c) (LevelCacheStore.build A b σ s n (merkleTreeRowCount n b) c) := by
  have hW := hF.bound_lt
  have hn := hF.leaves
  have hn2 := hF.two_le
  have hNW := hF.size_le
  have := half_lt_word
  have hbn := (merkleTreeLen_le hF.arity hF.tree).1
  unfold build LevelCacheStore.build
  rw [hF.npow2_eq, M.ofRes_ok_bind, hR.1]
  refine M.Sim.step fun _ => ?_
  by_cases hl : s.len = n
  swap
  · intro fs
    rw [M.bind_error (mEnsure_false hl _ fs), M.bind_error (mEnsure_false hl _ fs)]
    exact .inr rfl
  have hd : s.loadedFromDisk = false := by
    cases h : s.loadedFromDisk with
    | false => rfl
    | true => have := hR.2.2.2.2.2 h; omega
  refine M.Sim.step fun _ => M.Sim.step fun _ => ?_
  cases c with
  | none => exact M.Sim.throw _
  | some c =>
    dsimp only
    rw [cacheSize_eq hF hK hbn (by omega), hF.len64, hF.tree]
    cases hc : merkleTreeCacheSize n b c.rowsToDiscard with
    | error e => exact M.Sim.throw e
    | ok z =>
      obtain ⟨k1, k2, k3⟩ := merkleTreeCacheSize_low hF.arity hF.tree hc
      simp only [M.ofRes_ok_bind]
      rw [Word.sub_ok (by omega), subP_ok (by omega), M.ofRes_ok_bind, M.ofRes_ok_bind]
      refine M.Sim.bind (buildLoop_sim hF A hσ c _ (n + 1) n 0 0 _ s (by omega) (by omega) rfl (by simp)
        (.inl ⟨rfl, hl⟩) hd ⟨rfl, hR.2⟩) ?_
      rintro ⟨t', l'⟩ ⟨t, l⟩ ⟨ht, rfl, hle, hd, hlen, _, h1⟩
      dsimp only at *
      have h1 := h1 (by omega)
      have hlen := hlen h1
      have htl := ht.2.1
      rw [ht.1]
      dsimp only
      rw [Word.add_ok (a := t.len) (b := 1) (by omega), M.ofRes_ok_bind]
      by_cases hN : t.len + 1 = N
      swap
      · intro fs
        rw [M.bind_error (mEnsure_false hN _ fs), M.bind_error (mEnsure_false hN _ fs)]
        exact .inr rfl
      refine M.Sim.step fun _ => ?_
      rw [Word.add_ok (a := l') (b := 1) (by omega), M.ofRes_ok_bind]
      by_cases hr : merkleTreeRowCount n b = l' + 1
      swap
      · intro fs
        rw [M.bind_error (mEnsure_false hr _ fs), M.bind_error (mEnsure_false hr _ fs)]
        exact .inr rfl
      refine M.Sim.step fun _ => ?_
      have hmono := lowRows_mono (n := n) (b := b) (show c.rowsToDiscard + 1 ≤ l' by omega)
      rw [Word.sub_ok (a := t.len + 1) (by omega), subP_ok (a := t.len + 1) (by omega), M.ofRes_ok_bind,
        M.ofRes_ok_bind, Word.sub_ok (by omega), subP_ok (by omega), M.ofRes_ok_bind, M.ofRes_ok_bind]
      have hR' : Rel N W (⟨{ t with len := t.len + 1 }⟩ : LevelCache64 o E) { t with len := t.len + 1 } :=
        ⟨rfl, by show t.len + 1 ≤ W; omega, ht.2.2.1, ht.2.2.2.1, ht.2.2.2.2.1, fun _ => hN⟩
      refine M.Sim.bind (R := (· = ·)) (M.Sim.get fun fs => ?_) ?_
      · rw [readAtInternal_eq hF (hR'.fits hF) fs (by omega)]; exact Res.Sim.rfl
      · rintro r _ rfl
        exact M.Sim.pure ⟨rfl, hR'⟩

theorem storeSim : StoreSim (LevelCache64 o E) (LevelCacheStore E) (E := E) n b N W (Rel N W) where
  toOpsSim := opsSim hF
  loaded_len h hd := h.2.2.2.2.2 hd
  new := new_sim hF hK
  newWithConfig c := newWithConfig_sim hF hK c
  newFromSlice _ hl hb := newFromSlice_sim hF hK hl hb
  newFromSliceWithConfig _ c hl hb := newFromSliceWithConfig_sim hF hK c hl hb
  build A _ hσ _ _ c hR := build_sim hF hK A hσ c hR

end LevelCache64
end Verif
