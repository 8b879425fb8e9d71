import Verif.Lemmas.Compound64
/-
The constructors of compound trees on words.
-/
set_option linter.unusedSectionVars false
namespace Verif
open Spec StoreOps

section general
variable {α α' α₁ β' β : Type} {F : Fault → Prop}

theorem collectM_simP {g' : α' → M β'} {g : α → M β} {k : α → α'} {h : β → β'} {P : β → Prop} :
    ∀ xs : List α, (∀ a ∈ xs, M.Sim F (fun x' x => x' = h x ∧ P x) (g' (k a)) (g a)) →
    M.Sim F (fun y' y => y' = y.map h ∧ (∀ x ∈ y, P x) ∧ y.length = xs.length) (collectM g' (xs.map k)) (collectM g xs)
  | [], _ => M.Sim.pure ⟨rfl, nofun, rfl⟩
  | x :: xs, hg => by
    rw [List.map_cons]
    unfold collectM
    refine M.Sim.bind (hg x List.mem_cons_self) ?_
    rintro _ y ⟨rfl, hy⟩
    refine M.Sim.bind (collectM_simP xs fun a ha => hg a (List.mem_cons_of_mem _ ha)) ?_
    rintro _ ys ⟨rfl, hys, hl⟩
    refine M.Sim.pure ⟨rfl, ?_, by rw [List.length_cons, List.length_cons, hl]⟩
    intro z hz
    rcases List.mem_cons.1 hz with rfl | hz
    · exact hy
    · exact hys z hz

theorem Res.Sim.of_eq_map {x' : Res β'} {x : Res β} {h : β → β'} {P : β → Prop} (he : x' = x.map h)
    (hP : ∀ a, x = .ok a → P a) : Res.Sim F (fun a' a => a' = h a ∧ P a) x' x := by
  subst he
  cases x with
  | error e => exact Res.Sim.error e
  | ok a => exact Res.Sim.ok ⟨_root_.rfl, hP a _root_.rfl⟩

theorem mem_configGroups {per : Nat} : ∀ {n : Nat} {cs : List α} {g : List α}, g ∈ configGroups per n cs →
    ∀ x ∈ g, x ∈ cs
  | n + 1, cs, g, h, x, hx => by
    rw [configGroups] at h
    rcases List.mem_cons.1 h with rfl | h
    · exact List.mem_of_mem_take hx
    · exact List.mem_of_mem_drop (mem_configGroups h x hx)

end general

section trees
variable {S' S E : Type} [Element E] [LawfulElement E] [FloatRows] [Store S' E] [Store S E] {w : S → S'}
  {n b W : Nat} {o : Overflow}

/-- The shape of a tree with `n` leaves. -/
structure HasSizes (n b : Nat) (t : BaseTree S E) : Prop where
  arity : Arity b
  leafs : t.leafs = n
  rows : t.rowCount = merkleTreeRowCount n b
  len : merkleTreeLen n b = .ok t.length

theorem fromDataStore_sizes (hb1 : b ≠ 1) {sub top : Nat} {s : S} {fs : FS} {t : BaseTree S E}
    (h : BaseTree.fromDataStore b sub top s n fs = .ok t) : HasSizes n b t := by
  unfold BaseTree.fromDataStore at h
  simp only [bind_ok_iff, ensure_ok_iff, Except.ok.injEq] at h
  obtain ⟨_, _, _, _, _, _, _, h1, N, h2, _, h3, v, h4, _, _, r, h5, rfl⟩ := h
  refine ⟨arity_of_pow2 ((eq_nextPow2_iff b).1 h1.symm) hb1, rfl, rfl, ?_⟩
  rw [h2, h3]; rfl

theorem fromTreeSlice64_sizes (hC : CanBuild S' S (E := E) w n b W) (bytes : Bytes)
    (hi : bytes.length ≤ W * Element.byteLen E) (sub top : Nat) :
    M.Sim NoFault (fun t' t => t' = BaseTree.mapStore w t ∧ HasSizes n b t)
      (BaseTree.fromTreeSlice64 o b sub top bytes n) (BaseTree.fromTreeSlice b sub top bytes n) := by
  unfold BaseTree.fromTreeSlice64 BaseTree.fromTreeSlice
  refine treeSlice64_step hC fun N R hF hS hw hp => ?_
  dsimp only
  refine M.Sim.bind (hS.newFromSlice bytes hi (by omega)) fun s' s h => ?_
  have hl : StoreOps.len (E := E) s = N := by
    cases hd : loadedFromDisk (E := E) s with
    | true => exact hS.loaded_len h.1 hd
    | false => rw [h.2 hd, hp]
  have h0 := hF.size_le
  refine M.Sim.bind (R := (· = ·)) (M.Sim.get fun fs => ?_) ?_
  · rw [last64_eq hS.toOpsSim fs h.1 (by omega)]; exact Res.Sim.rfl
  · rintro r _ rfl
    have := hw _ _ h.1
    subst this
    exact M.Sim.pure ⟨rfl, hF.arity, rfl, rfl, by rw [hF.tree, ← hl]; rfl⟩

theorem fromTreeSliceWithConfig64_sizes (hC : CanBuild S' S (E := E) w n b W) (bytes : Bytes)
    (hi : bytes.length ≤ W * Element.byteLen E) (sub top : Nat) (c : StoreConfig) :
    M.Sim NoFault (fun t' t => t' = BaseTree.mapStore w t ∧ HasSizes n b t)
      (BaseTree.fromTreeSliceWithConfig64 o b sub top bytes n c)
      (BaseTree.fromTreeSliceWithConfig b sub top bytes n c) := by
  unfold BaseTree.fromTreeSliceWithConfig64 BaseTree.fromTreeSliceWithConfig
  refine treeSlice64_step hC fun N R hF hS hw hp => ?_
  dsimp only
  refine M.Sim.bind (hS.newFromSliceWithConfig bytes c hi (by omega)) fun s' s h => ?_
  have hl : StoreOps.len (E := E) s = N := by
    cases hd : loadedFromDisk (E := E) s with
    | true => exact hS.loaded_len h.1 hd
    | false => rw [h.2 hd, hp]
  have h0 := hF.size_le
  refine M.Sim.bind (R := (· = ·)) (M.Sim.get fun fs => ?_) ?_
  · rw [last64_eq hS.toOpsSim fs h.1 (by omega)]; exact Res.Sim.rfl
  · rintro r _ rfl
    have := hw _ _ h.1
    subst this
    exact M.Sim.pure ⟨rfl, hF.arity, rfl, rfl, by rw [hF.tree, ← hl]; rfl⟩

/-- The layer over trees of `n` leaves each. -/
structure LayerSizes (n b sub : Nat) (t : Node (BaseTree S E) E) : Prop where
  pos : 0 < sub
  leafs : t.leafs = sub * n
  rows : t.rowCount = merkleTreeRowCount n b + 1
  len : ∃ N, N < 2 * n ∧ t.len = N * sub + 1

theorem sum_const {C : Type} {l : C → Nat} {n : Nat} : ∀ {cs : List C}, (∀ c ∈ cs, l c = n) →
    (cs.map l).sum = cs.length * n
  | [], _ => by simp
  | c :: cs, h => by
    rw [List.map_cons, List.sum_cons, h c List.mem_cons_self, sum_const fun d hd => h d (List.mem_cons_of_mem _ hd),
      List.length_cons, Nat.succ_mul, Nat.add_comm]

theorem fromTrees64_sizes (hw : ∀ s : S, StoreOps.len (E := E) (w s) = StoreOps.len (E := E) s) (A : Alg E)
    {sub : Nat} (hn : 2 * (n * sub) < wordSize) (hr : merkleTreeRowCount n b + 1 < wordSize)
    {cs : List (BaseTree S E)} (hcs : ∀ c ∈ cs, HasSizes n b c) :
    Res.Sim NoFault (fun t' t => t' = Node.mapChildren (BaseTree.mapStore w) t ∧ LayerSizes n b sub t)
      (fromTrees64 o A sub (cs.map (BaseTree.mapStore w))) (fromTrees A sub cs) := by
  have hsum : (cs.map BaseTree.leafs).sum = cs.length * n := sum_const fun c hc => (hcs c hc).leafs
  have hN : ∀ c ∈ cs, c.length < 2 * n ∧ c.rowCount = merkleTreeRowCount n b := fun c hc => by
    have h := hcs c hc
    have := merkleTreeLen_le h.arity h.len
    exact ⟨by omega, h.rows⟩
  refine Res.Sim.of_eq_map (fromTrees64_eq hw A sub cs (fun h => ?_) (fun h c hc => ?_) fun c hc => by
    rw [(hN c hc).2]; exact hr) fun t ht => ?_
  · rw [hsum, h, Nat.mul_comm]; omega
  · have h1 := (hN c hc).1
    have h2 : 0 < cs.length := List.length_pos_of_mem hc
    have h3 : (c.length + 1) * cs.length ≤ 2 * n * cs.length := Nat.mul_le_mul_right _ h1
    rw [Nat.succ_mul, Nat.mul_assoc] at h3
    rw [h] at h2 h3 ⊢
    omega
  · obtain ⟨h1, h2, -, h4, c, hc, h5, h6⟩ := fromTrees_ok ht
    exact ⟨h2, by rw [h4, hsum, h1], by rw [h6, (hN c hc).2], c.length, (hN c hc).1, h5⟩

theorem fromSlices64_sim (hC : CanBuild S' S (E := E) w n b W)
    (hw : ∀ s : S, StoreOps.len (E := E) (w s) = StoreOps.len (E := E) s) (A : Alg E) {sub : Nat}
    (hn : 2 * (n * sub) < wordSize) (hr : merkleTreeRowCount n b + 1 < wordSize) (datas : List Bytes)
    (hd : ∀ d ∈ datas, d.length ≤ W * Element.byteLen E) :
    M.Sim NoFault (fun t' t => t' = Node.mapChildren (BaseTree.mapStore w) t ∧ LayerSizes n b sub t)
      (fromSlices64 o A b sub datas n) (fromSlices A b sub datas n) := by
  unfold fromSlices64 fromSlices
  refine M.Sim.bind (by
    have := collectM_simP (F := NoFault) (k := id) (P := HasSizes n b) (h := BaseTree.mapStore w)
      (g' := fun d => (BaseTree.fromTreeSlice64 o b 0 0 d n : M (BaseTree S' E)))
      (g := fun d => BaseTree.fromTreeSlice b 0 0 d n) datas fun d hm =>
      fromTreeSlice64_sizes (o := o) hC d (hd d hm) 0 0
    rw [List.map_id] at this
    exact this) ?_
  rintro _ ts ⟨rfl, hts, -⟩
  exact M.Sim.ofRes (fromTrees64_sizes hw A hn hr hts)

theorem fromSlicesWithConfigs64_sim (hC : CanBuild S' S (E := E) w n b W)
    (hw : ∀ s : S, StoreOps.len (E := E) (w s) = StoreOps.len (E := E) s) (A : Alg E) {sub : Nat}
    (hn : 2 * (n * sub) < wordSize) (hr : merkleTreeRowCount n b + 1 < wordSize) (datas : List Bytes)
    (hd : ∀ d ∈ datas, d.length ≤ W * Element.byteLen E) (cs : List StoreConfig) :
    M.Sim NoFault (fun t' t => t' = Node.mapChildren (BaseTree.mapStore w) t ∧ LayerSizes n b sub t)
      (fromSlicesWithConfigs64 o A b sub datas n cs) (fromSlicesWithConfigs A b sub datas n cs) := by
  unfold fromSlicesWithConfigs64 fromSlicesWithConfigs
  refine M.Sim.bind (by
    have := collectM_simP (F := NoFault) (k := id) (P := HasSizes n b) (h := BaseTree.mapStore w)
      (g' := fun (d : Bytes × Nat) => do
        let c ← M.ofRes (idxP cs d.2)
        (BaseTree.fromTreeSliceWithConfig64 o b 0 0 d.1 n c : M (BaseTree S' E)))
      (g := fun (d : Bytes × Nat) => do
        let c ← M.ofRes (idxP cs d.2)
        BaseTree.fromTreeSliceWithConfig b 0 0 d.1 n c)
      datas.zipIdx fun d hm => M.Sim.step fun c =>
        fromTreeSliceWithConfig64_sizes (o := o) hC d.1 (hd d.1 (List.fst_mem_of_mem_zipIdx hm)) 0 0 c
    rw [List.map_id] at this
    exact this) ?_
  rintro _ ts ⟨rfl, hts, -⟩
  exact M.Sim.ofRes (fromTrees64_sizes hw A hn hr hts)

theorem fromStores64_sim (hn : n < 2 ^ 63) (hb : b ≤ 2 ^ 63) (hb1 : b ≠ 1)
    (hw : ∀ s : S, StoreOps.len (E := E) (w s) = StoreOps.len (E := E) s) (A : Alg E) {sub : Nat}
    (hsub : 2 * (n * sub) < wordSize) (hr : merkleTreeRowCount n b + 1 < wordSize) (ss : List S)
    (hss : ∀ s ∈ ss, ∀ fs, StoreOps.len (E := E) s ≠ 0 →
      (StoreOps.last64 o fs (w s) : Res E) = StoreOps.last fs s) :
    M.Sim NoFault (fun t' t => t' = Node.mapChildren (BaseTree.mapStore w) t ∧ LayerSizes n b sub t)
      (fromStores64 o A b sub n (ss.map w)) (fromStores A b sub n ss) := by
  unfold fromStores64 fromStores
  refine M.Sim.bind (collectM_simP (k := w) (P := HasSizes n b) (h := BaseTree.mapStore w) ss fun s hs =>
    M.Sim.get fun fs => Res.Sim.of_eq_map (fromDataStore64_eq hn hb hb1 fs (hw s) (hss s hs fs) 0 0)
      fun t ht => fromDataStore_sizes hb1 ht) ?_
  rintro _ ts ⟨rfl, hts, -⟩
  exact M.Sim.ofRes (fromTrees64_sizes hw A hsub hr hts)

theorem merkleTreeLen_arity {N : Nat} (hb1 : b ≠ 1) (h : merkleTreeLen n b = .ok N) : Arity b := by
  unfold merkleTreeLen at h
  rw [ensure_bind_ok, ensure_bind_ok] at h
  exact arity_of_pow2 ((eq_nextPow2_iff b).1 h.2.1) hb1

theorem fromStoreConfigs64_sim (hC : CanBuild S' S (E := E) w n b W)
    (hw : ∀ s : S, StoreOps.len (E := E) (w s) = StoreOps.len (E := E) s) (A : Alg E) {sub : Nat}
    (hsub : 2 * (n * sub) < wordSize) (hr : merkleTreeRowCount n b + 1 < wordSize) (cs : List StoreConfig) :
    M.Sim NoFault (fun t' t => t' = Node.mapChildren (BaseTree.mapStore w) t ∧ LayerSizes n b sub t)
      (fromStoreConfigs64 o A b sub n cs) (fromStoreConfigs A b sub n cs) := by
  have hn := hC.leaves
  have hb := hC.arity
  have hb1 := hC.arity_ne
  unfold fromStoreConfigs64 fromStoreConfigs
  refine M.Sim.bind (by
    have := collectM_simP (F := NoFault) (k := id) (P := HasSizes n b) (h := BaseTree.mapStore w)
      (g' := fun c => do
        let N ← M.ofRes (merkleTreeLen64 o n b)
        let s : S' ← Store.newWithConfig N b c
        (M.get (BaseTree.fromDataStore64 o b 0 0 s n) : M (BaseTree S' E)))
      (g := fun c => do
        let N ← M.ofRes (merkleTreeLen n b)
        let s : S ← Store.newWithConfig N b c
        M.get (BaseTree.fromDataStore b 0 0 s n)) cs fun c _ => by
          rw [merkleTreeLen64_eq (Nat.le_of_lt hn) (.inr (.inl hn))]
          cases hN : merkleTreeLen n b with
          | error e => exact M.Sim.throw e
          | ok N =>
            rw [M.ofRes_ok_bind, M.ofRes_ok_bind]
            have hA := merkleTreeLen_arity hb1 hN
            obtain ⟨R, hS, hR⟩ := hC.sim N hA hN
            refine M.Sim.bind (hS.newWithConfig c) fun s' s h => ?_
            have := hR _ _ h
            subst this
            refine M.Sim.get fun fs => Res.Sim.of_eq_map (fromDataStore64_eq hn hb hb1 fs (hw s) (fun h0 =>
              last64_eq hS.toOpsSim fs h (by omega)) 0 0) fun t ht => fromDataStore_sizes hb1 ht
    rw [List.map_id] at this
    exact this) ?_
  rintro _ ts ⟨rfl, hts, -⟩
  exact M.Sim.ofRes (fromTrees64_sizes hw A hsub hr hts)

/-- Assembling the second layer. -/
theorem fromSubTrees64_sizes (hw : ∀ s : S, StoreOps.len (E := E) (w s) = StoreOps.len (E := E) s) (A : Alg E)
    {sub top : Nat} (hn : 2 * (n * sub * top) + 1 < wordSize) (hr : merkleTreeRowCount n b + 2 < wordSize)
    {cs : List (Tree1 S E)} (hcs : ∀ c ∈ cs, ∃ t, c = .sub t ∧ LayerSizes n b sub t) :
    Res.Sim NoFault (fun t' t => t' = Node.mapChildren (Tree1.mapStore w) t)
      (fromSubTrees64 o A top (cs.map (Tree1.mapStore w))) (fromSubTrees A top cs) := by
  have hsum : (cs.map Tree1.leafs).sum = cs.length * (sub * n) := sum_const fun c hc => by
    obtain ⟨t, rfl, h⟩ := hcs c hc
    exact h.leafs
  rw [fromSubTrees64_eq hw A top cs (fun h => ?_) (fun h c hc => ?_) fun c hc => ?_]
  · cases fromSubTrees A top cs with
    | error e => exact Res.Sim.error e
    | ok t => exact Res.Sim.ok rfl
  · rw [hsum, h, Nat.mul_comm sub, Nat.mul_comm top]; omega
  · obtain ⟨t, rfl, h1⟩ := hcs c hc
    obtain ⟨N, h2, h3⟩ := h1.len
    have h4 := h1.pos
    show t.len * cs.length + 1 < wordSize
    rw [h3, h]
    have h5 : N * sub + 1 ≤ 2 * (n * sub) := by
      have : (N + 1) * sub ≤ 2 * n * sub := Nat.mul_le_mul_right _ h2
      rw [Nat.succ_mul, Nat.mul_assoc] at this
      omega
    have h6 := Nat.mul_le_mul_right top h5
    rw [Nat.mul_assoc] at h6
    omega
  · obtain ⟨t, rfl, h1⟩ := hcs c hc
    show t.rowCount + 1 < wordSize
    rw [h1.rows]; omega

theorem fromSubTreeStoreConfigs64_sim (hC : CanBuild S' S (E := E) w n b W)
    (hw : ∀ s : S, StoreOps.len (E := E) (w s) = StoreOps.len (E := E) s) (A : Alg E) {sub top : Nat}
    (hsub : 2 * (n * sub * top) + 1 < wordSize) (hr : merkleTreeRowCount n b + 2 < wordSize) (cs : List StoreConfig) :
    M.Sim NoFault (fun t' t => t' = Node.mapChildren (Tree1.mapStore w) t)
      (fromSubTreeStoreConfigs64 o A b sub top n cs) (fromSubTreeStoreConfigs A b sub top n cs) := by
  unfold fromSubTreeStoreConfigs64 fromSubTreeStoreConfigs
  by_cases ht : top = 0
  · subst ht; exact fun fs => .inr rfl
  have hle : n * sub ≤ n * sub * top := Nat.le_mul_of_pos_right _ (by omega)
  refine M.Sim.step fun per => M.Sim.bind (by
    have := collectM_simP (F := NoFault) (k := id) (P := fun c : Tree1 S E => ∃ t, c = .sub t ∧ LayerSizes n b sub t)
      (h := Tree1.mapStore w)
      (g' := fun cs => do
        let t : Node (BaseTree S' E) E ← fromStoreConfigs64 o A b sub n cs
        pure (Tree1.sub t))
      (g := fun cs => do
        let t : Node (BaseTree S E) E ← fromStoreConfigs A b sub n cs
        pure (Tree1.sub t)) (configGroups per top cs) fun g _ => by
          refine M.Sim.bind (fromStoreConfigs64_sim hC hw A (by omega) (by omega) g) ?_
          rintro _ t ⟨rfl, h⟩
          exact M.Sim.pure ⟨rfl, t, rfl, h⟩
    rw [List.map_id] at this
    exact this) ?_
  rintro _ ts ⟨rfl, hts, -⟩
  exact M.Sim.ofRes (fromSubTrees64_sizes hw A hsub hr hts)

end trees

/-! #### Replicas -/
section replica
variable {E : Type} [Element E] [LawfulElement E] [FloatRows] {n b W : Nat} {o : Overflow}

theorem LevelCache64.newFromDiskWithReader_sim {N : Nat} (hF : SizesFit E n b N W) (hK : CacheFits n b)
    (c : StoreConfig) {r : ExternalReader} (hr : r.offset + N * Element.byteLen E < wordSize) :
    M.Sim NoFault (fun t' t => t' = ⟨t⟩ ∧ LevelCache64.Fits t)
      (newFromDiskWithReader N b c r : M (LevelCache64 o E)) (LevelCacheStore.newFromDiskWithReader N b c r) := by
  have hp := LawfulElement.byteLen_pos (E := E)
  obtain ⟨h1, -, h3⟩ := plan_eq (o := o) hF hK c
  unfold newFromDiskWithReader LevelCacheStore.newFromDiskWithReader
  refine M.Sim.step fun _ => M.Sim.step fun _ => M.Sim.step fun z => ?_
  rw [h1]
  cases hl : LevelCacheStore.plan E N b c with
  | error e => exact M.Sim.throw e
  | ok p =>
    obtain ⟨m, k, i⟩ := p
    have h3 := h3 _ hl
    rw [Res.ok_bind, M.ofRes_ok_bind, M.ofRes_ok_bind]
    dsimp only at *
    rw [Nat.mul_div_cancel _ hp]
    refine M.Sim.step fun _ => M.Sim.pure ⟨rfl, hF.mul_lt hF.size_le.2, hF.mul_lt h3, ?_⟩
    rintro _ ⟨⟩
    exact hr

theorem fromStoreConfigsAndReplica64_sim (hS : WordSizes E n b W) (hK : CacheFits n b) (A : Alg E) {sub : Nat}
    (hsub : 2 * (n * sub) < wordSize) (hr : merkleTreeRowCount n b + 1 < wordSize) (cs : List StoreConfig)
    (rc : ReplicaConfig) (hrc : ∀ x ∈ rc.offsets, x + 2 * n * Element.byteLen E ≤ wordSize) :
    M.Sim NoFault (fun t' t => t' = Node.mapChildren (BaseTree.mapStore LevelCache64.mk) t ∧ LayerSizes n b sub t)
      (fromStoreConfigsAndReplica64 o A b sub n cs rc) (fromStoreConfigsAndReplica A b sub n cs rc) := by
  have hn := hS.leaves_lt
  have hC := hS.levelCache (o := o) hK
  have hb := hC.arity
  have hb1 := hC.arity_ne
  have hp := LawfulElement.byteLen_pos (E := E)
  unfold fromStoreConfigsAndReplica64 fromStoreConfigsAndReplica
  refine M.Sim.step fun _ => M.Sim.bind (by
    have := collectM_simP (F := NoFault) (k := id) (P := HasSizes n b) (h := BaseTree.mapStore LevelCache64.mk)
      (g' := fun (c : StoreConfig × Nat) => do
        let N ← M.ofRes (merkleTreeLen64 o n b)
        let r ← ExternalReader.newFromConfig rc c.2
        let s : LevelCache64 o E ← LevelCache64.newFromDiskWithReader N b c.1 r
        (M.get (BaseTree.fromDataStore64 o b 0 0 s n) : M (BaseTree (LevelCache64 o E) E)))
      (g := fun (c : StoreConfig × Nat) => do
        let N ← M.ofRes (merkleTreeLen n b)
        let r ← ExternalReader.newFromConfig rc c.2
        let s : LevelCacheStore E ← LevelCacheStore.newFromDiskWithReader N b c.1 r
        M.get (BaseTree.fromDataStore b 0 0 s n)) cs.zipIdx fun c _ => by
          rw [merkleTreeLen64_eq (Nat.le_of_lt hn) (.inr (.inl hn))]
          cases hN : merkleTreeLen n b with
          | error e => exact M.Sim.throw e
          | ok N =>
            rw [M.ofRes_ok_bind, M.ofRes_ok_bind]
            have hA := merkleTreeLen_arity hb1 hN
            have hle := merkleTreeLen_le hA hN
            refine M.Sim.bind (R := fun r' r => r' = r ∧ r.offset + N * Element.byteLen E < wordSize) ?_ ?_
            · unfold ExternalReader.newFromConfig
              refine M.Sim.step fun _ => ?_
              simp only [id]
              cases hx : idxP rc.offsets c.2 with
              | error e => exact M.Sim.throw e
              | ok x =>
                rw [M.ofRes_ok_bind]
                refine M.Sim.pure ⟨rfl, ?_⟩
                have h1 := hrc x (idxP_mem hx)
                have h2 : (N + 1) * Element.byteLen E ≤ 2 * n * Element.byteLen E :=
                  Nat.mul_le_mul_right _ (by omega)
                rw [Nat.succ_mul] at h2
                show x + _ < _
                omega
            rintro r _ ⟨rfl, hro⟩
            refine M.Sim.bind (LevelCache64.newFromDiskWithReader_sim (hS.fit N hA hN) hK c.1 hro) ?_
            rintro _ s ⟨rfl, hs⟩
            refine M.Sim.get fun fs => Res.Sim.of_eq_map (fromDataStore64_eq hn hb hb1 fs rfl (last64_of fs rfl
              fun i hi => ?_) 0 0) fun t ht => fromDataStore_sizes hb1 ht
            have h63 := half_lt_word
            have h1 := hs.len
            have : (i + 1) * Element.byteLen E ≤ s.len * Element.byteLen E := Nat.mul_le_mul_right _ hi
            exact LevelCache64.readAt_eq fs hs (by omega)
    rw [List.map_id] at this
    exact this) ?_
  rintro _ ts ⟨rfl, hts, -⟩
  exact M.Sim.ofRes (fromTrees64_sizes (w := LevelCache64.mk) (fun _ => rfl) A hsub hr hts)

theorem fromSubTreeStoreConfigsAndReplica64_sim (hS : WordSizes E n b W) (hK : CacheFits n b) (A : Alg E)
    {sub top : Nat} (hsub : 2 * (n * sub * top) + 1 < wordSize) (hr : merkleTreeRowCount n b + 2 < wordSize)
    (cs : List StoreConfig) (rc : ReplicaConfig)
    (hrc : ∀ x ∈ rc.offsets, x + 2 * n * Element.byteLen E ≤ wordSize) :
    M.Sim NoFault (fun t' t => t' = Node.mapChildren (Tree1.mapStore LevelCache64.mk) t)
      (fromSubTreeStoreConfigsAndReplica64 o A b sub top n cs rc)
      (fromSubTreeStoreConfigsAndReplica A b sub top n cs rc) := by
  unfold fromSubTreeStoreConfigsAndReplica64 fromSubTreeStoreConfigsAndReplica
  refine M.Sim.step fun _ => ?_
  by_cases ht : top = 0
  · subst ht; exact fun fs => .inr rfl
  have hle : n * sub ≤ n * sub * top := Nat.le_mul_of_pos_right _ (by omega)
  refine M.Sim.step fun per => M.Sim.bind (by
    have := collectM_simP (F := NoFault) (k := id)
      (P := fun c : Tree1 (LevelCacheStore E) E => ∃ t, c = .sub t ∧ LayerSizes n b sub t)
      (h := Tree1.mapStore LevelCache64.mk)
      (g' := fun (g : List StoreConfig × List Nat) => do
        let t ← fromStoreConfigsAndReplica64 o A b sub n g.1 ⟨rc.path, g.2⟩
        pure (Tree1.sub t))
      (g := fun (g : List StoreConfig × List Nat) => do
        let t ← fromStoreConfigsAndReplica A b sub n g.1 ⟨rc.path, g.2⟩
        pure (Tree1.sub t)) ((configGroups per top cs).zip (configGroups per top rc.offsets)) fun g hg => by
          refine M.Sim.bind (fromStoreConfigsAndReplica64_sim hS hK A (by omega) (by omega) g.1 ⟨rc.path, g.2⟩
            fun x hx => hrc x (mem_configGroups (List.of_mem_zip hg).2 x hx)) ?_
          rintro _ t ⟨rfl, h⟩
          exact M.Sim.pure ⟨rfl, t, rfl, h⟩
    rw [List.map_id] at this
    exact this) ?_
  rintro _ ts ⟨rfl, hts, -⟩
  exact M.Sim.ofRes (fromSubTrees64_sizes (w := LevelCache64.mk) (fun _ => rfl) A hsub hr hts)

end replica
end Verif
