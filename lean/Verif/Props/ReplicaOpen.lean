import Verif.Lemmas.ReplicaOpen
import Verif.Props.Compound
import Verif.Props.FromStore
import Verif.Props.Sizing
import Verif.Lemmas.Build64
/-!
C87: opening a compound tree over a replica reports what is missing (src/merkle.rs:211-321, src/store/mod.rs:55-71,
src/store/level_cache.rs:76-145).
-/
set_option linter.unusedSectionVars false
namespace Verif
open Spec

section
variable {E : Type} [Element E] [LawfulElement E] [FloatRows] {A : Alg E} {b k sub : Nat} {fs : FS}
  {configs : List StoreConfig} {rc : ReplicaConfig}

/-- **C87.** `from_store_configs_and_replica` succeeds exactly when there is an offset for every configuration, the
configurations are as many as the sub-tree arity, the replica exists and every file holds the cached rows; the
root is then that over the last elements of the files.  Otherwise it returns `Err`.  No file changes. -/
theorem C87_sub_tree (hb : Arity b) (hk : 1 ≤ k) (hf : FloatRows.ExactAt b k) :
    (configs.length = rc.offsets.length ∧ configs.length = sub ∧ 0 < sub ∧
        (∃ bs, fs.file (.named rc.path) = some bs) ∧ (∀ c ∈ configs, HoldsCache E b k fs c) →
      ∃ t : Node (BaseTree (LevelCacheStore E) E) E,
        fromStoreConfigsAndReplica A b sub (b ^ k) configs rc fs = (.ok t, fs) ∧
        t.root = A.nodeHash (configs.map (storedRoot E fs)) 1 ∧ t.leafs = sub * b ^ k ∧
        t.len = nodes b k * sub + 1 ∧ t.rowCount = k + 2) ∧
    (¬ (configs.length = rc.offsets.length ∧ configs.length = sub ∧ 0 < sub ∧
        (∃ bs, fs.file (.named rc.path) = some bs) ∧ ∀ c ∈ configs, HoldsCache E b k fs c) →
      ∃ m, fromStoreConfigsAndReplica (E := E) A b sub (b ^ k) configs rc fs = (.error (.err m), fs)) := by
  unfold fromStoreConfigsAndReplica
  by_cases hlen : configs.length = rc.offsets.length
  swap
  · exact ⟨fun h => absurd h.1 hlen, fun _ => ⟨_, M.bind_error (mEnsure_false hlen _ _)⟩⟩
  rw [M.bind_ok (mEnsure_true hlen _ _)]
  have hidx : ∀ x ∈ configs.zipIdx, x.2 < rc.offsets.length ∧ x.1 ∈ configs := fun x hx => by
    obtain ⟨c, i⟩ := x
    have := List.mem_zipIdx hx
    exact ⟨by simpa using by omega, by rw [this.2.2]; exact List.getElem_mem _⟩
  obtain ⟨h1, h2⟩ := collectM_exact (fs := fs) (xs := configs.zipIdx)
    (f := fun (c : StoreConfig × Nat) => do
      let n ← M.ofRes (merkleTreeLen (b ^ k) b)
      let r ← ExternalReader.newFromConfig rc c.2
      let s : LevelCacheStore E ← LevelCacheStore.newFromDiskWithReader n b c.1 r
      M.get (BaseTree.fromDataStore b 0 0 s (b ^ k)))
    (P := fun x => (∃ bs, fs.file (.named rc.path) = some bs) ∧ HoldsCache E b k fs x.1)
    (Q := fun x u => OpenedOver b k fs x.1 u)
    (fun x hx ⟨⟨_, hr⟩, hc⟩ => openOver_ok hb hk hf hr (hidx x hx).1 hc)
    (fun x hx hc => openOver_err hb hk hf (hidx x hx).1 hc)
  have hall : (∀ x ∈ configs.zipIdx, (∃ bs, fs.file (.named rc.path) = some bs) ∧ HoldsCache E b k fs x.1) ↔
      ∀ c ∈ configs, (∃ bs, fs.file (.named rc.path) = some bs) ∧ HoldsCache E b k fs c := by
    constructor
    · intro h c hc
      rw [← zipIdx_map_fst configs] at hc
      obtain ⟨x, hx, rfl⟩ := List.mem_map.1 hc
      exact h x hx
    · exact fun h x hx => h _ (hidx x hx).2
  by_cases hgood : ∀ c ∈ configs, (∃ bs, fs.file (.named rc.path) = some bs) ∧ HoldsCache E b k fs c
  · obtain ⟨us, hus, hq⟩ := h1 (hall.2 hgood)
    rw [M.bind_ok hus, M.ofRes_run]
    have hl := hq.length_eq
    rw [List.length_zipIdx] at hl
    have huni : ∀ u ∈ us, u.length = nodes b k ∧ u.rowCount = k + 1 ∧ u.leafs = b ^ k := fun u hu => by
      obtain ⟨_, _, h⟩ := Forall₂.exists_left hq hu
      exact ⟨h.len, h.rows, h.leafs⟩
    obtain ⟨c1, c2⟩ := C39_from_trees A sub us
    refine ⟨fun ⟨_, h3, h4, _⟩ => ?_, fun hno => ?_⟩
    · obtain ⟨t, ht⟩ := c1.2 ⟨h4, by omega, fun c hc d hd =>
        ⟨(huni c hc).1.trans (huni d hd).1.symm, (huni c hc).2.1.trans (huni d hd).2.1.symm⟩⟩
      refine ⟨t, by rw [ht], ?_⟩
      obtain ⟨c0, e0, e1, -, -, rfl⟩ := Node.assemble_ok_iff.1 ht
      have hc0 := huni c0 (List.mem_of_mem_head? (by rw [e0]; rfl))
      refine ⟨?_, ?_, by rw [hc0.1], by rw [hc0.2.1]⟩
      · have e := forall₂_map_eq (f := fun x : StoreConfig × Nat => storedRoot E fs x.1) (g := BaseTree.root)
          (hq.imp fun _ _ h => h.root)
        show A.nodeHash (us.map BaseTree.root) 1 = _
        rw [e, ← Function.comp_def (storedRoot E fs) Prod.fst, ← List.map_map, zipIdx_map_fst]
      · show (us.map BaseTree.leafs).sum = _
        rw [show us.map BaseTree.leafs = List.replicate sub (b ^ k) from
          List.eq_replicate_iff.2 ⟨by rw [List.length_map]; omega, fun x hx => by
            obtain ⟨u, hu, rfl⟩ := List.mem_map.1 hx; exact (huni u hu).2.2⟩, sum_replicate_nat]
    · obtain ⟨m, hm⟩ := c2 fun hok => hno <| by
        obtain ⟨g1, g2, -⟩ := c1.1 hok
        obtain ⟨c, hc⟩ : ∃ c, c ∈ configs := by
          cases configs with
          | nil => simp at hl; omega
          | cons c _ => exact ⟨c, by simp⟩
        exact ⟨hlen, by omega, g1, (hgood c hc).1, fun c hc => (hgood c hc).2⟩
      exact ⟨m, by rw [hm]⟩
  · refine ⟨fun h => absurd (fun c hc => ⟨h.2.2.2.1, h.2.2.2.2 c hc⟩) hgood, fun _ => ?_⟩
    obtain ⟨m, hm⟩ := h2 fun h => hgood (hall.1 h)
    exact ⟨m, M.bind_error hm⟩

/-- **C87** with a top layer: `from_sub_tree_store_configs_and_replica` takes `top` groups of `configs.length / top`
configurations, so that up to `top - 1` configurations at the end (and their offsets) are ignored.  It succeeds
exactly when there is an offset for every configuration, the groups have the size of the sub-tree arity, the replica
exists and every file of a group holds the cached rows; otherwise it returns `Err`.  No file changes. -/
theorem C87_top (hb : Arity b) (hk : 1 ≤ k) (hf : FloatRows.ExactAt b k) {top : Nat} (htop : 0 < top) :
    (configs.length = rc.offsets.length ∧ configs.length / top = sub ∧ 0 < sub ∧
        (∃ bs, fs.file (.named rc.path) = some bs) ∧ (∀ c ∈ configs.take (top * sub), HoldsCache E b k fs c) →
      ∃ t : Node (Tree1 (LevelCacheStore E) E) E,
        fromSubTreeStoreConfigsAndReplica A b sub top (b ^ k) configs rc fs = (.ok t, fs) ∧
        t.root = A.nodeHash ((chunks sub (configs.take (top * sub))).map
          fun g => A.nodeHash (g.map (storedRoot E fs)) 1) 1 ∧
        t.leafs = top * (sub * b ^ k)) ∧
    (¬ (configs.length = rc.offsets.length ∧ configs.length / top = sub ∧ 0 < sub ∧
        (∃ bs, fs.file (.named rc.path) = some bs) ∧ ∀ c ∈ configs.take (top * sub), HoldsCache E b k fs c) →
      ∃ m, fromSubTreeStoreConfigsAndReplica (E := E) A b sub top (b ^ k) configs rc fs
        = (.error (.err m), fs)) := by
  unfold fromSubTreeStoreConfigsAndReplica
  by_cases hlen : configs.length = rc.offsets.length
  swap
  · exact ⟨fun h => absurd h.1 hlen, fun _ => ⟨_, M.bind_error (mEnsure_false hlen _ _)⟩⟩
  rw [M.bind_ok (mEnsure_true hlen _ _), M.bind_ok (a := configs.length / top) (fs' := fs) (by
    rw [M.ofRes_run, divP_ok htop])]
  generalize hper : configs.length / top = per
  have hmul : top * per ≤ configs.length := by rw [← hper]; exact Nat.mul_div_le _ _
  have hgl : ∀ {α : Type} (xs : List α), xs.length = configs.length → ∀ g ∈ configGroups per top xs,
      g.length = per := fun xs hx g hg => by
    obtain ⟨i, hi, rfl⟩ := List.mem_iff_getElem.1 hg
    rw [configGroups_length] at hi
    rw [configGroups_getElem, List.length_take, List.length_drop, hx]
    have := Nat.mul_le_mul_right per (Nat.succ_le_of_lt hi)
    rw [Nat.succ_mul] at this
    omega
  have hpair : ∀ g ∈ (configGroups per top configs).zip (configGroups per top rc.offsets),
      g.1.length = per ∧ g.2.length = per ∧ g.1 ∈ configGroups per top configs := fun g hg =>
    ⟨hgl _ rfl _ (List.of_mem_zip hg).1, hgl _ hlen.symm _ (List.of_mem_zip hg).2, (List.of_mem_zip hg).1⟩
  have hfst : ((configGroups per top configs).zip (configGroups per top rc.offsets)).map Prod.fst
      = configGroups per top configs :=
    List.map_fst_zip (by rw [configGroups_length, configGroups_length])
  obtain ⟨h1, h2⟩ := collectM_exact (fs := fs)
    (xs := (configGroups per top configs).zip (configGroups per top rc.offsets))
    (f := fun (g : List StoreConfig × List Nat) => do
      let t ← fromStoreConfigsAndReplica A b sub (b ^ k) g.1 ⟨rc.path, g.2⟩
      pure (Tree1.sub t))
    (P := fun g => g.1.length = sub ∧ 0 < sub ∧ (∃ bs, fs.file (.named rc.path) = some bs) ∧
      ∀ c ∈ g.1, HoldsCache E b k fs c)
    (Q := fun g (u : Tree1 (LevelCacheStore E) E) => u.root = A.nodeHash (g.1.map (storedRoot E fs)) 1 ∧
      u.leafs = sub * b ^ k ∧ u.length = nodes b k * sub + 1 ∧ u.rowCount = k + 2)
    (fun g hg ⟨g1, g2, g3, g4⟩ => by
      obtain ⟨t, ht, hq⟩ := (C87_sub_tree (A := A) (sub := sub) (fs := fs) (configs := g.1) (rc := ⟨rc.path, g.2⟩)
        hb hk hf).1 ⟨by rw [(hpair g hg).1]; exact (hpair g hg).2.1.symm, g1, g2, g3, g4⟩
      exact ⟨.sub t, by rw [M.bind_ok ht]; rfl, hq⟩)
    (fun g hg hno => by
      obtain ⟨m, hm⟩ := (C87_sub_tree (A := A) (sub := sub) (fs := fs) (configs := g.1) (rc := ⟨rc.path, g.2⟩)
        hb hk hf).2 (fun h => hno h.2)
      exact ⟨m, M.bind_error hm⟩)
  have hflat := flatten_configGroups per top configs
  have hall : (∀ g ∈ (configGroups per top configs).zip (configGroups per top rc.offsets),
        g.1.length = sub ∧ 0 < sub ∧ (∃ bs, fs.file (.named rc.path) = some bs) ∧
          ∀ c ∈ g.1, HoldsCache E b k fs c) ↔
      per = sub ∧ 0 < sub ∧ (∃ bs, fs.file (.named rc.path) = some bs) ∧
        ∀ c ∈ configs.take (top * sub), HoldsCache E b k fs c := by
    constructor
    · intro h
      have h' : ∀ g ∈ configGroups per top configs, g.length = sub ∧ 0 < sub ∧
          (∃ bs, fs.file (.named rc.path) = some bs) ∧ ∀ c ∈ g, HoldsCache E b k fs c := fun g hg => by
        rw [← hfst] at hg
        obtain ⟨x, hx, rfl⟩ := List.mem_map.1 hg
        exact h x hx
      obtain ⟨g, hg⟩ : ∃ g, g ∈ configGroups per top configs := by
        cases htop' : top with
        | zero => omega
        | succ n => exact ⟨_, by rw [configGroups]; exact List.mem_cons_self⟩
      obtain ⟨a1, a2, a3, -⟩ := h' g hg
      have a0 := hgl _ rfl g hg
      refine ⟨by omega, a2, a3, fun c hc => ?_⟩
      rw [← a1, a0, ← hflat] at hc
      obtain ⟨g', hg', hcg⟩ := List.mem_flatten.1 hc
      exact (h' g' hg').2.2.2 c hcg
    · rintro ⟨rfl, a2, a3, a4⟩ g hg
      refine ⟨(hpair g hg).1, a2, a3, fun c hc => a4 c ?_⟩
      rw [← hflat]
      exact List.mem_flatten.2 ⟨g.1, (hpair g hg).2.2, hc⟩
  by_cases hgood : per = sub ∧ 0 < sub ∧ (∃ bs, fs.file (.named rc.path) = some bs) ∧
        ∀ c ∈ configs.take (top * sub), HoldsCache E b k fs c
  · obtain ⟨us, hus, hq⟩ := h1 (hall.2 hgood)
    have hgood' := hgood
    obtain ⟨rfl, hs, -⟩ := hgood
    rw [M.bind_ok hus, M.ofRes_run]
    refine ⟨fun _ => ?_, fun hno => absurd ⟨hlen, hgood'⟩ hno⟩
    have hl := hq.length_eq
    rw [List.length_zip, configGroups_length, configGroups_length, Nat.min_self] at hl
    have huni : ∀ u ∈ us, u.leafs = per * b ^ k ∧ u.length = nodes b k * per + 1 ∧ u.rowCount = k + 2 :=
      fun u hu => by
        obtain ⟨_, _, h⟩ := Forall₂.exists_left hq hu
        exact h.2
    obtain ⟨t, ht⟩ := (C39_from_sub_trees A top us).1.2 ⟨htop, hl.symm, fun c hc d hd =>
      ⟨(huni c hc).2.1.trans (huni d hd).2.1.symm, (huni c hc).2.2.trans (huni d hd).2.2.symm⟩⟩
    obtain ⟨-, r1, r2⟩ := C39_from_sub_trees_result ht
    refine ⟨t, by rw [ht], ?_, ?_⟩
    · have e := forall₂_map_eq
        (f := fun g : List StoreConfig × List Nat => A.nodeHash (g.1.map (storedRoot E fs)) 1) (g := Tree1.root)
        (hq.imp fun _ _ h => h.1)
      have hch : chunks per (configs.take (top * per)) = configGroups per top configs := by
        rw [chunks_eq_groups hs (top := top) (by rw [List.length_take]; omega)]
        conv_rhs => rw [← List.take_append_drop (top * per) configs]
        rw [configGroups_append _ _ _ _ (by rw [List.length_take]; omega)]
      rw [r1, e, hch]
      conv_rhs => rw [← hfst, List.map_map]
      rfl
    · rw [r2, show us.map Tree1.leafs = List.replicate top (per * b ^ k) from
        List.eq_replicate_iff.2 ⟨by rw [List.length_map]; omega, fun x hx => by
          obtain ⟨u, hu, rfl⟩ := List.mem_map.1 hx; exact (huni u hu).1⟩, sum_replicate_nat]
  · refine ⟨fun h => absurd h.2 hgood, fun _ => ?_⟩
    obtain ⟨m, hm⟩ := h2 fun h => hgood (hall.1 h)
    exact ⟨m, M.bind_error hm⟩

/-- Opening one tree with a leaf count that is not one of a tree. -/
theorem openOver_not_a_tree (hb : b ≠ 1) {leafs : Nat} (hf : ∀ k, b ^ k < 2 * leafs → FloatRows.ExactAt b k)
    (hno : ¬ (Arity b ∧ ∃ k, 1 ≤ k ∧ leafs = b ^ k)) {i : Nat} (hi : i < rc.offsets.length) (c : StoreConfig) :
    ∃ m, (do
      let n ← M.ofRes (merkleTreeLen leafs b)
      let r ← ExternalReader.newFromConfig rc i
      let s : LevelCacheStore E ← LevelCacheStore.newFromDiskWithReader n b c r
      M.get (BaseTree.fromDataStore b 0 0 s leafs) : M (BaseTree (LevelCacheStore E) E)) fs
        = (.error (.err m), fs) := by
  rcases merkleTreeLen_returns leafs b with ⟨n, hn⟩ | ⟨m, hm⟩
  swap
  · exact ⟨m, M.bind_error (by rw [M.ofRes_run, hm])⟩
  obtain ⟨-, c1, c2, c3⟩ := C01_tree_len_exact leafs b
  have hne : ¬ Res.IsErr (merkleTreeLen leafs b) := by rw [hn]; rintro ⟨_, h⟩; cases h
  have ha : Arity b := arity_of_pow2 (by by_contra h; exact hne (c2 h)) hb
  have hb2 := ha.two_le
  have hge : b ≤ leafs := by by_contra h; exact hne (c1 (by omega))
  obtain ⟨-, hlt, hub⟩ := merkleTreeLen_le ha hn
  have htwo : b ≠ 2 := by
    rintro rfl
    have h2 : IsPow2 leafs := by by_contra h; exact hne (c3 rfl h)
    obtain ⟨k, rfl⟩ := h2
    refine hno ⟨ha, k, ?_, rfl⟩
    cases k with
    | zero => simp at hge
    | succ k => omega
  rw [M.bind_ok (a := n) (fs' := fs) (by rw [M.ofRes_run, hn])]
  rcases hr : fs.file (.named rc.path) with _ | bs
  · obtain ⟨m, hm⟩ := newFromConfig_missing i hr
    exact ⟨m, M.bind_error hm⟩
  rw [M.bind_ok (newFromConfig_run hr hi)]
  generalize ExternalReader.ofFile (.named rc.path) rc.offsets[i] = r
  have hopen : (∃ s : LevelCacheStore E, LevelCacheStore.newFromDiskWithReader n b c r fs = (.ok s, fs)) ∨
      ∃ m, LevelCacheStore.newFromDiskWithReader (E := E) n b c r fs = (.error (.err m), fs) := by
    rcases hx : fs.file c.file with _ | cs
    · right
      unfold LevelCacheStore.newFromDiskWithReader
      rw [M.bind_ok (pathExists_run _ _), hx]
      exact ⟨_, M.bind_error (mEnsure_false (by simp) _ _)⟩
    by_cases hw : ∃ k, n = nodes b k
    · obtain ⟨k, rfl⟩ := hw
      have hk : 1 ≤ k := by
        cases k with
        | zero => simp [nodes] at hlt; omega
        | succ k => omega
      have hf := hf k (by have := pow_le_nodes b k; omega)
      by_cases hd : c.rowsToDiscard < k ∧ cs.length = nodes b (k - 1 - c.rowsToDiscard) * Element.byteLen E
      · exact .inl ⟨_, LevelCacheStore.newFromDiskWithReader_run ha hk hf hd.1 hx hd.2 r⟩
      · exact .inr (LevelCacheStore.newFromDiskWithReader_wrong ha hk hf hx (fun h1 h2 => hd ⟨h1, h2⟩) r)
    · right
      obtain ⟨m, hm⟩ := isErr_of_not_ok (merkleTreeLeafs_returns n b) fun x hx => by
        obtain ⟨k, -, h | h⟩ := (merkleTreeLeafs_ok_iff ha _ _).1 hx
        · exact hw ⟨k, h⟩
        · exact htwo h.1
      refine ⟨m, ?_⟩
      unfold LevelCacheStore.newFromDiskWithReader
      rw [M.bind_ok (pathExists_run _ _), hx, M.bind_ok (mEnsure_true (by rfl) _ _),
        M.bind_ok (a := cs.length) (fs' := fs) (by
          rw [M.get_run, FS.fileLen, FS.contents_ok hx]; rfl)]
      refine M.bind_error ?_
      unfold LevelCacheStore.plan
      rw [M.ofRes_run, hm]
      rfl
  rcases hopen with ⟨s, hs⟩ | ⟨m, hm⟩
  · rw [M.bind_ok hs, M.get_run]
    obtain ⟨m, hm⟩ := C67_refused (E := E) hb (sub := 0) (top := 0) (leafs := leafs) (s := s) (fs := fs)
      fun h => hno ⟨h.2.2.1, h.2.2.2.imp fun k h => ⟨h.1, h.2.1⟩⟩
    exact ⟨m, by rw [hm]⟩
  · exact ⟨m, M.bind_error hm⟩

/-- **C87** for a leaf count that is not one of a tree (arity one excepted, where the call need not return; see C67):
`Err`, whatever the files, and no file changes. -/
theorem C87_not_a_tree (hb : b ≠ 1) {leafs : Nat} (hf : ∀ k, b ^ k < 2 * leafs → FloatRows.ExactAt b k)
    (hno : ¬ (Arity b ∧ ∃ k, 1 ≤ k ∧ leafs = b ^ k)) :
    ∃ m, fromStoreConfigsAndReplica (E := E) A b sub leafs configs rc fs = (.error (.err m), fs) := by
  unfold fromStoreConfigsAndReplica
  by_cases hlen : configs.length = rc.offsets.length
  swap
  · exact ⟨_, M.bind_error (mEnsure_false hlen _ _)⟩
  rw [M.bind_ok (mEnsure_true hlen _ _)]
  cases configs with
  | nil =>
    obtain ⟨m, hm⟩ := (C39_from_trees A sub ([] : List (BaseTree (LevelCacheStore E) E))).2 fun h => by
      obtain ⟨g1, g2, -⟩ := (C39_from_trees A sub _).1.1 h
      simp at g2; omega
    exact ⟨m, by rw [List.zipIdx_nil]; show M.ofRes (fromTrees A sub []) fs = _; rw [M.ofRes_run, hm]⟩
  | cons c cs =>
    obtain ⟨m, hm⟩ := openOver_not_a_tree (E := E) (fs := fs) (rc := rc) hb hf hno (i := 0)
      (by rw [← hlen]; simp) c
    exact ⟨m, M.bind_error (by rw [List.zipIdx_cons]; exact M.bind_error hm)⟩

/-- **C87** for such a leaf count, with a top layer. -/
theorem C87_not_a_tree_top (hb : b ≠ 1) {leafs top : Nat}
    (hf : ∀ k, b ^ k < 2 * leafs → FloatRows.ExactAt b k) (htop : 0 < top)
    (hno : ¬ (Arity b ∧ ∃ k, 1 ≤ k ∧ leafs = b ^ k)) :
    ∃ m, fromSubTreeStoreConfigsAndReplica (E := E) A b sub top leafs configs rc fs = (.error (.err m), fs) := by
  unfold fromSubTreeStoreConfigsAndReplica
  by_cases hlen : configs.length = rc.offsets.length
  swap
  · exact ⟨_, M.bind_error (mEnsure_false hlen _ _)⟩
  rw [M.bind_ok (mEnsure_true hlen _ _), M.bind_ok (a := configs.length / top) (fs' := fs) (by
    rw [M.ofRes_run, divP_ok htop])]
  obtain ⟨n, rfl⟩ : ∃ n, top = n + 1 := ⟨top - 1, by omega⟩
  rw [configGroups, configGroups, List.zip_cons_cons]
  obtain ⟨m, hm⟩ := C87_not_a_tree (E := E) (A := A) (sub := sub) (fs := fs)
    (configs := configs.take (configs.length / (n + 1)))
    (rc := ⟨rc.path, rc.offsets.take (configs.length / (n + 1))⟩) hb hf hno
  exact ⟨m, M.bind_error (by
    unfold collectM
    exact M.bind_error (M.bind_error hm))⟩

/-- **C87 fails** for `from_sub_tree_store_configs_and_replica` in a tree type without a top layer: with an offset for
every configuration it divides by the top arity 0, and panics. -/
theorem C87_no_top_layer_refuted (leafs : Nat) (h : configs.length = rc.offsets.length) :
    ∃ m, fromSubTreeStoreConfigsAndReplica (E := E) A b sub 0 leafs configs rc fs = (.error (.panic m), fs) := by
  unfold fromSubTreeStoreConfigsAndReplica
  rw [M.bind_ok (mEnsure_true h _ _)]
  exact ⟨_, M.bind_error (M.ofRes_run _ _)⟩

/-- **C87** for `set_external_reader_path`: with the file there, the leaves are read from it from then on, from offset
0; without it the call returns `Err`.  No file changes. -/
theorem C87_set_external_reader_path (t : BaseTree (LevelCacheStore E) E) (path : String) :
    ((∃ bs, fs.file (.named path) = some bs) →
      t.setExternalReaderPath path fs
        = (.ok { t with store := { t.store with reader := some (.ofFile (.named path) 0) } }, fs)) ∧
    (fs.file (.named path) = none →
      ∃ m, t.setExternalReaderPath path fs = (.error (.err m), fs)) := by
  unfold BaseTree.setExternalReaderPath ExternalReader.newFromPath
  refine ⟨fun ⟨bs, h⟩ => ?_, fun h => ?_⟩
  · rw [M.bind_ok (newFromConfig_run (rc := ⟨path, [0]⟩) h (by simp))]
    rfl
  · obtain ⟨m, hm⟩ := newFromConfig_missing (rc := ⟨path, [0]⟩) 0 h
    exact ⟨m, M.bind_error hm⟩

end

section Examples
attribute [local instance] idealRows

/-- Replica `r`, and the files `x` and `y` of two trees of four leaves, one row discarded. -/
private def replicaFiles (r : Option Bytes) (x y : Bytes) : FS :=
  ((FS.empty.set (.named "r") r).set (StoreConfig.new "d" "x" 1).file (some x)).set
    (StoreConfig.new "d" "y" 1).file (some y)

private def openPair (sub : Nat) (offsets : List Nat) (fs : FS) : Res (UInt8 × Nat) :=
  ((fromStoreConfigsAndReplica (E := UInt8) toyAlg 2 sub 4 [.new "d" "x" 1, .new "d" "y" 1] ⟨"r", offsets⟩ fs).1).map
    fun t => (t.root, t.leafs)

private def openTop (top : Nat) (offsets : List Nat) (fs : FS) : Res (UInt8 × Nat) :=
  ((fromSubTreeStoreConfigsAndReplica (E := UInt8) toyAlg 2 1 top 4
    [.new "d" "x" 1, .new "d" "y" 1, .new "d" "missing" 1] ⟨"r", offsets⟩ fs).1).map
    fun t => (t.root, t.leafs)

-- the conditions of C87 can hold
example : HoldsCache UInt8 2 2 (replicaFiles (some []) [7] [9]) (.new "d" "x" 1) ∧
    storedRoot UInt8 (replicaFiles (some []) [7] [9]) (.new "d" "x" 1) = 7 :=
  ⟨⟨by decide, [7], by decide +kernel, by decide +kernel⟩, by decide +kernel⟩
-- two trees over an empty replica: opened, although no leaf can be read
example : openPair 2 [0, 4] (replicaFiles (some []) [7] [9]) = .ok (toyAlg.nodeHash [7, 9] 1, 8) := by decide +kernel
-- no replica; a file of another length; an offset too few; another arity
example : (openPair 2 [0, 4] (replicaFiles none [7] [9])).isOk = false ∧
    (openPair 2 [0, 4] (replicaFiles (some []) [7] [9, 9])).isOk = false ∧
    (openPair 2 [0] (replicaFiles (some []) [7] [9])).isOk = false ∧
    (openPair 4 [0, 4] (replicaFiles (some []) [7] [9])).isOk = false := by decide +kernel
-- two groups of one: the third configuration is ignored, and its file need not be there
example : openTop 2 [0, 4, 8] (replicaFiles (some []) [7] [9])
    = .ok (toyAlg.nodeHash [toyAlg.nodeHash [7] 1, toyAlg.nodeHash [9] 1] 1, 8) := by decide +kernel
-- three groups of one: its file is missing
example : (openTop 3 [0, 4, 8] (replicaFiles (some []) [7] [9])).isOk = false := by decide +kernel
-- eight leaves and arity four: refused
example : (fromStoreConfigsAndReplica (E := UInt8) toyAlg 4 2 8 [.new "d" "x" 1, .new "d" "y" 1] ⟨"r", [0, 8]⟩
    (replicaFiles (some []) [7] [9])).1.isOk = false ∧ ¬ (Arity 4 ∧ ∃ k, 1 ≤ k ∧ 8 = 4 ^ k) := by
  refine ⟨by decide +kernel, fun ⟨_, k, h1, h2⟩ => ?_⟩
  obtain rfl | h : k = 1 ∨ 2 ≤ k := by omega
  · omega
  · have := Nat.pow_le_pow_right (n := 4) (by omega) h
    omega
end Examples
end Verif
