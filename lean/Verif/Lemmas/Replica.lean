import Verif.Lemmas.LevelView
import Verif.Lemmas.Compound
import Verif.Lemmas.Iterators
/-! External readers of files, and the trees opened over them. -/
set_option linter.unusedSectionVars false
namespace Verif
open Spec StoreOps

section
variable {E : Type} [Element E] [LawfulElement E]

theorem encodeAll_run (es : List E) (a n : Nat) :
    region (encodeAll es) (a * Element.byteLen E) (n * Element.byteLen E)
      = encodeAll ((es.drop a).take n) := by
  unfold region
  rw [← encodeAll_drop, ← encodeAll_take]

/-- A reader of a file that holds the leaves from its offset on delivers the leaves. -/
theorem ExternalReader.ofFile_serves {fs : FS} {g : FileId} {bs : Bytes} {o : Nat} {leaves : List E}
    (hg : fs.file g = some bs)
    (h : region bs o (leaves.length * Element.byteLen E) = encodeAll leaves) :
    (ofFile g o).Serves fs leaves := by
  intro a n han buf hbuf
  have hlen := congrArg List.length h
  rw [region_length, length_encodeAll] at hlen
  have hmul : (a + n) * Element.byteLen E ≤ leaves.length * Element.byteLen E :=
    Nat.mul_le_mul_right _ han
  have hsub : (a + n) * Element.byteLen E + o - (a * Element.byteLen E + o) = n * Element.byteLen E := by
    rw [Nat.add_mul]; omega
  have hge : a * Element.byteLen E + o ≤ (a + n) * Element.byteLen E + o := by rw [Nat.add_mul]; omega
  unfold read ofFile fileReadFn
  dsimp only
  rw [subP_ok hge, Res.ok_bind, hsub, if_pos (by omega)]
  unfold FS.readExactAt
  rw [FS.contents_ok hg, Res.ok_bind]
  by_cases h0 : n * Element.byteLen E = 0
  · have hn : n = 0 := by
      rcases Nat.mul_eq_zero.1 h0 with h | h
      · exact h
      · have := LawfulElement.byteLen_pos (E := E); omega
    subst hn
    rw [if_pos h0, Res.ok_bind, h0, List.drop_zero]
    rw [Nat.zero_mul] at hbuf
    rw [List.length_eq_zero_iff.1 hbuf]
    rfl
  · rw [Nat.add_mul] at hmul
    rw [if_neg h0, if_pos (by omega), Res.ok_bind, List.drop_eq_nil_of_le (by omega),
      List.append_nil, ← encodeAll_run leaves a n, ← h, region_region _ _ _ _ _ hmul,
      Nat.add_comm o]

theorem fromSlice_ok {bs : Bytes} (h : bs.length = Element.byteLen E) :
    Element.fromSlice (E := E) bs = .ok (Element.decode bs) := by
  unfold Element.fromSlice
  rw [if_pos h]

namespace LevelCacheStore

/-- What a base read returns with a reader of a file. -/
theorem readAt_ofFile {s : LevelCacheStore E} {g : FileId} {o : Nat}
    (hr : s.reader = some (.ofFile g o)) {fs : FS} {bs : Bytes} (hg : fs.file g = some bs) {i : Nat}
    (hi : i < s.dataWidth) (hl : i < s.len) :
    ReplicaRead bs o i (readAt fs s i) := by
  unfold ReplicaRead
  have hp := LawfulElement.byteLen_pos (E := E)
  have hb : s.InBounds (i * Element.byteLen E) := .inl (mul_byteLen_le.2 (by omega))
  have hread : readAt fs s i = (fs.readExactAt g (i * Element.byteLen E + o) (Element.byteLen E)
      >>= fun bs => Element.fromSlice bs) := by
    unfold readAt
    dsimp only
    rw [checkRange_ok (mul_byteLen_lt.2 hl) (by rw [← Nat.succ_mul]; exact Nat.mul_le_mul_right _ hl) hb,
      Res.ok_bind, storeReadRange_some hr hb, if_pos (mul_byteLen_lt.2 hi)]
    unfold ExternalReader.read ExternalReader.ofFile ExternalReader.fileReadFn
    dsimp only
    rw [subP_ok (by omega), Res.ok_bind, show i * Element.byteLen E + Element.byteLen E + o
      - (i * Element.byteLen E + o) = Element.byteLen E by omega, if_pos (by simp)]
    cases fs.readExactAt g (i * Element.byteLen E + o) (Element.byteLen E) with
    | error e => rfl
    | ok x => simp [Res.ok_bind, List.drop_eq_nil_of_le]
  rw [Nat.succ_mul]
  constructor
  · intro h
    rw [hread]
    unfold FS.readExactAt
    rw [FS.contents_ok hg, Res.ok_bind, if_neg (by omega), if_pos (by omega), Res.ok_bind,
      fromSlice_ok (by rw [region_length]; omega), Nat.add_comm o]
  · intro h
    obtain ⟨m, hm⟩ := readExactAt_past hg (off := i * Element.byteLen E + o) hp (by omega)
    rw [hread, hm]
    exact ⟨m, rfl⟩

end LevelCacheStore

theorem collectM_pure {α β : Type} {f : α → M β} {P : α → β → Prop} {xs : List α} {ys : List β}
    {fs fs' : FS} (hf : ∀ x ∈ xs, ∀ y fs', f x fs = (.ok y, fs') → fs' = fs ∧ P x y)
    (h : collectM f xs fs = (.ok ys, fs')) : fs' = fs ∧ List.Forall₂ P xs ys := by
  induction xs generalizing ys with
  | nil =>
    simp only [collectM, M.pure_run, Prod.mk.injEq, Except.ok.injEq] at h
    obtain ⟨rfl, rfl⟩ := h
    exact ⟨rfl, .nil⟩
  | cons x xs ih =>
    simp only [collectM, M.bind_ok_iff, M.pure_run, Prod.mk.injEq, Except.ok.injEq] at h
    obtain ⟨y, fs₁, h1, zs, fs₂, h2, rfl, rfl⟩ := h
    obtain ⟨rfl, hP⟩ := hf x (by simp) y fs₁ h1
    obtain ⟨rfl, hQ⟩ := ih (fun z hz => hf z (by simp [hz])) h2
    exact ⟨rfl, .cons hP hQ⟩

variable [FloatRows] {A : Alg E}

/-- What is known of one tree opened over a replica. -/
structure BaseTree.OverReplica (b k : Nat) (path : String) (o : Nat) (c : StoreConfig)
    (t : BaseTree (LevelCacheStore E) E) : Prop where
  leafs : t.leafs = b ^ k
  len : t.store.len = nodes b k
  width : t.store.dataWidth = b ^ k
  file : t.store.file = c.file
  reader : t.store.reader = some (.ofFile (.named path) o)

theorem BaseTree.OverReplica.readAt {b k : Nat} {path : String} {o : Nat} {c : StoreConfig}
    {t : BaseTree (LevelCacheStore E) E} (h : t.OverReplica b k path o c) {fs : FS} {bs : Bytes}
    (hg : fs.file (.named path) = some bs) {i : Nat} (hi : i < b ^ k) :
    ReplicaRead bs o i (t.readAt fs i) :=
  LevelCacheStore.readAt_ofFile h.reader hg (by rw [h.width]; exact hi)
    (by rw [h.len]; exact lt_of_lt_of_le hi (pow_le_nodes b k))

theorem openOverReplica {b k : Nat} (hb : Arity b) (hk : 1 ≤ k) {rc : ReplicaConfig} {c : StoreConfig}
    {i : Nat} {t : BaseTree (LevelCacheStore E) E} {fs fs' : FS}
    (h : (do
      let n ← M.ofRes (merkleTreeLen (b ^ k) b)
      let r ← ExternalReader.newFromConfig rc i
      let s : LevelCacheStore E ← LevelCacheStore.newFromDiskWithReader n b c r
      M.get (BaseTree.fromDataStore b 0 0 s (b ^ k)) : M (BaseTree (LevelCacheStore E) E)) fs
        = (.ok t, fs')) :
    fs' = fs ∧ ∃ o, rc.offsets[i]? = some o ∧ t.OverReplica b k rc.path o c := by
  simp only [M.bind_ok_iff, M.ofRes_run, Prod.mk.injEq, mEnsure_ok_iff, M.pure_run, M.get_run,
    Except.ok.injEq, ExternalReader.newFromConfig, FS.openFile, LevelCacheStore.newFromDiskWithReader,
    FS.pathExists] at h
  obtain ⟨n, _, ⟨h1, rfl⟩, r, _, ⟨u, _, ⟨hu, rfl⟩, o, _, ⟨ho, rfl⟩, rfl, rfl⟩, s, _,
    ⟨ex, _, ⟨rfl, rfl⟩, _, _, ⟨h2, rfl⟩, sz, _, ⟨h3, rfl⟩, pl, _, ⟨h4, rfl⟩, h5⟩, h6, rfl⟩ := h
  obtain ⟨size, cacheSize, cis⟩ := pl
  obtain ⟨_, _, ⟨h7, rfl⟩, rfl, rfl⟩ := h5
  refine ⟨rfl, o, ?_, ?_⟩
  · unfold idxP at ho
    split at ho
    · rename_i x hx; cases ho; exact hx
    · cases ho
  · rw [merkleTreeLen_pow hb hk] at h1
    cases h1
    unfold LevelCacheStore.plan at h4
    simp only [bind_ok_iff, ensure_ok_iff, exists_const, Except.ok.injEq, Prod.mk.injEq] at h4
    obtain ⟨w, h8, _, _, _, _, _, rfl, _, _⟩ := h4
    rw [(merkleTreeLeafs_ok_iff hb _ _).2 ⟨k, rfl, Or.inl rfl⟩] at h8
    cases h8
    unfold BaseTree.fromDataStore at h6
    simp only [bind_ok_iff, ensure_ok_iff, exists_const, Except.ok.injEq] at h6
    obtain ⟨_, _, _, _, tl, _, _, _, _, _, _, _, rfl⟩ := h6
    exact ⟨rfl, Nat.mul_div_cancel _ LawfulElement.byteLen_pos, rfl, rfl, rfl⟩

theorem fromStoreConfigsAndReplica_children {b k sub : Nat} (hb : Arity b) (hk : 1 ≤ k)
    {configs : List StoreConfig} {rc : ReplicaConfig} {t : Node (BaseTree (LevelCacheStore E) E) E}
    {fs fs' : FS} (h : fromStoreConfigsAndReplica A b sub (b ^ k) configs rc fs = (.ok t, fs')) :
    fs' = fs ∧ configs.length = rc.offsets.length ∧ configs.length = sub ∧
      fromTrees A sub t.children = .ok t ∧
      List.Forall₂ (fun (x : StoreConfig × Nat) (u : BaseTree (LevelCacheStore E) E) =>
        ∃ o, rc.offsets[x.2]? = some o ∧ u.OverReplica b k rc.path o x.1) configs.zipIdx t.children := by
  unfold fromStoreConfigsAndReplica at h
  rw [M.bind_ok_iff] at h
  obtain ⟨_, _, h1, h⟩ := h
  obtain ⟨hlen, rfl⟩ := mEnsure_ok_iff.1 h1
  rw [M.bind_ok_iff] at h
  obtain ⟨ts, fs₁, h2, h3⟩ := h
  obtain ⟨rfl, h4⟩ := collectM_pure (P := fun (x : StoreConfig × Nat) u =>
    ∃ o, rc.offsets[x.2]? = some o ∧ BaseTree.OverReplica b k rc.path o x.1 u)
    (fun x _ y fs' hy => openOverReplica hb hk hy) h2
  rw [M.ofRes_run, Prod.mk.injEq] at h3
  obtain ⟨h3, rfl⟩ := h3
  have h5 := h3
  obtain ⟨c0, _, h6, _, _, rfl⟩ := Node.assemble_ok_iff.1 h3
  have := h4.length_eq
  rw [List.length_zipIdx] at this
  exact ⟨rfl, hlen, by omega, h5, h4⟩

theorem sum_replicate_nat (n x : Nat) : (List.replicate n x).sum = n * x := by
  induction n with
  | zero => simp
  | succ n ih => rw [List.replicate_succ, List.sum_cons, ih, Nat.succ_mul, Nat.add_comm]

/-- The layer those trees form. -/
theorem fromStoreConfigsAndReplica_uniform {b k sub : Nat} (hb : Arity b) (hk : 1 ≤ k)
    {configs : List StoreConfig} {rc : ReplicaConfig} {t : Node (BaseTree (LevelCacheStore E) E) E}
    {fs fs' : FS} (h : fromStoreConfigsAndReplica A b sub (b ^ k) configs rc fs = (.ok t, fs')) :
    t.Uniform BaseTree.leafs sub (b ^ k) := by
  obtain ⟨-, -, hs, ht, hcs⟩ := fromStoreConfigsAndReplica_children hb hk h
  have hl := hcs.length_eq
  rw [List.length_zipIdx] at hl
  have heach : ∀ c ∈ t.children, c.leafs = b ^ k := by
    intro c hc
    obtain ⟨x, _, o, _, ho⟩ := Forall₂.exists_left hcs hc
    exact ho.leafs
  obtain ⟨c0, _, _, _, _, h5⟩ := Node.assemble_ok_iff.1 ht
  refine ⟨by omega, heach, ?_⟩
  rw [h5]
  show (t.children.map BaseTree.leafs).sum = _
  rw [List.map_congr_left heach, List.map_const', sum_replicate_nat, ← hl, hs]

theorem readAt_overReplicas {b k sub : Nat} (hb : Arity b) (hk : 1 ≤ k)
    {configs : List StoreConfig} {rc : ReplicaConfig} {t : Node (BaseTree (LevelCacheStore E) E) E}
    {fs fs' : FS} (h : fromStoreConfigsAndReplica A b sub (b ^ k) configs rc fs = (.ok t, fs'))
    {bs : Bytes} (hg : fs.file (.named rc.path) = some bs) {i : Nat} (hi : i < sub * b ^ k) :
    ∃ o, rc.offsets[i / b ^ k]? = some o ∧
      ReplicaRead bs o (i % b ^ k) ((Tree1.sub t).readAt sub fs i) := by
  have hu := fromStoreConfigsAndReplica_uniform hb hk h
  obtain ⟨-, -, hs, -, hcs⟩ := fromStoreConfigsAndReplica_children hb hk h
  have hix := hu.index hi
  have hpos : 0 < b ^ k := Nat.pow_pos (by have := hb.two_le; omega)
  rw [List.forall₂_iff_get] at hcs
  obtain ⟨o, ho, hov⟩ := hcs.2 (i / b ^ k) (by rw [hcs.1]; exact hix) hix
  rw [List.get_eq_getElem, List.getElem_zipIdx] at ho
  refine ⟨o, by simpa using ho, ?_⟩
  show ReplicaRead bs o _ (t.readAt BaseTree.leafs (BaseTree.readAt fs) sub i)
  rw [Node.readAt_eq hu hi]
  exact hov.readAt hg (Nat.mod_lt _ hpos)

theorem configGroups_length {α : Type} (per n : Nat) (xs : List α) :
    (configGroups per n xs).length = n := by
  induction n generalizing xs with
  | zero => rfl
  | succ n ih => simp [configGroups, ih]

theorem configGroups_getElem {α : Type} (per n : Nat) (xs : List α) (i : Nat)
    (h : i < (configGroups per n xs).length) :
    (configGroups per n xs)[i] = (xs.drop (i * per)).take per := by
  induction n generalizing xs i with
  | zero => simp [configGroups] at h
  | succ n ih =>
    cases i with
    | zero => simp [configGroups]
    | succ i =>
      simp only [configGroups, List.getElem_cons_succ]
      rw [ih, List.drop_drop, Nat.succ_mul, Nat.add_comm per]

theorem readAt_overReplicas_top {b k sub top : Nat} (hb : Arity b) (hk : 1 ≤ k)
    {configs : List StoreConfig} {rc : ReplicaConfig} {t : Node (Tree1 (LevelCacheStore E) E) E}
    {fs fs' : FS}
    (h : fromSubTreeStoreConfigsAndReplica A b sub top (b ^ k) configs rc fs = (.ok t, fs'))
    {bs : Bytes} (hg : fs.file (.named rc.path) = some bs) {i : Nat} (hi : i < top * (sub * b ^ k)) :
    fs' = fs ∧ ∃ o, rc.offsets[i / b ^ k]? = some o ∧
      ReplicaRead bs o (i % b ^ k) ((Tree2.top t).readAt sub top fs i) := by
  unfold fromSubTreeStoreConfigsAndReplica at h
  rw [M.bind_ok_iff] at h
  obtain ⟨_, _, h1, h⟩ := h
  obtain ⟨hlen, e⟩ := mEnsure_ok_iff.1 h1
  rw [e, M.bind_ok_iff] at h
  obtain ⟨per, _, h2, h⟩ := h
  rw [M.ofRes_run, Prod.mk.injEq] at h2
  obtain ⟨h2, e⟩ := h2
  rw [← e] at h
  rw [M.bind_ok_iff] at h
  obtain ⟨ts, fs₁, h3, h4⟩ := h
  rw [M.ofRes_run, Prod.mk.injEq] at h4
  obtain ⟨h4, e⟩ := h4
  rw [← e]
  have hpos : 0 < b ^ k := Nat.pow_pos (by have := hb.two_le; omega)
  obtain ⟨e, hcs⟩ := collectM_pure (P := fun (g : List StoreConfig × List Nat) u =>
    ∃ n, u = Tree1.sub n ∧ g.1.length = sub ∧ n.leafs = sub * b ^ k ∧ ∀ j, j < sub * b ^ k →
      ∃ o, g.2[j / b ^ k]? = some o ∧ ReplicaRead bs o (j % b ^ k) ((Tree1.sub n).readAt sub fs j))
    (fun x _ y fs' hy => by
      simp only [M.bind_ok_iff, M.pure_run, Prod.mk.injEq, Except.ok.injEq] at hy
      obtain ⟨n, _, hn, rfl, rfl⟩ := hy
      obtain ⟨rfl, _, hs, _, _⟩ := fromStoreConfigsAndReplica_children hb hk hn
      exact ⟨rfl, n, rfl, hs, (fromStoreConfigsAndReplica_uniform hb hk hn).leafs, fun j hj =>
        readAt_overReplicas hb hk hn hg hj⟩) h3
  have hcl := hcs.length_eq
  rw [List.length_zip, configGroups_length, configGroups_length, Nat.min_self] at hcl
  obtain ⟨c0, _, h5, _, _, rfl⟩ := Node.assemble_ok_iff.1 h4
  have heach : ∀ c ∈ ts, Tree1.leafs c = sub * b ^ k := by
    intro c hc
    obtain ⟨x, _, n, rfl, _, hn, _⟩ := Forall₂.exists_left hcs hc
    exact hn
  have hu : Node.Uniform Tree1.leafs (⟨ts, (ts.map Tree1.leafs).sum, c0.length * top + 1,
      c0.rowCount + 1, A.nodeHash (ts.map Tree1.root) 1⟩ : Node (Tree1 (LevelCacheStore E) E) E)
      top (sub * b ^ k) := by
    refine ⟨h5, heach, ?_⟩
    show (ts.map Tree1.leafs).sum = _
    rw [List.map_congr_left heach, List.map_const', sum_replicate_nat, h5]
  refine ⟨e, ?_⟩
  have hix := hu.index hi
  have hsb : 0 < sub * b ^ k := by
    rcases Nat.eq_zero_or_pos (sub * b ^ k) with h | h
    · simp [h] at hi
    · exact h
  have hit : i / (sub * b ^ k) < top := by rwa [Nat.div_lt_iff_lt_mul hsb]
  rw [List.forall₂_iff_get] at hcs
  obtain ⟨n, hn, hgl, _, hrd⟩ := hcs.2 (i / (sub * b ^ k)) (by rw [hcs.1]; exact hix) hix
  obtain ⟨o, ho, hro⟩ := hrd (i % (sub * b ^ k)) (Nat.mod_lt _ hsb)
  simp only [List.get_eq_getElem, List.getElem_zip, configGroups_getElem] at ho hgl hn
  have hmod : i % (sub * b ^ k) % b ^ k = i % b ^ k := Nat.mod_mul_left_mod _ _ _
  have hdiv : i % (sub * b ^ k) / b ^ k = i / b ^ k % sub := by
    rw [Nat.mul_comm, Nat.mod_mul_right_div_self]
  rw [List.length_take, List.length_drop] at hgl
  rw [hmod] at hro
  have hsub : 0 < sub := Nat.pos_of_mul_pos_right hsb
  have hlt : i / b ^ k % sub < sub := Nat.mod_lt _ hsub
  have hpsub : per = sub := by
    have hper : per ≤ configs.length := by
      unfold divP at h2
      split at h2
      · cases h2
      · cases h2; exact Nat.div_le_self _ _
    obtain ⟨_, _, hg', _⟩ := hcs.2 0 (by rw [hcs.1]; exact Nat.zero_lt_of_lt hix) (Nat.zero_lt_of_lt hix)
    simp only [List.get_eq_getElem, List.getElem_zip, configGroups_getElem, List.length_take,
      List.length_drop] at hg'
    omega
  subst hpsub
  refine ⟨o, ?_, ?_⟩
  · rw [hdiv, List.getElem?_take_of_lt hlt, List.getElem?_drop] at ho
    rw [← ho]
    congr 1
    have e : i / (per * b ^ k) = i / b ^ k / per := by rw [Nat.mul_comm, Nat.div_div_eq_div_mul]
    rw [e, Nat.mul_comm, Nat.div_add_mod]
  · show ReplicaRead bs o _ (Node.readAt Tree1.leafs (Tree1.readAt per fs) _ top i)
    rw [Node.readAt_eq hu hi]
    simp only at hn ⊢
    rw [hn]
    exact hro

end
end Verif
