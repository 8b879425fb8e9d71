import Verif.Lemmas.Parts
import Verif.Lemmas.Replica
/-!
The lists of trees that the constructors of compound trees make from slices, stores and
configurations.
-/
set_option linter.unusedSectionVars false
namespace Verif
open Spec StoreOps LawfulWrite

section
variable {S E : Type} [Element E] [StoreOps S E] {A : Alg E} {b k : Nat} {fs : FS}

theorem BaseTree.WrittenAs.reads {t : BaseTree S E} {d : Bytes} (h : t.WrittenAs A b k fs d) :
    ∃ (ns : List E) (f : Nat → E), d = encodeAll ns ∧ ns.length = nodes b k ∧
      (∀ i (h : i < ns.length), ns[i] = f i) ∧ t.Reads fs b k f := by
  obtain ⟨⟨leaves, ht⟩, ns, h1, h2, h3⟩ := h
  obtain ⟨f, _, hr⟩ := ht.exists_reads
  refine ⟨ns, f, h3, h1.trans hr.len, fun i hi => ?_, hr⟩
  exact Except.ok.inj ((h2 i hi).symm.trans (hr.reads i (by have := hr.len; omega)))

/-- Two readable trees with the same nodes. -/
theorem BaseTree.Reads.sameIn {S' : Type} [StoreOps S' E] (hb : Arity b) (hk : 1 ≤ k) {f : Nat → E}
    {t : BaseTree S E} {u : BaseTree S' E} {fs' : FS} (ht : t.Reads fs b k f)
    (hu : u.Reads fs' b k f) : BaseTree.SameIn b fs fs' t u where
  summary := by
    unfold BaseTree.summary
    rw [ht.root, hu.root, ht.leafs, hu.leafs, ht.len, hu.len, ht.rows, hu.rows]
  reads i hi := by
    rw [ht.len] at hi
    rw [ht.reads i hi, hu.reads i hi]
  proofs i := Verif.genProof_congr hb hk ht hu i

theorem Filled.frame [LawfulWrite S E] {fs' : FS} {s : S} {cap n : Nat} {g : Nat → E}
    (h : Filled fs s cap n g) (hf : ∀ f, owns s f → fs'.file f = fs.file f) :
    Filled fs' s cap n g :=
  ⟨inv_frame hf h.inv, h.len_eq, fun i hi => holds_frame hf (h.vals i hi)⟩

/-- `u` was copied from `t`. -/
structure BaseTree.CopyOf {S' : Type} [StoreOps S' E] [LawfulRead S' E] (b k : Nat) (fs fs' : FS)
    (t : BaseTree S E) (u : BaseTree S' E) (f : Nat → E) (cap : Nat) : Prop where
  orig : t.Reads fs b k f
  filled : Filled fs' u.store cap (nodes b k) f
  leafs : u.leafs = b ^ k
  rows : u.rowCount = k + 1
  root : u.root = f (nodes b k - 1)

theorem BaseTree.CopyOf.sameIn {S' : Type} [StoreOps S' E] [LawfulRead S' E] (hb : Arity b)
    (hk : 1 ≤ k) {fs' : FS} {t : BaseTree S E} {u : BaseTree S' E} {f : Nat → E} {cap : Nat}
    (h : BaseTree.CopyOf b k fs fs' t u f cap) : BaseTree.SameIn b fs fs' t u :=
  h.orig.sameIn hb hk ⟨h.leafs, h.filled.len_eq, h.rows, fun i hi =>
    LawfulRead.readAt_ok h.filled.inv (by rw [h.filled.len_eq]; exact hi) (h.filled.vals i hi), h.root⟩

theorem BaseTree.CopyOf.frame {S' : Type} [StoreOps S' E] [LawfulRead S' E]
    {fs' fs'' : FS} {t : BaseTree S E} {u : BaseTree S' E} {f : Nat → E} {cap : Nat}
    (h : BaseTree.CopyOf b k fs fs' t u f cap)
    (hf : ∀ f, owns u.store f → fs''.file f = fs'.file f) :
    BaseTree.CopyOf b k fs fs'' t u f cap :=
  ⟨h.orig, h.filled.frame hf, h.leafs, h.rows, h.root⟩

end

section slices
variable {S₀ S E : Type} [Element E] [LawfulElement E] [FloatRows] [StoreOps S₀ E] [Store S E]
  [LawfulStore S E] {A : Alg E} {b k : Nat} {fs₀ : FS}

theorem fromTreeSlice_copy (hb : Arity b) (hk : 1 ≤ k) (hf : FloatRows.ExactAt b k)
    {t : BaseTree S₀ E} {d : Bytes} (h : t.WrittenAs A b k fs₀ d) (fs : FS) :
    ∃ (u : BaseTree S E) (fs' : FS) (f : Nat → E) (cap : Nat),
      BaseTree.fromTreeSlice b 0 0 d (b ^ k) fs = (.ok u, fs') ∧
      BaseTree.CopyOf b k fs₀ fs' t u f cap ∧ Fresh (owns u.store) (NewTemp fs fs') fs fs' := by
  obtain ⟨ns, f, rfl, hn, hns, hr⟩ := h.reads
  have hp := nodes_pos b k
  have h0 : BaseTree.treeSliceLen E b 0 0 (encodeAll ns) (b ^ k) = .ok (nodes b k) :=
    (treeSliceLen_ok_iff (by have := hb.two_le; omega)).2
      ⟨hb, rfl, rfl, k, hk, rfl, rfl, by rw [div_encodeAll, hn]⟩
  obtain ⟨s, fs', h1, h2, h4⟩ := LawfulStore.newFromSlice_ok (S := S) fs (nodes b k) ns
    (f 0) (by omega)
  have h3 : Filled fs' s (nodes b k) (nodes b k) f := by
    refine ⟨h2.inv, by rw [h2.len_eq, hn], fun i hi => ?_⟩
    have := h2.vals i (by omega)
    simp only [getD_of_lt (show i < ns.length by omega)] at this
    rwa [hns] at this
  refine ⟨⟨s, b ^ k, nodes b k, merkleTreeRowCount (b ^ k) b, f (nodes b k - 1)⟩, fs', f, nodes b k,
    ?_, ⟨hr, h3, rfl, rowCount_pow hf, rfl⟩, h4⟩
  unfold BaseTree.fromTreeSlice
  rw [M.bind_ok (a := nodes b k) (fs' := fs) (by rw [M.ofRes_run, h0]), M.bind_ok h1,
    M.bind_ok (a := f (nodes b k - 1)) (fs' := fs') (by rw [M.get_run, h3.last hp])]
  rfl

theorem fromTreeSliceWithConfig_copy (hb : Arity b) (hk : 1 ≤ k) (hf : FloatRows.ExactAt b k)
    {t : BaseTree S₀ E} {d : Bytes} (h : t.WrittenAs A b k fs₀ d) {c : StoreConfig} (fs : FS)
    (hc : fs.file c.file = none) :
    ∃ (u : BaseTree S E) (fs' : FS) (f : Nat → E) (cap : Nat),
      BaseTree.fromTreeSliceWithConfig b 0 0 d (b ^ k) c fs = (.ok u, fs') ∧
      BaseTree.CopyOf b k fs₀ fs' t u f cap ∧
      Fresh (owns u.store) (fun f => f = c.file) fs fs' := by
  obtain ⟨ns, f, rfl, hn, hns, hr⟩ := h.reads
  have hp := nodes_pos b k
  have h0 : BaseTree.treeSliceLen E b 0 0 (encodeAll ns) (b ^ k) = .ok (nodes b k) :=
    (treeSliceLen_ok_iff (by have := hb.two_le; omega)).2
      ⟨hb, rfl, rfl, k, hk, rfl, rfl, by rw [div_encodeAll, hn]⟩
  obtain ⟨s, fs', h1, h2, h4⟩ := LawfulStore.newFromSliceWithConfig_ok (S := S) fs (nodes b k) b ns
    (f 0) c hc (by omega)
  have h3 : Filled fs' s (nodes b k) (nodes b k) f := by
    refine ⟨h2.inv, by rw [h2.len_eq, hn], fun i hi => ?_⟩
    have := h2.vals i (by omega)
    simp only [getD_of_lt (show i < ns.length by omega)] at this
    rwa [hns] at this
  refine ⟨⟨s, b ^ k, nodes b k, merkleTreeRowCount (b ^ k) b, f (nodes b k - 1)⟩, fs', f, nodes b k,
    ?_, ⟨hr, h3, rfl, rowCount_pow hf, rfl⟩, h4⟩
  unfold BaseTree.fromTreeSliceWithConfig
  rw [M.bind_ok (a := nodes b k) (fs' := fs) (by rw [M.ofRes_run, h0]), M.bind_ok h1,
    M.bind_ok (a := f (nodes b k - 1)) (fs' := fs') (by rw [M.get_run, h3.last hp])]
  rfl

/-- The trees of `from_slices`, none of which disturbs another. -/
theorem collect_slices (hb : Arity b) (hk : 1 ≤ k) (hf : FloatRows.ExactAt b k)
    {ts : List (BaseTree S₀ E)} {ds : List Bytes}
    (h : List.Forall₂ (BaseTree.WrittenAs A b k fs₀) ts ds) (fs : FS) :
    ∃ (us : List (BaseTree S E)) (fs' : FS),
      collectM (fun d => BaseTree.fromTreeSlice b 0 0 d (b ^ k)) ds fs = (.ok us, fs') ∧
      List.Forall₂ (fun t u => ∃ f cap, BaseTree.CopyOf b k fs₀ fs' t u f cap) ts us ∧
      (∀ g, (∀ n, g = .temp n → n < fs.nextTemp) → fs'.file g = fs.file g) ∧
      fs.nextTemp ≤ fs'.nextTemp := by
  induction h generalizing fs with
  | nil => exact ⟨[], fs, rfl, .nil, fun _ _ => rfl, Nat.le_refl _⟩
  | @cons t d ts ds h _ ih =>
    obtain ⟨u, fs₁, f, cap, h1, h2, h3⟩ := fromTreeSlice_copy (S := S) hb hk hf h fs
    obtain ⟨us, fs', g1, g2, g3, g4⟩ := ih fs₁
    refine ⟨u :: us, fs', ?_, .cons ⟨f, cap, h2.frame fun g hg => g3 g ?_⟩ g2, fun g hg => ?_,
      h3.temp.trans g4⟩
    · rw [collectM, M.bind_ok h1, M.bind_ok g1]; rfl
    · intro n hn
      obtain ⟨m, hm, _, hlt⟩ := h3.own g hg
      rw [hn] at hm
      cases hm
      exact hlt
    · rw [g3 g (fun n hn => lt_of_lt_of_le (hg n hn) h3.temp)]
      refine h3.same g fun ho => ?_
      obtain ⟨m, hm, hge, _⟩ := h3.own g ho
      exact absurd (hg m hm) (by omega)

/-- The trees of `from_slices_with_configs`. -/
theorem collect_slices_configs (hb : Arity b) (hk : 1 ≤ k) (hf : FloatRows.ExactAt b k)
    (cs : List StoreConfig) (hcs : (cs.map StoreConfig.file).Nodup)
    {ts : List (BaseTree S₀ E)} {ds : List Bytes}
    (h : List.Forall₂ (BaseTree.WrittenAs A b k fs₀) ts ds) (n : Nat) (hn : n + ds.length ≤ cs.length)
    (fs : FS) (hfree : ∀ c ∈ cs.drop n, fs.file c.file = none) :
    ∃ (us : List (BaseTree S E)) (fs' : FS),
      collectM (fun (d : Bytes × Nat) => do
        let c ← M.ofRes (idxP cs d.2)
        BaseTree.fromTreeSliceWithConfig b 0 0 d.1 (b ^ k) c) (ds.zipIdx n) fs = (.ok us, fs') ∧
      List.Forall₂ (fun t u => ∃ f cap, BaseTree.CopyOf b k fs₀ fs' t u f cap) ts us ∧
      (∀ g, (∀ c ∈ cs.drop n, g ≠ c.file) → fs'.file g = fs.file g) := by
  induction h generalizing fs n with
  | nil => exact ⟨[], fs, rfl, .nil, fun _ _ => rfl⟩
  | @cons t d ts ds h _ ih =>
    have hlt : n < cs.length := by simp at hn; omega
    have hdrop : cs.drop n = cs[n] :: cs.drop (n + 1) := List.drop_eq_getElem_cons hlt
    have hhead : cs[n] ∈ cs.drop n := by rw [hdrop]; exact List.mem_cons_self
    have htail : ∀ c ∈ cs.drop (n + 1), c ∈ cs.drop n := fun c hc => by
      rw [hdrop]; exact List.mem_cons_of_mem _ hc
    have hne : ∀ c ∈ cs.drop (n + 1), c.file ≠ cs[n].file := by
      intro c hc he
      have : ((cs.drop n).map StoreConfig.file).Nodup := by
        rw [List.map_drop]; exact hcs.sublist (List.drop_sublist _ _)
      rw [hdrop, List.map_cons, List.nodup_cons] at this
      exact this.1 (List.mem_map.2 ⟨c, hc, he⟩)
    obtain ⟨u, fs₁, f, cap, h1, h2, h3⟩ := fromTreeSliceWithConfig_copy (S := S) hb hk hf h fs
      (hfree cs[n] hhead)
    have hsame : ∀ g, g ≠ cs[n].file → fs₁.file g = fs.file g := fun g hg =>
      h3.same g fun ho => hg (h3.own g ho)
    obtain ⟨us, fs', g1, g2, g3⟩ := ih (n + 1) (by simp at hn; omega) fs₁ (fun c hc => by
      rw [hsame _ (hne c hc)]
      exact hfree c (htail c hc))
    refine ⟨u :: us, fs', ?_, .cons ⟨f, cap, h2.frame fun g hg => g3 g ?_⟩ g2, fun g hg => ?_⟩
    · rw [List.zipIdx_cons, collectM, M.bind_ok (a := u) (fs' := fs₁) (by
        rw [M.bind_ok (a := cs[n]) (fs' := fs) (by rw [M.ofRes_run, idxP_ok hlt])]
        exact h1), M.bind_ok g1]; rfl
    · intro c hc he
      exact hne c hc (he.symm.trans (h3.own g hg))
    · rw [g3 g (fun c hc => hg c (htail c hc))]
      exact hsame g (hg cs[n] hhead)

end slices

section pure
variable {α β γ : Type}

/-- Collecting without touching the file system. -/
theorem collectM_exists {f : α → M β} {fs : FS} {R : γ → α → Prop} {Q : γ → β → Prop}
    (hf : ∀ x y, R x y → ∃ z, f y fs = (.ok z, fs) ∧ Q x z) {xs : List γ} {ys : List α}
    (h : List.Forall₂ R xs ys) :
    ∃ zs, collectM f ys fs = (.ok zs, fs) ∧ List.Forall₂ Q xs zs := by
  induction h with
  | nil => exact ⟨[], rfl, .nil⟩
  | @cons x y _ _ hxy _ ih =>
    obtain ⟨z, h1, h2⟩ := hf _ _ hxy
    obtain ⟨zs, g1, g2⟩ := ih
    exact ⟨z :: zs, by rw [collectM, M.bind_ok h1, M.bind_ok g1]; rfl, .cons h2 g2⟩

end pure

section opened
variable {S₀ E : Type} [Element E] [LawfulElement E] [FloatRows] [StoreOps S₀ E] {A : Alg E}
  {b k : Nat} {fs₀ fs : FS}

/-- A tree over a store with the nodes of `t`. -/
theorem fromDataStore_copy {S : Type} [Store S E] (hb : Arity b) (hk : 1 ≤ k)
    (hf : FloatRows.ExactAt b k) {t : BaseTree S₀ E} {f : Nat → E} (ht : t.Reads fs₀ b k f) {s : S}
    (hlen : StoreOps.len (E := E) s = nodes b k)
    (hread : ∀ i, i < nodes b k → StoreOps.readAt fs s i = .ok (f i)) :
    ∃ u, BaseTree.fromDataStore b 0 0 s (b ^ k) fs = .ok u ∧ u.store = s ∧
      BaseTree.SameIn b fs₀ fs t u := by
  have hp := nodes_pos b k
  have hlast : StoreOps.last fs s = .ok (f (nodes b k - 1)) := by
    unfold StoreOps.last
    rw [hlen, subP_ok hp, Res.ok_bind]
    exact hread _ (by omega)
  exact ⟨_, BaseTree.fromDataStore_run hb hk hf hlen hlast, rfl,
    ht.sameIn hb hk ⟨rfl, hlen, rfl, hread, rfl⟩⟩

theorem fileHolds_encodeAll {g : FileId} {ns : List E} (hfile : fs.file g = some (encodeAll ns))
    {i : Nat} (hi : i < ns.length) : FileHolds fs g i ns[i] :=
  ⟨_, hfile, by rw [length_encodeAll]; exact Nat.mul_le_mul_right _ hi, by rw [region_encodeAll _ _ hi]⟩

/-- Opening a file of the right length as a tree. -/
theorem disk_opens (hb : Arity b) (hk : 1 ≤ k) (hf : FloatRows.ExactAt b k) {ns : List E}
    (hn : ns.length = nodes b k) {f : Nat → E} (hns : ∀ i (h : i < ns.length), ns[i] = f i)
    {c : StoreConfig} (hc : fs.file c.file = some (encodeAll ns)) :
    ∃ (s : DiskStore E) (u : BaseTree (DiskStore E) E),
      Store.newWithConfig (nodes b k) b c fs = (.ok s, fs) ∧
      BaseTree.fromDataStore b 0 0 s (b ^ k) fs = .ok u ∧ u.Reads fs b k f := by
  have hp := nodes_pos b k
  have hl : (encodeAll ns).length = nodes b k * Element.byteLen E := by rw [length_encodeAll, hn]
  have hread : ∀ i, i < nodes b k → StoreOps.readAt fs
      (⟨nodes b k, c.file, true, nodes b k * Element.byteLen E⟩ : DiskStore E) i = .ok (f i) :=
    fun i hi => by
      rw [← hns i (by omega)]
      exact DiskStore.readAt_eq hi (fileHolds_encodeAll hc (by omega))
  refine ⟨_, _, (DiskStore.newWithConfig_existing hc).trans (DiskStore.newFromDisk_run hc hl),
    BaseTree.fromDataStore_run hb hk hf (by rfl) (r := f (nodes b k - 1)) ?_,
    ⟨rfl, rfl, rfl, hread, rfl⟩⟩
  unfold StoreOps.last
  rw [show StoreOps.len (E := E) (⟨nodes b k, c.file, true, nodes b k * Element.byteLen E⟩ : DiskStore E)
    = nodes b k from rfl, subP_ok hp, Res.ok_bind]
  exact hread _ (by omega)

theorem mmap_opens (hb : Arity b) (hk : 1 ≤ k) (hf : FloatRows.ExactAt b k) {ns : List E}
    (hn : ns.length = nodes b k) {f : Nat → E} (hns : ∀ i (h : i < ns.length), ns[i] = f i)
    {c : StoreConfig} (hc : fs.file c.file = some (encodeAll ns)) :
    ∃ (s : MmapStore E) (u : BaseTree (MmapStore E) E),
      Store.newWithConfig (nodes b k) b c fs = (.ok s, fs) ∧
      BaseTree.fromDataStore b 0 0 s (b ^ k) fs = .ok u ∧ u.Reads fs b k f := by
  have hp := nodes_pos b k
  have hl : (encodeAll ns).length = nodes b k * Element.byteLen E := by rw [length_encodeAll, hn]
  have hinv : Inv fs (⟨some (encodeAll ns).length, c.file, nodes b k⟩ : MmapStore E) (nodes b k) :=
    ⟨_, hc, rfl, hl⟩
  have hread : ∀ i, i < nodes b k → StoreOps.readAt fs
      (⟨some (encodeAll ns).length, c.file, nodes b k⟩ : MmapStore E) i = .ok (f i) :=
    fun i hi => by
      rw [← hns i (by omega)]
      exact LawfulRead.readAt_ok hinv hi (fileHolds_encodeAll hc (by omega))
  refine ⟨_, _, (MmapStore.newWithConfig_existing hc).trans (MmapStore.newFromDisk_run hc hl),
    BaseTree.fromDataStore_run hb hk hf (by rfl) (r := f (nodes b k - 1)) ?_,
    ⟨rfl, rfl, rfl, hread, rfl⟩⟩
  unfold StoreOps.last
  rw [show StoreOps.len (E := E) (⟨some (encodeAll ns).length, c.file, nodes b k⟩ : MmapStore E)
    = nodes b k from rfl, subP_ok hp, Res.ok_bind]
  exact hread _ (by omega)

variable {S : Type} [Store S E]

/-- The store a configuration opens holds the tree `t`. -/
def OpensAs (S : Type) [Store S E] (b k : Nat) (fs₀ fs : FS) (t : BaseTree S₀ E) (c : StoreConfig) :
    Prop :=
  ∃ (s : S) (u : BaseTree S E), Store.newWithConfig (nodes b k) b c fs = (.ok s, fs) ∧
    BaseTree.fromDataStore b 0 0 s (b ^ k) fs = .ok u ∧ BaseTree.SameIn b fs₀ fs t u

theorem opensAs_disk (hb : Arity b) (hk : 1 ≤ k) (hf : FloatRows.ExactAt b k) {t : BaseTree S₀ E}
    {d : Bytes} (ht : t.WrittenAs A b k fs₀ d) {c : StoreConfig} (hc : fs.file c.file = some d) :
    OpensAs (DiskStore E) b k fs₀ fs t c := by
  obtain ⟨ns, f, rfl, hn, hns, hr⟩ := ht.reads
  obtain ⟨s, u, h1, h2, h3⟩ := disk_opens hb hk hf hn hns hc
  exact ⟨s, u, h1, h2, hr.sameIn hb hk h3⟩

theorem opensAs_mmap (hb : Arity b) (hk : 1 ≤ k) (hf : FloatRows.ExactAt b k) {t : BaseTree S₀ E}
    {d : Bytes} (ht : t.WrittenAs A b k fs₀ d) {c : StoreConfig} (hc : fs.file c.file = some d) :
    OpensAs (MmapStore E) b k fs₀ fs t c := by
  obtain ⟨ns, f, rfl, hn, hns, hr⟩ := ht.reads
  obtain ⟨s, u, h1, h2, h3⟩ := mmap_opens hb hk hf hn hns hc
  exact ⟨s, u, h1, h2, hr.sameIn hb hk h3⟩

theorem fromStoreConfigs_alike (hb : Arity b) (hk : 1 ≤ k) {ts : List (BaseTree S₀ E)}
    {cs : List StoreConfig} (h : List.Forall₂ (OpensAs S b k fs₀ fs) ts cs)
    (hl : ∀ t ∈ ts, t.leafs ≤ t.length) (sub : Nat) :
    ∃ r : Res (Node (BaseTree S E) E), fromStoreConfigs A b sub (b ^ k) cs fs = (r, fs) ∧
      Res.Alike (Node.SameIn b sub fs₀ fs) (fromTrees A sub ts) r := by
  obtain ⟨us, h1, h2⟩ := collectM_exists (f := fun c => do
    let n ← M.ofRes (merkleTreeLen (b ^ k) b)
    let s : S ← Store.newWithConfig n b c
    M.get (BaseTree.fromDataStore b 0 0 s (b ^ k))) (Q := BaseTree.SameIn b fs₀ fs) (fun t c => by
      rintro ⟨s, u, g1, g2, g3⟩
      refine ⟨u, ?_, g3⟩
      rw [M.bind_ok (a := nodes b k) (fs' := fs) (by rw [M.ofRes_run, merkleTreeLen_pow hb hk]),
        M.bind_ok g1, M.get_run, g2]) h
  refine ⟨_, ?_, fromTrees_alike h2 hl sub⟩
  unfold fromStoreConfigs
  rw [M.bind_ok h1]
  rfl

theorem forall₂_take_drop {α β : Type} {R : α → β → Prop} {xs : List α} {ys : List β}
    (h : List.Forall₂ R xs ys) (n : Nat) :
    List.Forall₂ R (xs.take n) (ys.take n) ∧ List.Forall₂ R (xs.drop n) (ys.drop n) := by
  induction h generalizing n with
  | nil => simp
  | cons h hs ih =>
    cases n with
    | zero => exact ⟨by simp, by simpa using ⟨h, hs⟩⟩
    | succ n => simpa using ⟨⟨h, (ih n).1⟩, (ih n).2⟩

theorem configGroups_forall₂ {α β : Type} {R : α → β → Prop} {xs : List α} {ys : List β} (per : Nat)
    (h : List.Forall₂ R xs ys) (n : Nat) :
    List.Forall₂ (List.Forall₂ R) (configGroups per n xs) (configGroups per n ys) := by
  induction n generalizing xs ys with
  | zero => exact .nil
  | succ n ih => exact .cons (forall₂_take_drop h per).1 (ih (forall₂_take_drop h per).2)

theorem configGroups_append {α : Type} (per n : Nat) (xs ys : List α) (h : n * per ≤ xs.length) :
    configGroups per n (xs ++ ys) = configGroups per n xs := by
  induction n generalizing xs with
  | zero => rfl
  | succ n ih =>
    have hp : per ≤ xs.length := by rw [Nat.succ_mul] at h; omega
    rw [configGroups, configGroups, List.take_append_of_le_length hp,
      List.drop_append_of_le_length hp, ih _ (by rw [List.length_drop, Nat.succ_mul] at *; omega)]

theorem chunks_eq_groups {α : Type} {sub top : Nat} (hs : 0 < sub) {xs : List α}
    (h : xs.length = top * sub) : chunks sub xs = configGroups sub top xs := by
  rw [chunks_eq hs (m := top) (by rw [h, Nat.mul_comm])]
  refine List.ext_getElem (by rw [configGroups_length]; simp) fun i h1 h2 => ?_
  rw [configGroups_getElem, List.getElem_map, List.getElem_range, Nat.mul_comm]

theorem leafs_le_of_sizes {t : BaseTree S₀ E} (h1 : t.leafs = b ^ k)
    (h2 : t.length = nodes b k) : t.leafs ≤ t.length := by
  rw [h1, h2]; exact pow_le_nodes b k

theorem fromSubTreeStoreConfigs_same (hb : Arity b) (hk : 1 ≤ k) {ts : List (BaseTree S₀ E)}
    {cs : List StoreConfig} (h : List.Forall₂ (OpensAs S b k fs₀ fs) ts cs)
    (hl : ∀ t ∈ ts, t.leafs ≤ t.length) {sub top : Nat} {t : Node (Tree1 S₀ E) E}
    (ht : fromSubTreesAsTrees A sub top ts = .ok t) (extra : List StoreConfig)
    (hx : extra.length < top) :
    ∃ u : Node (Tree1 S E) E, fromSubTreeStoreConfigs A b sub top (b ^ k) (cs ++ extra) fs = (.ok u, fs) ∧
      Node.SameIn₂ b sub top fs₀ fs t u := by
  obtain ⟨hs, htop, _, _, hlen, _⟩ := fromSubTreesAsTrees_ok_iff.1 ht
  obtain ⟨ns, h1, h2⟩ := (flat_eq_nested A sub top ts t).1 ht
  have hcl : cs.length = top * sub := by rw [← h.length_eq]; exact hlen
  have hper : (cs ++ extra).length / top = sub := by
    rw [List.length_append, hcl, Nat.mul_add_div htop, Nat.div_eq_of_lt hx, Nat.add_zero]
  rw [chunks_eq_groups hs hlen, mapM_ok_iff] at h1
  have hgr := configGroups_forall₂ sub h top
  have hmem : ∀ g ∈ configGroups sub top ts, ∀ t ∈ g, t ∈ ts := by
    intro g hg t htg
    rw [← chunks_eq_groups hs hlen] at hg
    rw [← chunks_flatten hs ts]
    exact List.mem_flatten.2 ⟨g, hg, htg⟩
  -- relate the compound trees of the groups to the groups of configurations
  have hrel : List.Forall₂ (fun n cg => ∃ g : List (BaseTree S₀ E), fromTrees A sub g = .ok n ∧
      List.Forall₂ (OpensAs S b k fs₀ fs) g cg ∧ ∀ t ∈ g, t.leafs ≤ t.length) ns
      (configGroups sub top cs) := by
    have hmem' : ∀ g ∈ configGroups sub top ts, ∀ t ∈ g, t.leafs ≤ t.length :=
      fun g hg t htg => hl t (hmem g hg t htg)
    clear h2
    generalize configGroups sub top ts = gs at h1 hgr hmem'
    generalize configGroups sub top cs = cgs at hgr
    induction h1 generalizing cgs with
    | nil => cases hgr; exact .nil
    | @cons g n _ _ hgn _ ih =>
      cases hgr with
      | cons h3 h4 =>
        exact .cons ⟨g, hgn, h3, hmem' g (by simp)⟩ (ih (fun g' hg' => hmem' g' (by simp [hg'])) _ h4)
  obtain ⟨us, h3, h4⟩ := collectM_exists (fs := fs) (f := fun cs => do
    let t ← fromStoreConfigs (S := S) A b sub (b ^ k) cs
    pure (Tree1.sub t)) (Q := fun n (u : Tree1 S E) => ∃ m, u = .sub m ∧ Node.SameIn b sub fs₀ fs n m)
    (fun n cg => by
      rintro ⟨g, g1, g2, g3⟩
      obtain ⟨r, g4, g5⟩ := fromStoreConfigs_alike (A := A) hb hk g2 g3 sub
      rw [g1] at g5
      obtain ⟨m, rfl, g6⟩ := g5.ok_left
      exact ⟨.sub m, by rw [M.bind_ok g4]; rfl, m, rfl, g6⟩) hrel
  obtain ⟨ms, rfl, h5⟩ : ∃ ms : List (Node (BaseTree S E) E), us = ms.map .sub ∧
      List.Forall₂ (Node.SameIn b sub fs₀ fs) ns ms := by
    clear h3 h2 hrel h1
    induction h4 with
    | nil => exact ⟨[], rfl, .nil⟩
    | cons h _ ih =>
      obtain ⟨m, rfl, hm⟩ := h
      obtain ⟨ms, rfl, hms⟩ := ih
      exact ⟨m :: ms, rfl, .cons hm hms⟩
  have h6 := fromSubTrees_alike (A := A) h5 top
  rw [h2] at h6
  obtain ⟨u, h7, h8⟩ := h6.ok_left
  refine ⟨u, ?_, h8⟩
  unfold fromSubTreeStoreConfigs
  rw [M.bind_ok (a := sub) (fs' := fs) (by rw [M.ofRes_run, divP_ok htop, hper]),
    configGroups_append _ _ _ _ (by rw [hcl]), M.bind_ok h3, M.ofRes_run, h7]

/-- Another number of configurations. -/
theorem fromSubTreeStoreConfigs_wrong (hb : Arity b) (hk : 1 ≤ k) {ts : List (BaseTree S₀ E)}
    {cs : List StoreConfig} (h : List.Forall₂ (OpensAs S b k fs₀ fs) ts cs) {sub top : Nat}
    (htop : 0 < top) (hsub : sub = 0 ∨ cs.length / top ≠ sub) :
    ∃ m, fromSubTreeStoreConfigs (S := S) A b sub top (b ^ k) cs fs = (.error (.err m), fs) := by
  obtain ⟨n, rfl⟩ : ∃ n, top = n + 1 := ⟨top - 1, by omega⟩
  obtain ⟨us, h1, h2⟩ := collectM_exists (f := fun c => do
    let n ← M.ofRes (merkleTreeLen (b ^ k) b)
    let s : S ← Store.newWithConfig n b c
    M.get (BaseTree.fromDataStore b 0 0 s (b ^ k))) (Q := BaseTree.SameIn b fs₀ fs) (fun t c => by
      rintro ⟨s, u, g1, g2, g3⟩
      refine ⟨u, ?_, g3⟩
      rw [M.bind_ok (a := nodes b k) (fs' := fs) (by rw [M.ofRes_run, merkleTreeLen_pow hb hk]),
        M.bind_ok g1, M.get_run, g2]) (forall₂_take_drop h (cs.length / (n + 1))).1
  have hlen : us.length = cs.length / (n + 1) := by
    rw [← h2.length_eq, List.length_take, h.length_eq]
    exact Nat.min_eq_left (Nat.div_le_self _ _)
  have herr : ∃ m, fromTrees A sub us = .error (.err m) := by
    refine (Node.assemble_returns (A := A) (leafsOf := BaseTree.leafs) (lenOf := BaseTree.length)
      (rowsOf := BaseTree.rowCount) (rootOf := BaseTree.root) (arity := sub) (cs := us)).resolve_left ?_
    rintro ⟨t, ht⟩
    obtain ⟨c0, h0, h3, _⟩ := Node.assemble_ok_iff.1 ht
    rcases hsub with rfl | hsub
    · cases us with
      | nil => simp at h0
      | cons => simp at h3
    · omega
  obtain ⟨m, hm⟩ := herr
  refine ⟨m, ?_⟩
  unfold fromSubTreeStoreConfigs
  rw [M.bind_ok (a := cs.length / (n + 1)) (fs' := fs) (by rw [M.ofRes_run, divP_ok htop])]
  refine M.bind_error ?_
  rw [configGroups, collectM]
  refine M.bind_error (M.bind_error ?_)
  unfold fromStoreConfigs
  rw [M.bind_ok h1, M.ofRes_run, hm]

/-- A configuration whose file does not exist: the call fails after creating it. -/
theorem fromStoreConfigs_creates {fs₁ : FS} (hb : Arity b) (hk : 1 ≤ k) {c : StoreConfig} {s : S}
    (h : Store.newWithConfig (nodes b k) b c fs = (.ok s, fs₁)) (hlen : StoreOps.len (E := E) s = 0)
    (cs : List StoreConfig) (sub : Nat) :
    ∃ m, fromStoreConfigs (S := S) A b sub (b ^ k) (c :: cs) fs = (.error (.err m), fs₁) := by
  have hp := nodes_pos b k
  refine ⟨"Inconsistent tree data", ?_⟩
  unfold fromStoreConfigs
  refine M.bind_error ?_
  rw [collectM]
  refine M.bind_error ?_
  rw [M.bind_ok (a := nodes b k) (fs' := fs) (by rw [M.ofRes_run, merkleTreeLen_pow hb hk]), M.bind_ok h,
    M.get_run]
  unfold BaseTree.fromDataStore
  rw [ensure_true rfl, Res.ok_bind, ensure_true rfl, Res.ok_bind,
    ensure_true ((eq_nextPow2_iff _).2 (hb.pow_isPow2 k)).symm, Res.ok_bind,
    ensure_true ((eq_nextPow2_iff _).2 hb.pow2).symm, Res.ok_bind,
    merkleTreeLen_pow hb hk, Res.ok_bind, ensure_false (by omega)]
  rfl

/-- Opening trees of known sizes and roots. -/
theorem fromStoreConfigs_roots (hb : Arity b) (hk : 1 ≤ k) {rs : List E} {cs : List StoreConfig}
    (h : List.Forall₂ (fun r c => ∃ (s : S) (u : BaseTree S E),
      Store.newWithConfig (nodes b k) b c fs = (.ok s, fs) ∧
      BaseTree.fromDataStore b 0 0 s (b ^ k) fs = .ok u ∧ u.root = r ∧ u.length = nodes b k ∧
      u.rowCount = k + 1) rs cs) (hcs : cs ≠ []) :
    ∃ n, fromStoreConfigs (S := S) A b cs.length (b ^ k) cs fs = (.ok n, fs) ∧
      n.root = A.nodeHash rs 1 := by
  obtain ⟨us, h1, h2⟩ := collectM_exists (f := fun c => do
    let n ← M.ofRes (merkleTreeLen (b ^ k) b)
    let s : S ← Store.newWithConfig n b c
    M.get (BaseTree.fromDataStore b 0 0 s (b ^ k))) (Q := fun r u => u.root = r ∧ u.length = nodes b k ∧
      u.rowCount = k + 1) (fun r c => by
      rintro ⟨s, u, g1, g2, g3⟩
      refine ⟨u, ?_, g3⟩
      rw [M.bind_ok (a := nodes b k) (fs' := fs) (by rw [M.ofRes_run, merkleTreeLen_pow hb hk]),
        M.bind_ok g1, M.get_run, g2]) h
  have hlen : us.length = cs.length := by rw [← h2.length_eq, h.length_eq]
  have hroots : us.map BaseTree.root = rs := by
    clear h1 hlen h
    induction h2 with
    | nil => rfl
    | cons h _ ih => rw [List.map_cons, ih, h.1]
  have hall : ∀ u ∈ us, u.length = nodes b k ∧ u.rowCount = k + 1 := by
    intro u hu
    obtain ⟨r, _, hr⟩ := Forall₂.exists_left h2 hu
    exact hr.2
  obtain ⟨u0, us', rfl⟩ : ∃ u0 us', us = u0 :: us' := by
    cases us with
    | nil => exact absurd (List.length_eq_zero_iff.1 hlen.symm) hcs
    | cons u us => exact ⟨u, us, rfl⟩
  have hok := (Node.assemble_ok_iff (A := A) (leafsOf := BaseTree.leafs) (lenOf := BaseTree.length)
    (rowsOf := BaseTree.rowCount) (rootOf := BaseTree.root) (arity := cs.length) (cs := u0 :: us')).2
    ⟨u0, rfl, hlen, fun c hc => (hall c hc).2.trans (hall u0 (by simp)).2.symm,
      fun c hc => (hall c hc).1.trans (hall u0 (by simp)).1.symm, rfl⟩
  have hrun : fromStoreConfigs (S := S) A b cs.length (b ^ k) cs fs
      = (fromTrees A cs.length (u0 :: us'), fs) := by
    unfold fromStoreConfigs
    rw [M.bind_ok h1, M.ofRes_run]
  rw [fromTrees, hok] at hrun
  exact ⟨_, hrun, congrArg (A.nodeHash · 1) hroots⟩

theorem leafs_le_of_written {t : BaseTree S₀ E} {d : Bytes} (h : t.WrittenAs A b k fs₀ d) :
    t.leafs ≤ t.length := by
  obtain ⟨⟨_, ht⟩, _⟩ := h
  exact leafs_le_of_sizes ht.leafs ht.len

theorem leafs_le_of_all {ts : List (BaseTree S₀ E)} {α : Type} {ds : List α}
    {P : α → Bytes → Prop}
    (h : List.Forall₂ (fun t x => ∃ d, t.WrittenAs A b k fs₀ d ∧ P x d) ts ds) :
    ∀ t ∈ ts, t.leafs ≤ t.length := by
  intro t ht
  obtain ⟨_, _, d, hd, _⟩ := Forall₂.exists_right h ht
  exact leafs_le_of_written hd

/-- Zero elements fill a zero file. -/
theorem zeros_eq_encodeAll {z : E} (hz : Element.toBytes z = List.replicate (Element.byteLen E) 0)
    (n : Nat) : List.replicate (Element.byteLen E * n) 0 = encodeAll (List.replicate n z) := by
  induction n with
  | zero => rfl
  | succ n ih =>
    rw [List.replicate_succ]
    show _ = Element.toBytes z ++ encodeAll (List.replicate n z)
    rw [← ih, hz, List.replicate_append_replicate, Nat.mul_succ, Nat.add_comm]

end opened
end Verif
