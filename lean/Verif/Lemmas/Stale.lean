import Verif.Lemmas.Compacted
import Verif.Lemmas.LevelProof
/-! Reading through a `DiskStore` handle that is longer than its file. -/
set_option linter.unusedSectionVars false
namespace Verif
open Spec StoreOps

section
variable {E : Type} [Element E] [LawfulElement E]

namespace DiskStore
variable {s : DiskStore E} {fs : FS} {es : List E}

theorem readAt_present (h : fs.file s.file = some (encodeAll es)) (hl : es.length ≤ s.len) {i : Nat}
    (hi : i < es.length) : (StoreOps.readAt fs s i : Res E) = .ok es[i] := by
  show DiskStore.readAt fs s i = _
  have hp := LawfulElement.byteLen_pos (E := E)
  have h1 : i * Element.byteLen E < s.len * Element.byteLen E := (Nat.mul_lt_mul_right hp).2 (by omega)
  have h2 : i * Element.byteLen E + Element.byteLen E ≤ s.len * Element.byteLen E := by
    rw [← Nat.succ_mul]; exact Nat.mul_le_mul_right _ (by omega)
  unfold DiskStore.readAt checkRange storeReadRange
  dsimp only
  rw [ensure_true h1, Res.ok_bind, ensure_true h2, Res.ok_bind, subP_ok (by omega), Res.ok_bind,
    Nat.add_sub_cancel_left, readExactAt_element h hi, Res.ok_bind, fromSlice_toBytes]

theorem readAt_past (h : fs.file s.file = some (encodeAll es)) {i : Nat}
    (hi : es.length ≤ i) : Res.IsErr (StoreOps.readAt fs s i : Res E) := by
  show Res.IsErr (DiskStore.readAt fs s i)
  unfold DiskStore.readAt checkRange storeReadRange
  dsimp only
  by_cases h1 : i * Element.byteLen E < s.len * Element.byteLen E
  · rw [ensure_true h1, Res.ok_bind]
    by_cases h2 : i * Element.byteLen E + Element.byteLen E ≤ s.len * Element.byteLen E
    · obtain ⟨m, hm⟩ := readExactAt_run_past h (j := i) (n := 1) (by omega) (by omega)
      rw [Nat.one_mul] at hm
      rw [ensure_true h2, Res.ok_bind, subP_ok (by omega), Res.ok_bind, Nat.add_sub_cancel_left, hm]
      exact ⟨m, rfl⟩
    · rw [ensure_false h2]; exact ⟨_, rfl⟩
  · rw [ensure_false h1]; exact ⟨_, rfl⟩

theorem readRangeInto_present (h : fs.file s.file = some (encodeAll es)) (hl : es.length ≤ s.len) {a n : Nat}
    (hn : 0 < n) (ha : a + n ≤ es.length) {buf : Bytes} (hbuf : buf.length = n * Element.byteLen E) :
    StoreOps.readRangeInto (E := E) fs s a (a + n) buf = .ok (encodeAll ((es.drop a).take n)) := by
  show DiskStore.readRangeInto fs s a (a + n) buf = _
  have hp := LawfulElement.byteLen_pos (E := E)
  have h1 : a * Element.byteLen E < s.len * Element.byteLen E := (Nat.mul_lt_mul_right hp).2 (by omega)
  have h2 : (a + n) * Element.byteLen E ≤ s.len * Element.byteLen E := Nat.mul_le_mul_right _ (by omega)
  unfold DiskStore.readRangeInto checkRange storeReadInto
  dsimp only
  rw [ensure_true h1, Res.ok_bind, ensure_true h2, Res.ok_bind, hbuf, readExactAt_run h hn ha]
  rfl

theorem readRangeInto_past (h : fs.file s.file = some (encodeAll es)) {a n : Nat}
    (hn : 0 < n) (ha : es.length < a + n) {buf : Bytes} (hbuf : buf.length = n * Element.byteLen E) :
    Res.IsErr (StoreOps.readRangeInto (E := E) fs s a (a + n) buf) := by
  show Res.IsErr (DiskStore.readRangeInto fs s a (a + n) buf)
  unfold DiskStore.readRangeInto checkRange storeReadInto
  dsimp only
  by_cases h1 : a * Element.byteLen E < s.len * Element.byteLen E
  · rw [ensure_true h1, Res.ok_bind]
    by_cases h2 : (a + n) * Element.byteLen E ≤ s.len * Element.byteLen E
    · obtain ⟨m, hm⟩ := readExactAt_run_past h hn ha
      rw [ensure_true h2, Res.ok_bind, hbuf, hm, readContext_le (Nat.mul_le_mul_right _ (Nat.le_add_right a n))]
      exact ⟨m, rfl⟩
    · rw [ensure_false h2]; exact ⟨_, rfl⟩
  · rw [ensure_false h1]; exact ⟨_, rfl⟩

end DiskStore

variable [FloatRows] {A : Alg E} {b k : Nat} {leaves : List E} {f : Nat → E} {c : StoreConfig} {fs fs' : FS}
  {t t₂ : BaseTree (DiskStore E) E}

/-- What a successful compaction leaves in the file. -/
theorem BaseTree.IsFileTree.compacted_file (hb : Arity b) (hk : 1 ≤ k) (hf : FloatRows.ExactAt b k)
    (ht : t.IsFileTree A b k leaves f c fs) {version : Nat} {t' : BaseTree (DiskStore E) E}
    (h : t.compact b c version fs = (.ok true, t', fs')) :
    c.rowsToDiscard < k ∧ fs'.file c.file = some (compacted version b k c.rowsToDiscard leaves f) := by
  have hd : c.rowsToDiscard < k := by
    by_contra hd
    obtain ⟨m, hm⟩ := DiskStore.compactPlan_err hb hk hf (Nat.le_of_not_lt hd) (s := t.store) ht.len
    have h0 : t.compact b c version fs = (.error (.err m), t, fs) :=
      BaseTree.compact_of_store (by unfold DiskStore.compact; rw [hm])
    rw [h0] at h; simp at h
  obtain ⟨fs₁, g1, g2, -⟩ := DiskStore.compact_ok hb hk hf hd ht.len ht.size ht.layout ht.file version
  have h0 := BaseTree.compact_of_store (t := t) g1
  rw [h] at h0
  simp only [Prod.mk.injEq, true_and] at h0
  obtain ⟨-, rfl⟩ := h0
  exact ⟨hd, g2⟩

/-- A handle on the whole tree, over a file that holds the cached rows only. -/
theorem BaseTree.IsFileTree.readsOnly (hb : Arity b) (ht : t.IsFileTree A b k leaves f c fs) {d : Nat}
    (hd : d < k) (hfile : fs'.file c.file = some (encodeAll (cachedRows b k d f))) :
    t.ReadsOnly fs' b k (cachedRows b k d f) := by
  have hlt : (cachedRows b k d f).length < b ^ k := by
    rw [cachedRows_length]
    exact lt_of_lt_of_le (LevelCacheStore.nodes_lt_pow hb.two_le _)
      (Nat.pow_le_pow_right (by have := hb.two_le; omega) (by omega))
  have hfile' : fs'.file t.store.file = some (encodeAll (cachedRows b k d f)) := by rw [ht.handle, hfile]
  have hlen : t.store.len = nodes b k := ht.len
  have hpn := pow_le_nodes b k
  refine ⟨ht.leafs, ht.len, ht.rows, hlt, fun h1 => ?_, fun i hi => ?_, fun i hi => ?_,
    fun a n h0 ha buf hbuf => ?_, fun a n h0 _ ha buf hbuf => ?_⟩
  · rw [cachedRows_length, h1, show 1 - 1 - d = 0 by omega]
    exact Nat.le_refl _
  · exact DiskStore.readAt_present hfile' (by omega) hi
  · exact DiskStore.readAt_past hfile' hi
  · exact DiskStore.readRangeInto_present hfile' (by omega) h0 ha hbuf
  · exact DiskStore.readRangeInto_past hfile' h0 ha hbuf

/-- `compact` through a handle on the whole tree, with the rows to be copied past the end of the file. -/
theorem DiskStore.compact_stale (hb : Arity b) (hk : 1 ≤ k) (hf : FloatRows.ExactAt b k) {s : DiskStore E}
    (hl : s.len = nodes b k) (hs : s.storeSize = nodes b k * Element.byteLen E) (hh : s.file = c.file)
    {bs : Bytes} (hfile : fs.file c.file = some bs)
    (hbs : bs.length ≤ rowStart b k (c.rowsToDiscard + 1) * Element.byteLen E) (version : Nat) :
    ∃ msg, DiskStore.compact s b c version fs = (.error (.err msg), s, fs) := by
  have hp := LawfulElement.byteLen_pos (E := E)
  have hse : ({ s with file := c.file } : DiskStore E) = s := by rw [← hh]
  by_cases hd : c.rowsToDiscard < k
  · refine ⟨"Failed to copy all data", ?_⟩
    unfold DiskStore.compact
    rw [DiskStore.compactPlan_ok hb hk hf hd hl hs]
    dsimp only
    rw [hfile]
    dsimp only
    have hdrop : bs.drop (rowStart b k (c.rowsToDiscard + 1) * Element.byteLen E) = [] :=
      List.drop_eq_nil_of_le hbs
    have hcf : compactFile E c.file (version == 1) (b ^ k * Element.byteLen E)
        (nodes b (k - 1 - c.rowsToDiscard) * Element.byteLen E)
        (rowStart b k (c.rowsToDiscard + 1) * Element.byteLen E) fs
        = (.error (.err "Failed to copy all data"), fs) := by
      unfold compactFile
      rw [M.bind_ok (a := ()) (fs' := fs) (by
        unfold FS.openFile; rw [M.get_run, FS.contents_ok hfile]; rfl)]
      dsimp only
      rw [M.bind_ok (a := 0) (fs' := fs) (by
        unfold copyWithin
        rw [M.bind_ok (a := bs) (fs' := fs) (by rw [M.get_run, FS.contents_ok hfile])]
        rw [hdrop, if_neg (by simp), M.bind_ok (a := ()) (fs' := fs) (by
          unfold FS.writeAllAt; rw [FS.contents_ok hfile]; rfl)]
        rfl)]
      exact M.bind_error (mEnsure_false (by
        have := Nat.mul_pos (nodes_pos b (k - 1 - c.rowsToDiscard)) hp; omega) _ _)
    rw [hcf, hse]
  · obtain ⟨msg, hmsg⟩ := compactPlan_err (E := E) hb hk hf (c := c) (by omega) hl
    exact ⟨msg, by unfold DiskStore.compact; rw [hmsg]⟩

end
section
variable {E : Type} [Element E] [LawfulElement E]

/-- The loop of the cached proof meets a sibling that cannot be read, above the rows it takes from the
temporary tree. -/
theorem cachedProofLoop_dead_at {rd prd : Nat → Res E} {f g : Nat → E} {b k r q l : Nat} (hb : Arity b)
    (hlk : l < k) (hrl : r < l) (hrd : ∀ i, Res.Returns (rd i)) (hleaf : ∀ i, i < b ^ k → rd i = .ok (f i))
    (hprd : ∀ i, i < nodes b (r + 1) → prd i = .ok (g i))
    (hfg : ∀ l, l ≤ r + 1 → ∀ j, j < b ^ (r + 1 - l) →
      f (rowStart b k l + (q * b ^ (r + 1 - l) + j)) = g (rowStart b (r + 1) l + j)) :
    ∀ (n fuel j pb sw ss : Nat), n ≤ k → k - n ≤ l → n < fuel → j < b ^ n →
    (k - n ≤ r → pb = rowStart b (r + 1) (k - n) ∧ sw = b ^ (r + 1 - (k - n)) ∧
      ss = q * b ^ (r + 1 - (k - n)) ∧ j / b ^ (r + 1 - (k - n)) = q) →
    (∃ c, j / b ^ (l - (k - n)) / b * b ≤ c ∧ c < j / b ^ (l - (k - n)) / b * b + b ∧
      c ≠ j / b ^ (l - (k - n)) ∧ Res.IsErr (rd (rowStart b k l + c))) →
    Res.IsErr (BaseTree.cachedProofLoop rd prd b (nodes b k) (b ^ k) (rowStart b k (r + 1)) fuel
        (rowStart b k (k - n)) (b ^ n) pb sw ss j)
  | n, 0, _, _, _, _, _, _, hf, _, _, _ => by omega
  | 0, fuel + 1, j, _, _, _, _, _, _, _, _, _ => by omega
  | n + 1, fuel + 1, j, pb, sw, ss, hn, hnl, hf, hj, hp, hc => by
    have hb2 := hb.two_le
    have hj' : j / b < b ^ n := by
      rw [Nat.div_lt_iff_lt_mul (by omega), ← Nat.pow_succ]; exact hj
    obtain ⟨hlt, hrow⟩ := cached_row hb2 hn
    rw [BaseTree.cachedProofLoop, if_pos hlt]
    simp only []
    by_cases h0 : k - (n + 1) = l
    · rw [h0, Nat.sub_self, Nat.pow_zero, Nat.div_one] at hc
      obtain ⟨c, h1, h2, h3, h4⟩ := hc
      have hm0 := rowStart_mono (b := b) (k := k) (show r + 1 ≤ l by omega)
      rw [h0]
      obtain ⟨m, hm⟩ := siblings_err_of (rd := fun c =>
          if rowStart b k l + c < b ^ k ∨ rowStart b k l + c ≥ rowStart b k (r + 1)
          then rd (rowStart b k l + c)
          else do
            let p ← subP (pb + c) ss
            prd p) (fun i => by rw [if_pos (.inr (by omega))]; exact hrd _)
        (j := j) b (j / b * b) ⟨c, h1, h2, h3, by rw [if_pos (.inr (by omega))]; exact h4⟩
      rw [hm]; exact ⟨m, rfl⟩
    · have hs : Res.Returns (BaseTree.siblings (fun c =>
          if rowStart b k (k - (n + 1)) + c < b ^ k ∨ rowStart b k (k - (n + 1)) + c ≥ rowStart b k (r + 1)
          then rd (rowStart b k (k - (n + 1)) + c)
          else do
            let p ← subP (pb + c) ss
            prd p) j b (j / b * b)) := by
        by_cases hl : k - (n + 1) ≤ r
        · refine .inl ⟨_, cached_siblings (f := f) (g := g) (q := q) hb hprd hfg hn hj (fun i h1 h2 h3 => ?_)
            (fun h => ?_)⟩
          · rcases h3 with h3 | h3
            · exact hleaf i h3
            · have := rowStart_mono (b := b) (k := k) (show k - n ≤ r + 1 by omega)
              omega
          · obtain ⟨h1, -, h3, h4⟩ := hp h
            exact ⟨h1, h3, h4⟩
        · have hm0 := rowStart_mono (b := b) (k := k) (show r + 1 ≤ k - (n + 1) by omega)
          exact siblings_returns (fun i => by rw [if_pos (.inr (by omega))]; exact hrd _) _ _ _
      rcases hs with ⟨es, hs⟩ | ⟨m, hm⟩
      · rw [hs, Res.ok_bind]
        have hd : j / b / b ^ (l - (k - n)) = j / b ^ (l - (k - (n + 1))) := by
          rw [Nat.div_div_eq_div_mul, Nat.mul_comm, ← Nat.pow_succ]
          congr 2; omega
        obtain ⟨m, hm⟩ := cachedProofLoop_dead_at hb hlk hrl hrd hleaf hprd hfg n fuel (j / b) (pb + sw)
          (sw / b) (ss / b) (by omega) (by omega) (by omega) hj' (cached_state (by omega) hn hp)
          (by rw [hd]; exact hc)
        rw [hrow, hb.shiftRight, hb.shiftRight, hb.shiftRight, hb.shiftRight, Nat.pow_succ,
          Nat.mul_div_cancel _ (by omega), hm]
        exact ⟨m, rfl⟩
      · rw [hm]; exact ⟨m, rfl⟩

/-- `gen_cached_proof` on a tree whose leaves can be read, when a sibling above the rows it takes as
discarded cannot. -/
theorem BaseTree.ReadsCached.genCachedProof_dead {S : Type} [StoreOps S E] [FloatRows] {A : Alg E}
    {b k d l : Nat} (hb : Arity b) (hb' : b ≤ buildChunkNodes) {rows : Option Nat}
    (hf : FloatRows.ExactAt b k)
    (hf' : FloatRows.ExactAt b (k - 1 - BaseTree.effectiveDiscard (b ^ k) b rows)) {σ : Sched}
    (hσ : σ.Valid) {fs : FS} {t : BaseTree S E} {leaves : List E} {f : Nat → E}
    (hl : IsLayout A.nodeHash b k leaves f) (h : t.ReadsCached fs b k d leaves f)
    (hret : ∀ i, Res.Returns (t.readAt fs i)) (hlk : l < k)
    (hrl : BaseTree.effectiveDiscard (b ^ k) b rows < l) {i : Nat} (hi : i < b ^ k)
    (hc : ∃ c, i / b ^ l / b * b ≤ c ∧ c < i / b ^ l / b * b + b ∧ c ≠ i / b ^ l ∧
      Res.IsErr (t.readAt fs (rowStart b k l + c))) :
    ∃ m, t.genCachedProof A b 0 0 σ i rows fs = (.error (.err m), fs) := by
  have hb2 := hb.two_le
  obtain ⟨pt, g, hp, hfg, e⟩ := genCachedProof_loop hb hb' (by omega) hf hf' hσ hl h rfl hi
  set r := BaseTree.effectiveDiscard (b ^ k) b rows
  have hpn := pow_le_nodes b k
  have hkl : k < b ^ k := Nat.lt_pow_self (by omega)
  obtain ⟨m, h2⟩ := cachedProofLoop_dead_at (rd := t.readAt fs) (prd := pt.readAt fs)
    (q := i / b ^ (r + 1)) hb hlk hrl hret (fun i hi => h.reads i (.inl hi) (by omega)) hp hfg
    k (nodes b k + b ^ k + 2) i 0 (b ^ (r + 1)) (i / b ^ (r + 1) * b ^ (r + 1)) (Nat.le_refl _)
    (by omega) (by omega) hi (by intro _; simp [rowStart]) (by rw [Nat.sub_self, Nat.sub_zero]; exact hc)
  simp only [Nat.sub_self] at h2
  have h3 : rowStart b k 0 = 0 := rfl
  rw [h3] at h2
  exact ⟨m, by rw [e, h2]; rfl⟩

/-- A sibling right below the root that lies past the end of a compacted file of version 1. -/
theorem stale_sibling {b k d i : Nat} (hb : 2 ≤ b) (hk : 2 ≤ k) (hd : 1 ≤ d) (hne : ¬ (b = 2 ∧ k = 2))
    (hi : i < b ^ k) :
    ∃ x, i / b ^ (k - 1) / b * b ≤ x ∧ x < i / b ^ (k - 1) / b * b + b ∧ x ≠ i / b ^ (k - 1) ∧
      b ^ k + nodes b (k - 1 - d) ≤ rowStart b k (k - 1) + x := by
  have hq : i / b ^ (k - 1) < b := by
    rw [Nat.div_lt_iff_lt_mul (Nat.pow_pos (by omega)), ← Nat.pow_succ']
    rwa [show (k - 1).succ = k by omega]
  rw [Nat.div_eq_of_lt hq, Nat.zero_mul, Nat.zero_add]
  have hnm := nodes_mono b (show k - 1 - d ≤ k - 2 by omega)
  have hrs2 : rowStart b k 2 = b ^ k + b ^ (k - 1) := by simp [rowStart]
  rcases Nat.lt_or_ge k 3 with hk3 | hk3
  · obtain rfl : k = 2 := by omega
    have hrs : rowStart b 2 1 = b ^ 2 := by simp [rowStart]
    have hnn : nodes b (1 - d) = 1 := by rw [show 1 - d = 0 by omega]; rfl
    have hb3 : 3 ≤ b := by omega
    simp only [show 2 - 1 = 1 by omega] at hq hrs2 ⊢
    rw [hrs, hnn]
    by_cases h2 : i / b ^ 1 = 1
    · exact ⟨2, by omega, by omega, by omega, by omega⟩
    · exact ⟨1, by omega, by omega, by omega, by omega⟩
  · have h3 := rowStart_mono (b := b) (k := k) (show 2 ≤ k - 1 by omega)
    have h4 := LevelCacheStore.nodes_lt_pow hb (k - 2)
    rw [show k - 2 + 1 = k - 1 by omega] at h4
    by_cases h2 : i / b ^ (k - 1) = 0
    · exact ⟨1, by omega, by omega, by omega, by omega⟩
    · exact ⟨0, by omega, by omega, by omega, by omega⟩

/-- A handle on the whole tree, over a file compacted to version 1: the leaves can be read. -/
theorem BaseTree.IsFileTree.readsLeaves [FloatRows] {A : Alg E} {b k : Nat} {leaves : List E} {f : Nat → E}
    {c : StoreConfig} {fs fs' : FS} {t t₂ t' : BaseTree (DiskStore E) E} (hb : Arity b) (hk : 1 ≤ k)
    (hf : FloatRows.ExactAt b k) (ht₂ : t₂.IsFileTree A b k leaves f c fs)
    (ht : t.IsFileTree A b k leaves f c fs)
    (h : t.compact b c 1 fs = (.ok true, t', fs')) : t₂.ReadsCached fs' b k k leaves f := by
  obtain ⟨hd, hfile⟩ := ht.compacted_file hb hk hf h
  rw [compacted, if_pos rfl, ← ht₂.handle] at hfile
  have hn : (leaves ++ cachedRows b k c.rowsToDiscard f).length
      = b ^ k + nodes b (k - 1 - c.rowsToDiscard) := by
    rw [List.length_append, cachedRows_length, ht.layout.count]
  have hle : (leaves ++ cachedRows b k c.rowsToDiscard f).length ≤ t₂.store.len := by
    have h1 : t₂.store.len = nodes b k := ht₂.len
    have h2 := LevelCacheStore.rowStart_cache (b := b) hd
    have h3 := pow_le_rowStart b k c.rowsToDiscard
    omega
  have hc := ht.layout.count
  refine ⟨ht₂.leafs, ht₂.len, ht₂.rows, fun i hi hin => ?_, fun a n h0 ha buf hbuf => ?_, ht₂.root⟩
  · have h4 : rowStart b k (k + 1) = nodes b k := by
      have := rowStart_top b k
      simpa [rowStart] using this
    have hi' : i < leaves.length := by omega
    refine (DiskStore.readAt_present hfile hle (by omega)).trans ?_
    rw [List.getElem_append_left hi', ht.layout.leaf i hi']
  · refine ⟨_, DiskStore.readRangeInto_present hfile hle h0 (by omega) hbuf, ?_, ?_⟩
    · rw [length_encodeAll, List.length_take, List.length_drop, Nat.min_eq_left (by omega)]
    · rw [List.drop_append_of_le_length (by omega), List.take_append_of_le_length (by
        rw [List.length_drop]; omega)]
      exact decodeAll_encodeAll _

end
end Verif
