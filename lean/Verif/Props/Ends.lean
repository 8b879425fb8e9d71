import Verif.Lemmas.Ends
import Verif.Lemmas.Stores64
import Verif.Model.LevelCache
import Verif.Spec.Toy
import Verif.Spec.Ideal
/-! Property C91: `compact` ends.  It copies the cached rows within the file, up to the end of the file
(src/store/disk.rs:238-261). -/
namespace Verif
open Spec

/-- Copying to a higher position of the same file does not end, whatever the blocks are: at any time there
are bytes left to read, and any number of bytes gets written.  (`CopyState` is the copy in blocks of any
size.) -/
theorem C91_copy_forever {bs : Bytes} {src dst : Nat} (h1 : src < dst) (h2 : src < bs.length) :
    (∀ p cur, CopyState bs src dst p cur → src + p < cur.length) ∧
    ∀ n, ∃ cur, CopyState bs src dst n cur ∧ (0 < n → dst + n ≤ cur.length) :=
  ⟨fun _ _ h => h.left h1 h2, CopyState.exists_of_lt h1 h2⟩

section
variable {E : Type} [Element E] [FloatRows] {s : DiskStore E} {b : Nat} {c : StoreConfig} {version : Nat} {fs : FS}

/-- **C91**, exactly: `compact` does not end if and only if version 1 is asked for and the cached rows
start below the end of the leaves, in a file that has bytes there. -/
theorem C91_ends_iff :
    (s.compact b c version fs).1 = .error .diverge ↔
      version = 1 ∧ ∃ dataWidth cacheSize cacheStart bs,
        s.compactPlan b c = .ok (dataWidth, cacheSize, cacheStart) ∧ fs.file c.file = some bs ∧
        cacheStart < dataWidth ∧ cacheStart < bs.length := by
  unfold DiskStore.compact
  cases hp : s.compactPlan b c with
  | error e =>
    refine ⟨fun h => absurd (hp.trans (congrArg Except.error (Except.error.inj h))) (s.compactPlan_ends b c), ?_⟩
    rintro ⟨-, _, _, _, _, h, -⟩
    cases h
  | ok x =>
    obtain ⟨dw, cs, ca⟩ := x
    dsimp only
    cases hf : fs.file c.file with
    | none => simp
    | some bs =>
      dsimp only
      have hiff := DiskStore.compactFile_diverge_iff (E := E) (f := c.file) (v1 := version == 1) (dw := dw) (cs := cs)
        (ca := ca) (fs := fs)
      rw [hf] at hiff
      have hr : (version = 1 ∧ ∃ dataWidth cacheSize cacheStart bs', (Except.ok (dw, cs, ca) : Res (Nat × Nat × Nat)) =
          .ok (dataWidth, cacheSize, cacheStart) ∧ some bs = some bs' ∧ cacheStart < dataWidth ∧
          cacheStart < bs'.length) ↔
          ((version == 1) = true ∧ ∃ bs', some bs = some bs' ∧ ca < dw ∧ ca < bs'.length) := by
        rw [beq_iff_eq]
        constructor
        · rintro ⟨h0, _, _, _, _, h1, h2, h3, h4⟩
          cases h1
          exact ⟨h0, _, h2, h3, h4⟩
        · rintro ⟨h0, bs', h2, h3, h4⟩
          exact ⟨h0, _, _, _, bs', rfl, h2, h3, h4⟩
      rw [hr, ← hiff]
      cases hx : DiskStore.compactFile E c.file (version == 1) dw cs ca fs with
      | mk r fs1 =>
        cases r with
        | error e => exact ⟨fun h => congrArg Except.error (Except.error.inj h), fun h => congrArg Except.error (Except.error.inj h)⟩
        | ok n =>
          dsimp only
          refine ⟨fun h => ?_, fun h => nomatch h⟩
          cases hl : fs1.fileLen c.file with
          | error e =>
            rw [hl] at h
            have he : e = .diverge := Except.error.inj h
            subst he
            unfold FS.fileLen FS.contents at hl
            split at hl <;> cases hl
          | ok m =>
            rw [hl] at h
            dsimp only at h
            split at h <;> cases h

/-- **C91**, where it holds.  If the file of the store has room for what the store holds (the writes of the
store check this, and a file that is opened has the length of the store), then `compact` ends except in one
case: version 1, arity 2, no rows to discard, a store one node short of a tree, and a file without room for
that node. -/
theorem C91_ends_partial (hb : Arity b) (hs : s.len * Element.byteLen E ≤ s.storeSize)
    (h : (s.compact b c version fs).1 = .error .diverge) :
    version = 1 ∧ b = 2 ∧ c.rowsToDiscard = 0 ∧ (∃ k, s.len + 1 = nodes 2 k) ∧
      s.storeSize < (s.len + 1) * Element.byteLen E := by
  obtain ⟨hv, dw, cs, ca, bs, h1, -, h2, -⟩ := C91_ends_iff.1 h
  unfold DiskStore.compactPlan at h1
  simp only [bind_ok_iff, ensure_ok_iff, exists_const] at h1
  obtain ⟨m, h3, z, h4, -, w, h5, h6⟩ := h1
  cases h6
  unfold subP at h5
  split at h5
  · cases h5
    obtain ⟨N, h7, h8⟩ := cacheSize_le h4
    obtain ⟨k, rfl, h9⟩ := (merkleTreeLeafs_ok_iff hb _ _).1 h3
    have hk1 : 1 ≤ k := by
      rcases Nat.eq_zero_or_pos k with rfl | h
      · unfold merkleTreeLen at h7
        rw [ensure_false (by have := hb.two_le; simp; omega)] at h7
        cases h7
      · exact h
    have hN : N = nodes b k := by
      rw [merkleTreeLen_pow hb hk1] at h7
      exact (Except.ok.inj h7).symm
    obtain ⟨-, h10, h11⟩ := merkleTreeCacheSize_low hb h7 h4
    have hlt : s.len * Element.byteLen E < (b ^ k + z) * Element.byteLen E := by
      rw [Nat.add_mul]; omega
    have hlt := Nat.lt_of_mul_lt_mul_right hlt
    rcases h9 with h9 | ⟨rfl, h9⟩
    · omega
    refine ⟨hv, rfl, ?_, ⟨k, h9⟩, ?_⟩
    · rcases Nat.eq_zero_or_pos c.rowsToDiscard with h0 | h0
      · exact h0
      · exfalso
        have hmono := lowRows_mono (n := 2 ^ k) (b := 2) (show 2 ≤ c.rowsToDiscard + 1 by omega)
        have h2k : lowRows (2 ^ k) 2 2 = 2 ^ k + 2 ^ k / 2 := by simp [lowRows]
        have : 0 < 2 ^ k / 2 := by
          obtain ⟨j, rfl⟩ : ∃ j, k = j + 1 := ⟨k - 1, by omega⟩
          have := Nat.two_pow_pos j
          rw [Nat.pow_succ]
          omega
        omega
    · have : (2 ^ k + z) * Element.byteLen E ≤ (s.len + 1) * Element.byteLen E :=
        Nat.mul_le_mul_right _ (by omega)
      rw [Nat.add_mul] at this
      omega
  · cases h5

/-- **C91** for trees: compacting a tree ends, with every configuration and version. -/
theorem C91_tree_partial (hb : Arity b) {A : Alg E} {k : Nat} {leaves : List E} {f : Nat → E} {c' : StoreConfig}
    {t : BaseTree (DiskStore E) E} (ht : t.IsFileTree A b k leaves f c' fs) :
    (t.store.compact b c version fs).1 ≠ .error .diverge := by
  intro h
  have hl : t.store.len = nodes b k := ht.len
  obtain ⟨-, rfl, -, ⟨j, hj⟩, -⟩ := C91_ends_partial hb (by rw [hl, ht.size]) h
  rw [hl, nodes_two, nodes_two] at hj
  have := Nat.two_pow_pos k
  have := Nat.two_pow_pos j
  omega

/-- **C91, refuted**: a file of `2^(k+1) - 2` nodes, that is a binary tree without its root, opens as a
`DiskStore`, and compacting it to version 1 without discarding rows does not end. -/
theorem C91_refuted [LawfulElement E] {k : Nat} (hk : 1 ≤ k) (hd : c.rowsToDiscard = 0) {bs : Bytes}
    (hfile : fs.file c.file = some bs) (hbs : bs.length = (nodes 2 k - 1) * Element.byteLen E) :
    ∃ s : DiskStore E, DiskStore.newFromDisk (nodes 2 k - 1) 2 c fs = (.ok s, fs) ∧
      (s.compact 2 c 1 fs).1 = .error .diverge := by
  have hp := LawfulElement.byteLen_pos (E := E)
  have hb : Arity 2 := ⟨1, Nat.le_refl _, rfl⟩
  refine ⟨⟨nodes 2 k - 1, c.file, true, (nodes 2 k - 1) * Element.byteLen E⟩, ?_, ?_⟩
  · unfold DiskStore.newFromDisk DiskStore.newFromDiskWithPath
    rw [M.bind_ok (pathExists_run _ _), hfile, M.bind_ok (mEnsure_true (by rfl) _ _),
      M.bind_ok (a := ()) (fs' := fs) (by unfold FS.openFile; rw [M.get_run, FS.contents_ok hfile]; rfl),
      M.bind_ok (a := bs.length) (fs' := fs) (by
        rw [M.get_run]; unfold FS.fileLen; rw [FS.contents_ok hfile]; rfl),
      M.bind_ok (mEnsure_true hbs _ _), hbs]
    rfl
  · have hz : nodes 2 k = nodes 2 (k - 1) + 2 ^ k := by
      obtain ⟨j, rfl⟩ : ∃ j, k = j + 1 := ⟨k - 1, by omega⟩
      rfl
    have h0 := nodes_pos 2 (k - 1)
    have h1 : 2 ≤ 2 ^ k := by
      obtain ⟨j, rfl⟩ : ∃ j, k = j + 1 := ⟨k - 1, by omega⟩
      have := Nat.two_pow_pos j
      rw [Nat.pow_succ]; omega
    refine C91_ends_iff.2 ⟨rfl, 2 ^ k * Element.byteLen E, nodes 2 (k - 1) * Element.byteLen E,
      (2 ^ k - 1) * Element.byteLen E, bs, ?_, hfile, Nat.mul_lt_mul_of_pos_right (by omega) hp, ?_⟩
    · unfold DiskStore.compactPlan
      dsimp only
      rw [(merkleTreeLeafs_ok_iff hb _ _).2 ⟨k, rfl, .inr ⟨rfl, by omega⟩⟩, Res.ok_bind,
        merkleTreeCacheSize_pow hb hk (fun h => absurd rfl h) (by omega), Res.ok_bind, hd, Nat.sub_zero,
        ensure_true ⟨Nat.mul_lt_mul_of_pos_right (by omega) hp, by have := Nat.mul_pos h0 hp; omega⟩,
        Res.ok_bind, subP_ok (Nat.mul_le_mul_right _ (by omega)), Res.ok_bind, ← Nat.sub_mul,
        show nodes 2 k - 1 - nodes 2 (k - 1) = 2 ^ k - 1 by omega]
    · rw [hbs]
      exact Nat.mul_lt_mul_of_pos_right (by omega) hp

/-- **C91**: the other copy, `front_truncate` of `LevelCacheStore` (src/store/level_cache.rs:604-632), goes to
the start of the file and always ends. -/
theorem C91_front_truncate (s : LevelCacheStore E) (c : StoreConfig) (n : Nat) (fs : FS) :
    (s.frontTruncate c n fs).1 ≠ .error .diverge := by
  intro h
  unfold LevelCacheStore.frontTruncate at h
  have hfl : ∀ (fs : FS) f, fs.fileLen f ≠ .error .diverge := by
    intro fs f hl
    unfold FS.fileLen FS.contents at hl
    split at hl <;> cases hl
  cases h1 : fs.fileLen s.file with
  | error e =>
    rw [M.bind_error (e := e) (fs' := fs) (by rw [M.get_run, h1])] at h
    exact hfl fs s.file (h1.trans (congrArg Except.error (Except.error.inj h)))
  | ok z =>
    rw [M.bind_ok (a := z) (fs' := fs) (by rw [M.get_run, h1])] at h
    by_cases h2 : z ≥ n * Element.byteLen E
    · rw [M.bind_ok (mEnsure_true h2 _ _)] at h
      cases h3 : fs.file c.file with
      | none =>
        rw [M.bind_error (e := .err "No such file or directory") (fs' := fs) (by
          unfold FS.openFile; rw [M.get_run]; unfold FS.contents; rw [h3]; rfl)] at h
        cases h
      | some bs =>
        rw [M.bind_ok (a := ()) (fs' := fs) (by
          unfold FS.openFile; rw [M.get_run, FS.contents_ok h3]; rfl)] at h
        obtain ⟨fs1, c1, -, c3, -⟩ : ∃ fs1, DiskStore.copyWithin c.file (n * Element.byteLen E) 0 fs =
            (.ok (bs.length - n * Element.byteLen E), fs1) ∧ True ∧ (∃ bs', fs1.file c.file = some bs') ∧ True := by
          unfold DiskStore.copyWithin
          rw [M.bind_ok (a := bs) (fs' := fs) (by rw [M.get_run, FS.contents_ok h3])]
          rw [if_neg (by omega)]
          by_cases hd : bs.drop (n * Element.byteLen E) = []
          · rw [hd, M.bind_ok (a := ()) (fs' := fs) (by unfold FS.writeAllAt; rw [FS.contents_ok h3]; rfl)]
            have := List.drop_eq_nil_iff.1 hd
            exact ⟨fs, by rw [Nat.sub_eq_zero_of_le this]; rfl, trivial, ⟨bs, h3⟩, trivial⟩
          · refine ⟨fs.set c.file (some (patch bs 0 (bs.drop (n * Element.byteLen E)))), ?_, trivial,
              ⟨_, FS.set_self _ _ _⟩, trivial⟩
            rw [M.bind_ok (a := ()) (fs' := _) (by
              unfold FS.writeAllAt; rw [FS.contents_ok h3]; exact if_neg hd), List.length_drop]
            rfl
        obtain ⟨bs', c3⟩ := c3
        rw [M.bind_ok c1] at h
        by_cases h4 : bs.length - n * Element.byteLen E = z - n * Element.byteLen E
        · rw [M.bind_ok (mEnsure_true h4 _ _), M.bind_ok (a := ()) (fs' := _) (by
            unfold FS.setLen; rw [FS.contents_ok c3])] at h
          cases h
        · rw [M.bind_error (mEnsure_false h4 _ _)] at h
          cases h
    · rw [M.bind_error (mEnsure_false h2 _ _)] at h
      cases h

end

/-! ### The hypotheses can be met -/
section examples
attribute [local instance] idealRows

-- `src < dst`: the copy of `[1, 2, 3]` from position 1 to position 2.
example : CopyState [1, 2, 3] 1 2 2 (patch [1, 2, 3] 2 [2, 3]) :=
  .block (cur := [1, 2, 3]) 2 .start (by decide)
-- A file of six nodes.
example : (DiskStore.compact (E := UInt8) ⟨6, .named "x", true, 6⟩ 2 ⟨"", "x", none, 0⟩ 1
    (FS.empty.set (StoreConfig.file ⟨"", "x", none, 0⟩) (some [1, 2, 3, 4, 5, 6]))).1 = .error .diverge := by
  decide +kernel
-- A whole tree ends.
example : (DiskStore.compact (E := UInt8) ⟨7, .named "x", true, 7⟩ 2 ⟨"", "x", none, 0⟩ 1
    (FS.empty.set (StoreConfig.file ⟨"", "x", none, 0⟩) (some [1, 2, 3, 4, 5, 6, 7]))).1 = .ok true := by
  decide +kernel

end examples
end Verif
