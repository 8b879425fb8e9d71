import Verif.Lemmas.Compact
import Verif.Lemmas.CacheSize
import Verif.Lemmas.TreeSlice
import Verif.Spec.Crash
/-! Whether `compact` ends (for C91). -/
namespace Verif
open Spec

/-! ### Computations that end -/

/-- The computation ends, with a value, an error or a panic. -/
def Res.Ends {α : Type} (r : Res α) : Prop := r ≠ .error .diverge

namespace Res.Ends
variable {α β : Type}

theorem ok (a : α) : Res.Ends (.ok a : Res α) := nofun
theorem of_returns {r : Res α} (h : r.Returns) : r.Ends := by
  rcases h with ⟨a, rfl⟩ | ⟨m, rfl⟩ <;> nofun
theorem bind {x : Res α} {g : α → Res β} (hx : x.Ends) (hg : ∀ a, x = .ok a → (g a).Ends) :
    (x >>= g).Ends := by
  cases x with
  | ok a => exact hg a rfl
  | error e => exact fun h => hx (congrArg Except.error (Except.error.inj h))
theorem ensure (c : Prop) [Decidable c] (m : String) : (Verif.ensure c m).Ends := by
  unfold Verif.ensure
  split <;> nofun
theorem subP (a b : Nat) : (Verif.subP a b).Ends := by
  unfold Verif.subP
  split <;> nofun

end Res.Ends

theorem cacheSize_loop_ends (shift : Nat) : ∀ n cur size, (merkleTreeCacheSize.loop shift n cur size).Ends
  | 0, _, _ => .ok _
  | n + 1, _, _ => .bind (.subP _ _) fun _ _ => cacheSize_loop_ends shift n _ _

theorem cacheSize_ends [FloatRows] (leafs b d : Nat) : (merkleTreeCacheSize leafs b d).Ends :=
  .bind (.of_returns (merkleTreeLen_returns _ _)) fun _ _ => .bind (.subP _ _) fun _ _ =>
    .bind (.ensure _ _) fun _ _ => .bind (.subP _ _) fun _ _ => cacheSize_loop_ends _ _ _ _

theorem DiskStore.compactPlan_ends {E : Type} [Element E] [FloatRows] (s : DiskStore E) (b : Nat)
    (c : StoreConfig) : (s.compactPlan b c).Ends :=
  .bind (.of_returns (merkleTreeLeafs_returns _ _)) fun _ _ => .bind (cacheSize_ends _ _ _) fun _ _ =>
    .bind (.ensure _ _) fun _ _ => .bind (.subP _ _) fun _ _ => .ok _

/-! ### The copy -/

theorem patch_length_ge (bs : Bytes) (off : Nat) (data : Bytes) :
    off + data.length ≤ (patch bs off data).length := by
  unfold patch
  simp only [List.length_append, List.length_take, List.length_replicate]
  omega

theorem CopyState.left {bs : Bytes} {src dst p : Nat} {cur : Bytes} (h1 : src < dst) (h2 : src < bs.length)
    (h : CopyState bs src dst p cur) : src + p < cur.length := by
  cases h with
  | start => exact h2
  | @block p cur n h hn =>
    have := patch_length_ge cur (dst + p) (region cur (src + p) n)
    rw [region_length] at this
    omega

/-- A copy to a higher position gets to any number of bytes. -/
theorem CopyState.exists_of_lt {bs : Bytes} {src dst : Nat} (h1 : src < dst) (h2 : src < bs.length) :
    ∀ n, ∃ cur, CopyState bs src dst n cur ∧ (0 < n → dst + n ≤ cur.length)
  | 0 => ⟨bs, .start, by omega⟩
  | n + 1 => by
    obtain ⟨cur, h, -⟩ := exists_of_lt h1 h2 n
    have hl := h.left h1 h2
    refine ⟨_, .block 1 h (by omega), fun _ => ?_⟩
    have := patch_length_ge cur (dst + n) (region cur (src + n) 1)
    rw [region_length] at this
    omega

section
variable {E : Type} [Element E]

theorem DiskStore.copyWithin_diverge_iff {f : FileId} {src dst : Nat} {fs : FS} :
    (copyWithin f src dst fs).1 = .error .diverge ↔
      ∃ bs, fs.file f = some bs ∧ src < dst ∧ src < bs.length := by
  cases hf : fs.file f with
  | none =>
    unfold copyWithin
    rw [M.bind_error (e := .err "No such file or directory") (fs' := fs) (by
      rw [M.get_run]; unfold FS.contents; rw [hf])]
    simp
  | some bs =>
    unfold copyWithin
    rw [M.bind_ok (a := bs) (fs' := fs) (by rw [M.get_run, FS.contents_ok hf])]
    split
    · rename_i h
      refine ⟨fun _ => ⟨bs, rfl, h.1, ?_⟩, fun _ => rfl⟩
      have := h.2
      rw [ne_eq, List.drop_eq_nil_iff] at this
      omega
    · rename_i h
      have hw : ∃ fs', FS.writeAllAt f dst (bs.drop src) fs = (.ok (), fs') := by
        unfold FS.writeAllAt
        rw [FS.contents_ok hf]
        dsimp only
        split <;> exact ⟨_, rfl⟩
      obtain ⟨fs', hw⟩ := hw
      rw [M.bind_ok hw]
      refine ⟨fun h' => absurd (show (Except.ok _ : Res Nat) = _ from h') nofun, ?_⟩
      rintro ⟨bs', h1, h2, h3⟩
      cases h1
      exact absurd ⟨h2, by rw [ne_eq, List.drop_eq_nil_iff]; omega⟩ h

theorem DiskStore.compactFile_diverge_iff {f : FileId} {v1 : Bool} {dw cs ca : Nat} {fs : FS} :
    (compactFile E f v1 dw cs ca fs).1 = .error .diverge ↔
      v1 = true ∧ ∃ bs, fs.file f = some bs ∧ ca < dw ∧ ca < bs.length := by
  cases hf : fs.file f with
  | none =>
    unfold compactFile
    rw [M.bind_error (e := .err "No such file or directory") (fs' := fs) (by
      unfold FS.openFile; rw [M.get_run]; unfold FS.contents; rw [hf]; rfl)]
    simp
  | some bs =>
    unfold compactFile
    rw [M.bind_ok (a := ()) (fs' := fs) (by
      unfold FS.openFile; rw [M.get_run, FS.contents_ok hf]; rfl)]
    dsimp only
    cases hc : copyWithin f ca (if v1 = true then dw else 0) fs with
    | mk r fs1 =>
      have hiff := copyWithin_diverge_iff (f := f) (src := ca) (dst := if v1 = true then dw else 0) (fs := fs)
      rw [hc, hf] at hiff
      dsimp only at hiff
      cases r with
      | error e =>
        rw [M.bind_error hc, hiff]
        cases v1 <;> simp
      | ok w =>
        rw [M.bind_ok hc]
        have hno : ¬ (v1 = true ∧ ∃ bs', some bs = some bs' ∧ ca < dw ∧ ca < bs'.length) := by
          rintro ⟨rfl, h⟩
          exact absurd (hiff.2 h) nofun
        refine ⟨fun h => absurd h ?_, fun h => absurd h hno⟩
        by_cases hw : w = cs
        · rw [M.bind_ok (mEnsure_true hw _ _)]
          generalize (if v1 = true then dw + cs else cs) = n
          cases hs : FS.setLen f n fs1 with
          | mk r2 fs2 =>
            cases r2 with
            | ok u => rw [M.bind_ok hs]; nofun
            | error e =>
              rw [M.bind_error hs]
              unfold FS.setLen FS.contents at hs
              intro h
              have h : e = .diverge := Except.error.inj h
              subst h
              split at hs
              · cases hs
              · rename_i h1
                split at h1
                · cases h1
                · cases h1; cases hs
        · rw [M.bind_error (mEnsure_false hw _ _)]
          nofun

end
end Verif
