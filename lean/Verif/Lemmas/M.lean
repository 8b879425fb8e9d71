import Verif.Model.Fs
import Verif.Lemmas.Res
/-! Running effectful computations. -/
namespace Verif
namespace M
variable {α β : Type}

@[simp] theorem pure_run (a : α) (fs : FS) : (pure a : M α) fs = (.ok a, fs) := rfl

theorem bind_run (x : M α) (f : α → M β) (fs : FS) : (x >>= f) fs =
    match x fs with
    | (.ok a, fs) => f a fs
    | (.error e, fs) => (.error e, fs) := rfl

theorem bind_ok {x : M α} {f : α → M β} {fs fs' : FS} {a : α} (h : x fs = (.ok a, fs')) :
    (x >>= f) fs = f a fs' := by rw [bind_run, h]

theorem bind_error {x : M α} {f : α → M β} {fs fs' : FS} {e : Fault} (h : x fs = (.error e, fs')) :
    (x >>= f) fs = (.error e, fs') := by rw [bind_run, h]

theorem bind_ok_iff {x : M α} {f : α → M β} {fs fs'' : FS} {b : β} :
    (x >>= f) fs = (.ok b, fs'') ↔ ∃ a fs', x fs = (.ok a, fs') ∧ f a fs' = (.ok b, fs'') := by
  rw [bind_run]
  split
  · rename_i a fs' h
    rw [h]
    constructor
    · intro h2; exact ⟨a, fs', rfl, h2⟩
    · rintro ⟨a', fs1, h1, h2⟩; cases h1; exact h2
  · rename_i e fs' h; rw [h]; simp

@[simp] theorem ofRes_ok (a : α) (fs : FS) : (ofRes (.ok a : Res α)) fs = (.ok a, fs) := rfl
@[simp] theorem ofRes_run (r : Res α) (fs : FS) : (ofRes r) fs = (r, fs) := rfl
@[simp] theorem get_run (f : FS → Res α) (fs : FS) : (get f) fs = (f fs, fs) := rfl
@[simp] theorem throw_run (e : Fault) (fs : FS) : (throw e : M α) fs = (.error e, fs) := rfl

end M

theorem mEnsure_true {c : Prop} [Decidable c] (h : c) (m : String) (fs : FS) :
    mEnsure c m fs = (.ok (), fs) := by simp [mEnsure, ensure_true h]

theorem mEnsure_false {c : Prop} [Decidable c] (h : ¬ c) (m : String) (fs : FS) :
    mEnsure c m fs = (.error (.err m), fs) := by simp [mEnsure, ensure_false h]

theorem FS.set_self (fs : FS) (f : FileId) (c : Option Bytes) : (fs.set f c).file f = c := by
  simp [FS.set]
theorem FS.set_other (fs : FS) {f g : FileId} (h : g ≠ f) (c : Option Bytes) :
    (fs.set f c).file g = fs.file g := by simp [FS.set, h]
@[simp] theorem FS.set_nextTemp (fs : FS) (f : FileId) (c : Option Bytes) :
    (fs.set f c).nextTemp = fs.nextTemp := rfl

theorem FS.contents_ok {fs : FS} {f : FileId} {bs : Bytes} (h : fs.file f = some bs) :
    fs.contents f = .ok bs := by simp [FS.contents, h]

theorem FS.contents_ok_iff {fs : FS} {f : FileId} {bs : Bytes} :
    fs.contents f = .ok bs ↔ fs.file f = some bs := by
  unfold FS.contents; split <;> simp_all

end Verif
