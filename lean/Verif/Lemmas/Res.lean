import Verif.Model.Res
/-! Small rewriting lemmas for `Res`. -/
namespace Verif

variable {α β : Type}

@[simp] theorem Res.ok_bind (a : α) (f : α → Res β) : ((Except.ok a : Res α) >>= f) = f a := rfl
@[simp] theorem Res.error_bind (e : Fault) (f : α → Res β) :
    ((Except.error e : Res α) >>= f) = Except.error e := rfl
@[simp] theorem Res.pure_eq (a : α) : (pure a : Res α) = Except.ok a := rfl
@[simp] theorem Res.map_ok (f : α → β) (a : α) :
    (f <$> (Except.ok a : Res α)) = Except.ok (f a) := rfl
@[simp] theorem Res.map_error (f : α → β) (e : Fault) :
    (f <$> (Except.error e : Res α)) = Except.error e := rfl

theorem ensure_true {c : Prop} [Decidable c] (h : c) (m : String) : ensure c m = .ok () := by
  simp [ensure, h]
theorem ensure_false {c : Prop} [Decidable c] (h : ¬ c) (m : String) :
    ensure c m = .error (.err m) := by simp [ensure, h]

theorem ensure_bind_ok {c : Prop} [Decidable c] {m : String} {f : Unit → Res α} {a : α} :
    (ensure c m >>= f) = .ok a ↔ c ∧ f () = .ok a := by
  by_cases h : c <;> simp [ensure, h]

theorem bind_ok_iff {x : Res α} {f : α → Res β} {b : β} :
    (x >>= f) = .ok b ↔ ∃ a, x = .ok a ∧ f a = .ok b := by
  cases x <;> simp

theorem ensure_ok_iff {c : Prop} [Decidable c] {m : String} {u : Unit} :
    ensure c m = .ok u ↔ c := by
  by_cases h : c <;> simp [ensure, h]

theorem subP_ok {a b : Nat} (h : b ≤ a) : subP a b = .ok (a - b) := by simp [subP, h]
theorem divP_ok {a b : Nat} (h : 0 < b) : divP a b = .ok (a / b) := by
  simp [divP, Nat.pos_iff_ne_zero.mp h]
theorem modP_ok {a b : Nat} (h : 0 < b) : modP a b = .ok (a % b) := by
  simp [modP, Nat.pos_iff_ne_zero.mp h]
theorem idxP_ok {xs : List α} {i : Nat} (h : i < xs.length) : idxP xs i = .ok xs[i] := by
  simp [idxP, h]

theorem readContext_le {α : Type} {a b : Nat} (h : a ≤ b) (r : Res α) : readContext a b r = r := by
  unfold readContext
  split
  · rw [subP_ok h]; rfl
  · rfl

theorem readContext_ok {α : Type} {a b : Nat} {x : α} : readContext a b (.ok x) = .ok x := rfl

theorem readContext_ok_iff {α : Type} {a b : Nat} {r : Res α} {x : α} :
    readContext a b r = .ok x ↔ r = .ok x := by
  unfold readContext
  split
  · unfold subP; split <;> simp [bind, Except.bind]
  · rfl


theorem isErr_of_not_ok {r : Res α} (h : r.Returns) (h2 : ∀ a, r ≠ .ok a) : r.IsErr := by
  rcases h with ⟨a, ha⟩ | h
  · exact absurd ha (h2 a)
  · exact h

@[simp] theorem isErr_err (m : String) : Res.IsErr (Except.error (.err m) : Res α) := ⟨m, rfl⟩
@[simp] theorem isOk_ok (a : α) : Res.IsOk (Except.ok a : Res α) := ⟨a, rfl⟩

end Verif
