import Verif.Spec.Files
/-! Paths of data files. -/
namespace Verif

theorem splitSlash_plain : ∀ {xs : List Char}, '/' ∉ xs → splitSlash xs = [xs]
  | [], _ => rfl
  | c :: cs, h => by
    rw [splitSlash, if_neg (by rintro rfl; exact h (by simp)), splitSlash_plain (by simp_all)]

theorem splitSlash_ne_nil : ∀ xs : List Char, splitSlash xs ≠ []
  | [] => by simp [splitSlash]
  | c :: cs => by
    rw [splitSlash]
    split
    · simp
    · split <;> simp

theorem splitSlash_append : ∀ xs ys : List Char,
    splitSlash (xs ++ '/' :: ys) = splitSlash xs ++ splitSlash ys
  | [], ys => by simp [splitSlash]
  | c :: cs, ys => by
    rw [List.cons_append, splitSlash, splitSlash, splitSlash_append cs ys]
    split
    · rfl
    · cases h : splitSlash cs with
      | nil => exact absurd h (splitSlash_ne_nil _)
      | cons w ws => rfl

/-- `Path::join` puts something in front of the name that does not depend on the name. -/
theorem joinPath_prefix (dir : String) :
    ∃ pre : List Char, (pre = [] ∨ pre.getLast? = some '/') ∧
      ∀ name, (joinPath dir name).toList = pre ++ name.toList := by
  cases h : dir.toList.getLast? with
  | none => exact ⟨[], .inl rfl, fun name => by simp [joinPath, h]⟩
  | some c =>
    by_cases hc : c = '/'
    · subst hc
      exact ⟨dir.toList, .inr h, fun name => by simp [joinPath, h]⟩
    · exact ⟨dir.toList ++ ['/'], .inr (by simp), fun name => by simp [joinPath, h, hc]⟩

theorem dataPath_inj {dir a b : String} (h : dataPath dir a = dataPath dir b) : a = b := by
  obtain ⟨pre, -, hp⟩ := joinPath_prefix dir
  unfold dataPath at h
  have := congrArg String.toList h
  rw [hp, hp] at this
  simp only [String.toList_append, List.append_cancel_left_eq, List.append_cancel_right_eq] at this
  exact String.toList_inj.1 this

theorem file_inj {c d : StoreConfig} (hp : c.path = d.path) (h : c.file = d.file) : c.id = d.id := by
  unfold StoreConfig.file at h
  rw [hp] at h
  exact dataPath_inj (FileId.named.inj h)

theorem file_ne {c d : StoreConfig} (hp : c.path = d.path) (h : c.id ≠ d.id) : d.file ≠ c.file :=
  fun e => h (file_inj hp e.symm)

theorem pathComponents_join (dir : String) :
    ∃ pre : List (List Char), (∃ q, pre = (splitSlash q).filter (fun w => w ≠ [] ∧ w ≠ ['.']) ∧
      ∀ name', '/' ∉ name'.toList → name'.toList ≠ [] → name'.toList ≠ ['.'] →
        pathComponents (joinPath dir name') = pre ++ [name'.toList]) := by
  obtain ⟨pre, hpre, hp⟩ := joinPath_prefix dir
  rcases hpre with rfl | hl
  · refine ⟨[], [], by simp [splitSlash], fun name' h h1 h2 => ?_⟩
    rw [pathComponents, hp, List.nil_append, splitSlash_plain h]
    simp [h1, h2]
  · obtain ⟨q, rfl⟩ : ∃ q, pre = q ++ ['/'] := by
      rw [List.getLast?_eq_some_iff] at hl
      exact hl
    refine ⟨_, q, rfl, fun name' h h1 h2 => ?_⟩
    rw [pathComponents, hp, List.append_assoc, List.singleton_append, splitSlash_append, splitSlash_plain h,
      List.filter_append]
    simp [h1, h2]

theorem dataPath_components_inj {dir a b : String} (ha : '/' ∉ a.toList) (hb : '/' ∉ b.toList)
    (h : pathComponents (dataPath dir a) = pathComponents (dataPath dir b)) : a = b := by
  have key : ∀ x : String, '/' ∉ x.toList → '/' ∉ ("sc-02-data-" ++ x ++ ".dat").toList ∧
      ("sc-02-data-" ++ x ++ ".dat").toList ≠ [] ∧ ("sc-02-data-" ++ x ++ ".dat").toList ≠ ['.'] := by
    intro x hx
    have e1 : "sc-02-data-".toList = ['s', 'c', '-', '0', '2', '-', 'd', 'a', 't', 'a', '-'] := by decide +kernel
    have e2 : ".dat".toList = ['.', 'd', 'a', 't'] := by decide +kernel
    rw [String.toList_append, String.toList_append, e1, e2]
    refine ⟨?_, by simp, by simp⟩
    simp [hx]
  obtain ⟨pre, q, -, hq⟩ := pathComponents_join dir
  unfold dataPath at h
  rw [hq _ (key a ha).1 (key a ha).2.1 (key a ha).2.2, hq _ (key b hb).1 (key b hb).2.1 (key b hb).2.2] at h
  have := (List.append_inj_right' h (by simp))
  simp only [List.cons.injEq, and_true, String.toList_append, List.append_cancel_left_eq,
    List.append_cancel_right_eq] at this
  exact String.toList_inj.1 this

end Verif
