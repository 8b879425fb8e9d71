import Verif.Lemmas.Bytes
import Verif.Lemmas.M
import Verif.Spec.Tree
/-! Parallel loops: the result does not depend on the schedule. -/
namespace Verif

variable {S : Type}

/-- State of task `t` during a parallel loop: not started, computed, or written. -/
def TaskState (exp : Nat → Bytes) (ts : List Nat) (pend : Nat → Option Bytes) (W : Nat → Prop)
    (t : Nat) : Prop :=
  (pend t = none ∧ ts.count t = 2 ∧ ¬ W t) ∨
  (pend t = some (exp t) ∧ ts.count t = 1 ∧ ¬ W t) ∨
  (pend t = some (exp t) ∧ ts.count t = 0 ∧ W t)

theorem runSteps_inv {rd : Nat → S → FS → Res Bytes} {wr : Nat → Bytes → S → M S} {n : Nat}
    {exp : Nat → Bytes} {I : (Nat → Prop) → S → FS → Prop}
    (hrd : ∀ W s fs t, I W s fs → t < n → rd t s fs = .ok (exp t))
    (hwr : ∀ W s fs t, I W s fs → t < n → ¬ W t →
      ∃ s' fs', wr t (exp t) s fs = (.ok s', fs') ∧ I (fun u => W u ∨ u = t) s' fs') :
    ∀ (ts : List Nat) (pend : Nat → Option Bytes) (W : Nat → Prop) (s : S) (fs : FS),
      (∀ t, t < n → TaskState exp ts pend W t) → (∀ t, n ≤ t → ts.count t = 0 ∧ ¬ W t) →
      I W s fs →
      ∃ s' fs', runSteps rd wr ts pend s fs = (.ok s', fs') ∧ I (fun t => t < n) s' fs' := by
  intro ts
  induction ts with
  | nil =>
    intro pend W s fs h1 h2 hI
    refine ⟨s, fs, rfl, ?_⟩
    have : W = fun t => t < n := by
      funext t
      apply propext
      constructor
      · intro hW
        by_contra hn
        exact (h2 t (by omega)).2 hW
      · intro ht
        rcases h1 t ht with h | h | h
        · simp at h
        · simp at h
        · exact h.2.2
    rw [← this]; exact hI
  | cons t ts ih =>
    intro pend W s fs h1 h2 hI
    have htn : t < n := by
      by_contra hn
      have := (h2 t (by omega)).1
      simp at this
    have hcount : ∀ u, u ≠ t → (t :: ts).count u = ts.count u := by
      intro u hu
      rw [List.count_cons_of_ne (by exact fun h => hu (h.symm))]
    have hself : (t :: ts).count t = ts.count t + 1 := by simp
    unfold runSteps
    rcases h1 t htn with h | h | h
    · rw [h.1]
      dsimp only
      rw [M.bind_ok (a := exp t) (fs' := fs) (by rw [M.get_run, hrd W s fs t hI htn])]
      apply ih _ W s fs _ _ hI
      · intro u hu
        by_cases hut : u = t
        · subst hut
          exact Or.inr (Or.inl ⟨by simp, by omega, h.2.2⟩)
        · have := h1 u hu
          simp only [TaskState, hcount u hut] at this ⊢
          simp only [hut, ↓reduceIte]
          exact this
      · intro u hu
        have := h2 u hu
        rw [hcount u (by omega)] at this
        exact this
    · rw [h.1]
      dsimp only
      obtain ⟨s', fs', e, hI'⟩ := hwr W s fs t hI htn h.2.2
      rw [M.bind_ok e]
      apply ih _ _ s' fs' _ _ hI'
      · intro u hu
        by_cases hut : u = t
        · subst hut
          exact Or.inr (Or.inr ⟨h.1, by omega, Or.inr rfl⟩)
        · have := h1 u hu
          simp only [TaskState, hcount u hut] at this ⊢
          simp only [hut, or_false]
          exact this
      · intro u hu
        have := h2 u hu
        rw [hcount u (by omega)] at this
        exact ⟨this.1, by simp only [this.2, false_or]; omega⟩
    · omega

/-- A parallel loop in which every read gives the expected bytes as long as the invariant holds, and
every write preserves the invariant, succeeds under every valid schedule and ends with all tasks
written. -/
theorem runSteps_ok {rd : Nat → S → FS → Res Bytes} {wr : Nat → Bytes → S → M S} {n : Nat}
    {exp : Nat → Bytes} {I : (Nat → Prop) → S → FS → Prop}
    (hrd : ∀ W s fs t, I W s fs → t < n → rd t s fs = .ok (exp t))
    (hwr : ∀ W s fs t, I W s fs → t < n → ¬ W t →
      ∃ s' fs', wr t (exp t) s fs = (.ok s', fs') ∧ I (fun u => W u ∨ u = t) s' fs')
    {ts : List Nat} (hts : ∀ t, ts.count t = if t < n then 2 else 0) {s : S} {fs : FS}
    (hI : I (fun _ => False) s fs) :
    ∃ s' fs', runSteps rd wr ts (fun _ => none) s fs = (.ok s', fs') ∧
      I (fun t => t < n) s' fs' := by
  apply runSteps_inv hrd hwr ts _ _ s fs _ _ hI
  · intro t ht
    exact Or.inl ⟨rfl, by rw [hts, if_pos ht], fun h => h⟩
  · intro t ht
    exact ⟨by rw [hts, if_neg (by omega)], fun h => h⟩

/-- If there is exactly one task and its read fails, the loop fails with that error. -/
theorem runSteps_one_error {rd : Nat → S → FS → Res Bytes} {wr : Nat → Bytes → S → M S} {e : Fault}
    {s : S} {fs : FS} (hrd : rd 0 s fs = .error e) {ts : List Nat}
    (hts : ∀ t, ts.count t = if t < 1 then 2 else 0) :
    runSteps rd wr ts (fun _ => none) s fs = (.error e, fs) := by
  cases ts with
  | nil => have := hts 0; simp at this
  | cons t ts =>
    have : t = 0 := by
      by_contra hn
      have := hts t
      rw [if_neg (by omega)] at this
      simp at this
    subst this
    unfold runSteps
    dsimp only
    exact M.bind_error (by rw [M.get_run, hrd])

section layer
variable {E : Type} [Element E] [LawfulElement E]

theorem hashChunk_ok (A : Alg E) {b : Nat} (hb : 0 < b) (level m : Nat) (g : Nat → E) :
    hashChunk A b level (b * m) ((List.range (b * m)).map g)
      = .ok (encodeAll ((List.range m).map fun k =>
          A.nodeHash ((List.range b).map fun c => g (b * k + c)) level)) := by
  unfold hashChunk
  dsimp only
  rw [chunks_map_range g hb m, List.map_map]
  rw [ensure_true]
  · rfl
  · rw [length_encodeAll]; simp [Nat.mul_div_cancel_left m hb]

/-- Width of chunk `t` of a layer with `w` nodes to write, when each chunk yields `q` nodes. -/
theorem chunk_arith {b q w t : Nat} (hq : b * q = buildChunkNodes) (rs : Nat)
    (ht : t < numChunks (b * w)) :
    min buildChunkNodes (rs + b * w - (rs + t * buildChunkNodes)) = b * min q (w - t * q) ∧
    t * q < w := by
  have h1 : t * buildChunkNodes = b * (t * q) := by rw [← hq]; ring
  have hpos : 0 < buildChunkNodes := by decide
  have h2 : t * buildChunkNodes < b * w := by
    unfold numChunks at ht
    have := (Nat.lt_div_iff_mul_lt hpos).1 ht
    have e : t * buildChunkNodes = buildChunkNodes * t := Nat.mul_comm _ _
    omega
  have h3 : t * q < w := by
    rw [h1] at h2
    exact Nat.lt_of_mul_lt_mul_left h2
  refine ⟨?_, h3⟩
  rw [h1, Nat.add_sub_add_left, ← Nat.mul_sub, ← hq]
  rw [Nat.mul_min_mul_left]

/-- Every written position belongs to some chunk. -/
theorem chunk_cover {b q w j : Nat} (hb : 0 < b) (hq : b * q = buildChunkNodes) (hj : j < w) :
    ∃ t, t < numChunks (b * w) ∧ t * q ≤ j ∧ j - t * q < min q (w - t * q) := by
  have hq0 : 0 < q := by
    rcases Nat.eq_zero_or_pos q with h | h
    · subst h; simp [buildChunkNodes] at hq
    · exact h
  refine ⟨j / q, ?_, Nat.div_mul_le_self j q, ?_⟩
  · unfold numChunks
    have hpos : 0 < buildChunkNodes := by decide
    rw [Nat.lt_div_iff_mul_lt hpos]
    have h1 : j / q * q ≤ j := Nat.div_mul_le_self j q
    have h2 : b * (j / q * q) < b * w := Nat.mul_lt_mul_of_pos_left (by omega) hb
    have h3 : buildChunkNodes * (j / q) = b * (j / q * q) := by rw [← hq]; ring
    have h4 : j / q * buildChunkNodes = b * (j / q * q) := by rw [← hq]; ring
    omega
  · have h1 := Nat.mod_lt j hq0
    have h2 := Nat.div_add_mod j q
    have h3 : j / q * q = q * (j / q) := Nat.mul_comm _ _
    omega

/-- One layer of the tree, computed in parallel chunks.  `holds fs s i e` says position `i` of the
store holds `e`; `J` is an invariant of the store; `K t` something that writing chunk `t`
establishes. `g` says what each position should hold. -/
theorem layer_ok {A : Alg E} {b q w level rs ws : Nat} (hb : 0 < b) (hq : b * q = buildChunkNodes)
    {holds : FS → S → Nat → E → Prop} {J : FS → S → Prop} {K : Nat → S → Prop}
    {rdRange : FS → S → Nat → Nat → Res (List E)} {rd : Nat → S → FS → Res Bytes}
    {wr : Nat → Bytes → S → M S} {g : Nat → E}
    (hg : ∀ j, j < w → g (ws + j) = A.nodeHash ((List.range b).map fun c => g (rs + (b * j + c))) level)
    (hrd_eq : ∀ t s fs, rd t s fs =
      (rdRange fs s (rs + t * buildChunkNodes) (rs + t * buildChunkNodes +
        min buildChunkNodes (rs + b * w - (rs + t * buildChunkNodes))) >>= fun ns =>
        hashChunk A b level (min buildChunkNodes (rs + b * w - (rs + t * buildChunkNodes))) ns))
    (hread : ∀ fs s a m, J fs s → 0 < m → rs ≤ a → a + m ≤ rs + b * w →
      (∀ i, a ≤ i → i < a + m → holds fs s i (g i)) →
      rdRange fs s a (a + m) = .ok ((List.range m).map fun c => g (a + c)))
    (hwrite : ∀ fs s t (es : List E), J fs s → t < numChunks (b * w) →
      t * q + es.length ≤ w → es.length ≤ q → 0 < es.length →
      ∃ s' fs', wr t (encodeAll es) s fs = (.ok s', fs') ∧ J fs' s' ∧
        (es.length = min q (w - t * q) → K t s') ∧ (∀ u, K u s → K u s') ∧
        (∀ j (h : j < es.length), holds fs' s' (ws + t * q + j) es[j]) ∧
        (∀ i e, (i < ws + t * q ∨ ws + t * q + es.length ≤ i) → holds fs s i e → holds fs' s' i e))
    {ts : List Nat} (hts : ∀ t, ts.count t = if t < numChunks (b * w) then 2 else 0)
    {s : S} {fs : FS} (hJ : J fs s) {P : Nat → Prop} (hP : ∀ i, rs ≤ i → i < rs + b * w → P i)
    (hPw : ∀ i, P i → i < ws)
    (hs : ∀ i, P i → holds fs s i (g i)) :
    ∃ s' fs', runSteps rd wr ts (fun _ => none) s fs = (.ok s', fs') ∧ J fs' s' ∧
      (∀ t, t < numChunks (b * w) → K t s') ∧
      (∀ i, P i ∨ (ws ≤ i ∧ i < ws + w) → holds fs' s' i (g i)) := by
  have key := runSteps_ok (rd := rd) (wr := wr) (n := numChunks (b * w))
    (exp := fun t => encodeAll ((List.range (min q (w - t * q))).map fun k => g (ws + t * q + k)))
    (I := fun W s fs => J fs s ∧ (∀ t, W t → K t s) ∧ (∀ i, P i → holds fs s i (g i)) ∧
      (∀ t, W t → t < numChunks (b * w) → ∀ k, k < min q (w - t * q) →
        holds fs s (ws + t * q + k) (g (ws + t * q + k))))
    (by
      intro W s fs t ⟨hJ, _, h1, _⟩ ht
      obtain ⟨e1, e2⟩ := chunk_arith hq rs ht
      have e3 : t * buildChunkNodes = b * (t * q) := by rw [← hq]; ring
      have hq0 : 0 < q := by
        rcases Nat.eq_zero_or_pos q with h | h
        · subst h; simp [buildChunkNodes] at hq
        · exact h
      have hm : 0 < b * min q (w - t * q) := Nat.mul_pos hb (by omega)
      have hle : b * (t * q) + b * min q (w - t * q) ≤ b * w := by
        rw [← Nat.mul_add]; exact Nat.mul_le_mul_left b (by omega)
      rw [hrd_eq, e1, e3]
      rw [hread fs s _ _ hJ hm (by omega) (by omega)
        (fun i hi1 hi2 => h1 i (hP i (by omega) (by omega))), Res.ok_bind]
      rw [hashChunk_ok A hb]
      congr 2
      apply List.map_congr_left
      intro k hk
      have hk := List.mem_range.1 hk
      rw [Nat.add_assoc, hg (t * q + k) (by omega)]
      congr 1
      apply List.map_congr_left
      intro c _
      congr 1
      ring)
    (by
      intro W s fs t ⟨hJ, hK, h1, h2⟩ ht hW
      obtain ⟨e1, e2⟩ := chunk_arith hq rs ht
      have hq0 : 0 < q := by
        rcases Nat.eq_zero_or_pos q with h | h
        · subst h; simp [buildChunkNodes] at hq
        · exact h
      obtain ⟨s', fs', hw, hJ', hKt, hKu, hin, hout⟩ := hwrite fs s t
        ((List.range (min q (w - t * q))).map fun k => g (ws + t * q + k)) hJ ht
        (by simp; omega) (by simp) (by simp; omega)
      refine ⟨s', fs', hw, hJ', ?_, ?_, ?_⟩
      · rintro u (hu | rfl)
        · exact hKu u (hK u hu)
        · exact hKt (by simp)
      · intro i hi
        apply hout i _ _ (h1 i hi)
        have := hPw i hi
        omega
      · rintro u (hu | rfl) hun k hk
        · apply hout _ _ _ (h2 u hu hun k hk)
          simp only [List.length_map, List.length_range]
          have hne : u ≠ t := fun h => hW (h ▸ hu)
          rcases Nat.lt_or_ge u t with h | h
          · left
            have : (u + 1) * q ≤ t * q := Nat.mul_le_mul_right q h
            have : (u + 1) * q = u * q + q := by ring
            omega
          · right
            have : (t + 1) * q ≤ u * q := Nat.mul_le_mul_right q (by omega)
            have : (t + 1) * q = t * q + q := by ring
            omega
        · have := hin k (by simpa using hk)
          simpa using this)
    hts (s := s) (fs := fs) ⟨hJ, fun _ h => h.elim, hs, fun _ h => h.elim⟩
  obtain ⟨s', fs', hrun, hJ', hK, h1, h2⟩ := key
  refine ⟨s', fs', hrun, hJ', hK, ?_⟩
  rintro i (hi | ⟨hi1, hi2⟩)
  · exact h1 i hi
  · obtain ⟨t, ht1, ht2, ht3⟩ := chunk_cover (w := w) (j := i - ws) hb hq (by omega)
    have := h2 t ht1 ht1 _ ht3
    rw [show ws + t * q + (i - ws - t * q) = i by omega] at this
    exact this

end layer
end Verif
