import Verif.Lemmas.Constructors
import Verif.Spec.Ideal
/-!
Leaf counts that are not a power of the arity: the build fails.
-/
set_option linter.unusedSectionVars false
namespace Verif
open Spec StoreOps LawfulWrite LawfulRead

/-- If `n` leaves get as far as the floating point row count (a power of two, at least the arity), it
is the integer part of the logarithm plus one. -/
def FloatRows.FloorAt [FloatRows] (b n : Nat) : Prop :=
  b ≠ 2 → IsPow2 n → b ≤ n → FloatRows.rows n b = Nat.log b n + 1

theorem FloatRows.FloorAt.exact [FloatRows] {b k : Nat} (hb : Arity b) (hk : 1 ≤ k)
    (h : FloatRows.FloorAt b (b ^ k)) : FloatRows.ExactAt b k := by
  intro h2
  have := hb.two_le
  rw [h h2 (hb.pow_isPow2 k) (Nat.le_self_pow (by omega) b), Nat.log_pow (by omega)]

theorem idealRows_floor {b n : Nat} (hb : 2 ≤ b) (hn : 1 ≤ n) : @FloatRows.FloorAt idealRows b n := by
  intro _ _ _
  change Nat.log b (b * n) = _
  rw [Nat.mul_comm, Nat.log_mul_base (by omega) (by omega)]

theorem log_mul_pow {b c q : Nat} (hc : 0 < c) (hcb : c < b) : Nat.log b (c * b ^ q) = q := by
  apply Nat.log_eq_of_pow_le_of_lt_pow
  · exact Nat.le_mul_of_pos_left _ hc
  · rw [Nat.pow_succ, Nat.mul_comm (b ^ q)]
    exact Nat.mul_lt_mul_of_pos_right hcb (Nat.pow_pos (by omega))

/-! ### Sizes -/

theorem merkleTreeLen.loop_mul {b s c : Nat} (hb : b = 2 ^ s) (hs : 1 ≤ s) (hc : 0 < c) (hcb : c < b)
    (K : Nat) : ∀ k f len, k ≤ K → k + 1 < f → merkleTreeLen.loop (c * b ^ K) s f (c * b ^ k) len
      = .ok (len + (c * nodes b k - c * b ^ k)) := by
  have h2 : 2 ≤ b := Arity.two_le ⟨s, hs, hb⟩
  intro k
  induction k with
  | zero =>
    intro f len _ hf
    obtain ⟨f, rfl⟩ : ∃ g, f = g + 2 := ⟨f - 2, by omega⟩
    have h1 : c / b = 0 := Nat.div_eq_of_lt (by omega)
    have h0 : 0 < c * b ^ K := Nat.mul_pos hc (Nat.pow_pos (by omega))
    simp only [merkleTreeLen.loop, shiftRight_pow hb, Nat.pow_zero, Nat.mul_one, h1, gt_iff_lt, hc,
      ↓reduceIte, ensure_true h0, Res.ok_bind, Nat.lt_irrefl, nodes, Nat.sub_self, Nat.add_zero]
  | succ k ih =>
    intro f len hk hf
    obtain ⟨f, rfl⟩ : ∃ g, f = g + 1 := ⟨f - 1, by omega⟩
    have hp : 0 < c * b ^ (k + 1) := Nat.mul_pos hc (Nat.pow_pos (by omega))
    have hd : c * b ^ (k + 1) / b = c * b ^ k := by
      rw [Nat.pow_succ, ← Nat.mul_assoc]; exact Nat.mul_div_cancel _ (by omega)
    have hlt : c * b ^ k < c * b ^ K :=
      Nat.mul_lt_mul_of_pos_left (Nat.pow_lt_pow_right (by omega) (by omega)) hc
    have hge := Nat.mul_le_mul_left c (pow_le_nodes b k)
    unfold merkleTreeLen.loop
    simp only [gt_iff_lt, hp, ↓reduceIte, shiftRight_pow hb, hd]
    rw [ensure_true hlt, Res.ok_bind, ih _ _ (by omega) (by omega)]
    simp only [nodes, Nat.mul_add]
    congr 1; omega

theorem merkleTreeLen_mul {b c q : Nat} (hb : Arity b) (hq : 1 ≤ q) (hc : 1 < c) (hcb : c < b) :
    merkleTreeLen (c * b ^ q) b = .ok (c * nodes b q) := by
  obtain ⟨s, hs, rfl⟩ := hb
  have h2 : 2 ≤ 2 ^ s := Arity.two_le ⟨s, hs, rfl⟩
  have hle : 2 ^ s ≤ c * (2 ^ s) ^ q :=
    ((pow_le_iff h2).2 hq).trans (Nat.le_mul_of_pos_left _ (by omega))
  unfold merkleTreeLen
  rw [ensure_true hle, Res.ok_bind, ensure_true (nextPow2_pow s).symm, Res.ok_bind]
  rw [if_neg (by omega)]
  have hs0 : s ≠ 0 := by omega
  simp only [log2Pow2_pow, hs0, ↓reduceIte]
  rw [merkleTreeLen.loop_mul rfl hs (by omega) hcb q q _ _ (Nat.le_refl _)]
  · have := Nat.mul_le_mul_left c (pow_le_nodes (2 ^ s) q)
    congr 1; omega
  · have := le_pow_of_two_le h2 q
    have : (2 ^ s) ^ q ≤ c * (2 ^ s) ^ q := Nat.le_mul_of_pos_left _ (by omega)
    omega

theorem sizes_err [FloatRows] {b n : Nat} (h : n ≤ 1 ∨ ¬ IsPow2 n ∨ ¬ IsPow2 b ∨ n < b) :
    Res.IsErr (BaseTree.sizes b n) := by
  unfold BaseTree.sizes
  by_cases h1 : n > 1
  · rw [ensure_true h1, Res.ok_bind]
    by_cases h2 : nextPow2 n = n
    · rw [ensure_true h2, Res.ok_bind]
      by_cases h3 : nextPow2 b = b
      · rw [ensure_true h3, Res.ok_bind]
        have h2 := (eq_nextPow2_iff n).1 h2.symm
        have h3 := (eq_nextPow2_iff b).1 h3.symm
        have h4 : n < b := by
          rcases h with h | h | h | h
          · omega
          · exact absurd h2 h
          · exact absurd h3 h
          · exact h
        unfold merkleTreeLen
        rw [ensure_false (by omega)]
        exact ⟨_, rfl⟩
      · rw [ensure_false h3]; exact ⟨_, rfl⟩
    · rw [ensure_false h2]; exact ⟨_, rfl⟩
  · rw [ensure_false h1]; exact ⟨_, rfl⟩

/-- A power of two that is at least the arity is a small power of two times a power of the arity. -/
theorem pow2_split {b n : Nat} (hb : Arity b) (hn : IsPow2 n) (hle : b ≤ n) :
    ∃ c q, n = c * b ^ q ∧ 1 ≤ q ∧ 1 ≤ c ∧ c < b ∧ IsPow2 c := by
  obtain ⟨s, hs, rfl⟩ := hb
  obtain ⟨m, rfl⟩ := hn
  refine ⟨2 ^ (m % s), m / s, ?_, ?_, Nat.one_le_two_pow, ?_, ⟨_, rfl⟩⟩
  · rw [← Nat.pow_mul, ← Nat.pow_add, Nat.mod_add_div]
  · have : s ≤ m := (Nat.pow_le_pow_iff_right (by omega)).1 hle
    exact (Nat.one_le_div_iff (by omega)).2 this
  · exact Nat.pow_lt_pow_right (by omega) (Nat.mod_lt _ (by omega))

theorem arity_of_pow2 {b : Nat} (h : IsPow2 b) (h1 : b ≠ 1) : Arity b := by
  obtain ⟨m, rfl⟩ := h
  refine ⟨m, ?_, rfl⟩
  rcases m with _ | m
  · simp at h1
  · omega

theorem sizes_returns [FloatRows] {b n : Nat} (hb : b ≠ 1) : (BaseTree.sizes b n).Returns := by
  by_cases h : n ≤ 1 ∨ ¬ IsPow2 n ∨ ¬ IsPow2 b ∨ n < b
  · exact Or.inr (sizes_err h)
  · simp only [not_or, not_le, not_lt, not_not] at h
    obtain ⟨h1, h2, h3, h4⟩ := h
    have ha := arity_of_pow2 h3 hb
    have hr : ∃ r, merkleTreeLen n b = .ok r := by
      obtain ⟨c, q, hn, hq, hc, hcb, _⟩ := pow2_split ha h2 h4
      rcases Nat.eq_or_lt_of_le hc with h | h
      · exact ⟨_, by rw [hn, ← h, Nat.one_mul, merkleTreeLen_pow ha hq]⟩
      · exact ⟨_, by rw [hn, merkleTreeLen_mul ha hq h hcb]⟩
    unfold BaseTree.sizes
    rw [ensure_true h1, Res.ok_bind, ensure_true ((eq_nextPow2_iff _).2 h2).symm, Res.ok_bind,
      ensure_true ((eq_nextPow2_iff _).2 h3).symm, Res.ok_bind]
    obtain ⟨r, hr⟩ := hr
    rw [hr]; exact Or.inl ⟨_, rfl⟩

theorem not_pow_of_mul {b c q : Nat} (hc : 1 < c) (hcb : c < b) : ¬ ∃ k, c * b ^ q = b ^ k := by
  rintro ⟨k, h⟩
  have h1 := log_mul_pow (q := q) (show 0 < c by omega) hcb
  rw [h, Nat.log_pow (by omega)] at h1
  subst h1
  have : 0 < b ^ k := Nat.pow_pos (by omega)
  have : 1 * b ^ k < c * b ^ k := Nat.mul_lt_mul_of_pos_right hc this
  omega

/-- Every leaf count is either rejected up front, or a power of the arity, or neither. -/
theorem sizes_cases [FloatRows] {b n : Nat} (hb : Arity b) (hf : FloatRows.FloorAt b n) :
    Res.IsErr (BaseTree.sizes b n) ∨ (∃ k, 1 ≤ k ∧ n = b ^ k) ∨
      (∃ c q, 1 ≤ q ∧ 1 < c ∧ c < b ∧ n = c * b ^ q ∧ IsPow2 n ∧
        BaseTree.sizes b n = .ok (c * nodes b q, q + 1)) := by
  by_cases h : n ≤ 1 ∨ ¬ IsPow2 n ∨ ¬ IsPow2 b ∨ n < b
  · exact Or.inl (sizes_err h)
  · simp only [not_or, not_le, not_lt, not_not] at h
    obtain ⟨h1, h2, h3, h4⟩ := h
    obtain ⟨c, q, hn, hq, hc, hcb, _⟩ := pow2_split hb h2 h4
    right
    rcases Nat.eq_or_lt_of_le hc with h | h
    · left
      exact ⟨q, hq, by rw [hn, ← h, Nat.one_mul]⟩
    · right
      refine ⟨c, q, hq, h, hcb, hn, h2, ?_⟩
      unfold BaseTree.sizes
      rw [ensure_true h1, Res.ok_bind, ensure_true ((eq_nextPow2_iff _).2 h2).symm, Res.ok_bind,
        ensure_true ((eq_nextPow2_iff _).2 h3).symm, Res.ok_bind, hn, merkleTreeLen_mul hb hq h hcb,
        Res.ok_bind]
      unfold merkleTreeRowCount
      rw [if_neg (by omega), ← hn, hf (by omega) h2 h4, hn, log_mul_pow (by omega) hcb]

/-! ### The default build -/
section build
variable {S E : Type} [Element E] [LawfulElement E] [StoreOps S E] [LawfulRead S E]

/-- The store holds some `n` elements. -/
def Full (fs : FS) (s : S) (cap n : Nat) : Prop := ∃ g : Nat → E, Filled fs s cap n g

/-- Some values for the next row. -/
def nextRow (H : List E → Nat → E) (g : Nat → E) (b level rs ws i : Nat) : E :=
  if i < ws then g i else H ((List.range b).map fun c => g (rs + (b * (i - ws) + c))) level

omit [Element E] [LawfulElement E] [StoreOps S E] [LawfulRead S E] in
theorem nextRow_eq {H : List E → Nat → E} {g : Nat → E} {b level rs ws w : Nat}
    (h : rs + b * w ≤ ws) : ∀ j, j < w → nextRow H g b level rs ws (ws + j)
      = H ((List.range b).map fun c => nextRow H g b level rs ws (rs + (b * j + c))) level := by
  intro j hj
  have e : nextRow H g b level rs ws (ws + j)
      = H ((List.range b).map fun c => g (rs + (b * j + c))) level := by
    simp [nextRow]
  rw [e]
  congr 1
  apply List.map_congr_left
  intro c hc
  have hc := List.mem_range.1 hc
  have : b * (j + 1) ≤ b * w := Nat.mul_le_mul_left _ hj
  have : b * (j + 1) = b * j + b := by ring
  unfold nextRow
  rw [if_pos (by omega)]

omit [LawfulElement E] in
theorem Filled.nextRow {fs : FS} {s : S} {cap ws : Nat} {g : Nat → E} (h : Filled fs s cap ws g)
    (H : List E → Nat → E) (b level rs : Nat) : Filled fs s cap ws (nextRow H g b level rs ws) :=
  ⟨h.inv, h.len_eq, fun i hi => by rw [Verif.nextRow, if_pos hi]; exact h.vals i hi⟩

theorem buildLoop_reach {A : Alg E} {b q cap : Nat} (hb : Arity b) (hq : b * q = buildChunkNodes)
    {σ : Sched} (hσ : σ.Valid) : ∀ (k f c l idx : Nat) (s : S) (fs : FS), 0 < c →
    Full fs s cap (idx + c * b ^ k) → (l = 0 → idx = 0) → idx + c * nodes b k ≤ cap →
    ∃ idx' s' fs', buildLoop A b σ (f + k) (c * b ^ k) l idx s fs
        = buildLoop A b σ f c (l + k) idx' s' fs' ∧ Full fs' s' cap (idx' + c) ∧
      (l + k = 0 → idx' = 0) ∧ idx' + c = idx + c * nodes b k := by
  have hb2 := hb.two_le
  intro k
  induction k with
  | zero =>
    intro f c l idx s fs hc hs hl hcap
    exact ⟨idx, s, fs, by simp, by simpa using hs, hl, by simp [nodes]⟩
  | succ k ih =>
    intro f c l idx s fs hc ⟨g, hs⟩ hl hcap
    have hw : c * b ^ (k + 1) = b * (c * b ^ k) := by rw [Nat.pow_succ]; ring
    have hp : 0 < c * b ^ k := Nat.mul_pos hc (Nat.pow_pos (by omega))
    have hgt : c * b ^ (k + 1) > 1 := by
      rw [hw]
      calc 1 < 2 * 1 := by omega
        _ ≤ b * (c * b ^ k) := Nat.mul_le_mul hb2 hp
    have hrw : (if l = 0 then (0, len (E := E) s) else (idx, idx + c * b ^ (k + 1)))
        = (idx, idx + c * b ^ (k + 1)) := by
      split
      · rename_i h0; rw [hs.len_eq, hl h0]
      · rfl
    have hcap' : idx + (c * nodes b k + c * b ^ (k + 1)) ≤ cap := by
      rw [← Nat.mul_add]; exact hcap
    have hpn := Nat.mul_le_mul_left c (pow_le_nodes b k)
    obtain ⟨s1, fs1, h1, h2, h3, h4⟩ := processLayer_ok (A := A) (w := c * b ^ k) (level := l)
      (rs := idx) (ws := idx + c * b ^ (k + 1)) (by omega) hq hp (by omega) (by omega) hσ
      (nextRow_eq (by omega)) (hs.nextRow A.nodeHash b l idx)
    rw [← hw] at h1
    obtain ⟨idx', s2, fs2, g1, g2, g3, g4⟩ := ih f c (l + 1) (idx + c * b ^ (k + 1)) s1 fs1 hc ⟨_, h2⟩
      (by omega) (by omega)
    refine ⟨idx', s2, fs2, ?_, g2, by omega, by rw [nodes, Nat.mul_add]; omega⟩
    rw [show l + (k + 1) = l + 1 + k by omega, ← g1, ← Nat.add_assoc]
    conv => lhs; unfold buildLoop
    simp only [hgt, ↓reduceIte]
    rw [hrw]
    dsimp only
    rw [M.bind_ok h1, hb.shiftRight]
    congr 2
    rw [hw, Nat.mul_div_cancel_left _ (by omega)]

theorem smallTreeLoop_reach {A : Alg E} {b cap : Nat} (hb : Arity b) :
    ∀ (k f c l idx : Nat) (s : S) (fs : FS), 0 < c →
    Full fs s cap (idx + c * b ^ k) → (l = 0 → idx = 0) → idx + c * nodes b k ≤ cap →
    ∃ idx' s' fs', smallTreeLoop A b (f + k) (c * b ^ k) l idx s fs
        = smallTreeLoop A b f c (l + k) idx' s' fs' ∧ Full fs' s' cap (idx' + c) ∧
      (l + k = 0 → idx' = 0) ∧ idx' + c = idx + c * nodes b k := by
  have hb2 := hb.two_le
  intro k
  induction k with
  | zero =>
    intro f c l idx s fs hc hs hl hcap
    exact ⟨idx, s, fs, by simp, by simpa using hs, hl, by simp [nodes]⟩
  | succ k ih =>
    intro f c l idx s fs hc ⟨g, hs⟩ hl hcap
    have hw : c * b ^ (k + 1) = b * (c * b ^ k) := by rw [Nat.pow_succ]; ring
    have hp : 0 < c * b ^ k := Nat.mul_pos hc (Nat.pow_pos (by omega))
    have hgt : c * b ^ (k + 1) > 1 := by
      rw [hw]
      calc 1 < 2 * 1 := by omega
        _ ≤ b * (c * b ^ k) := Nat.mul_le_mul hb2 hp
    have hrw : (if l = 0 then (0, len (E := E) s) else (idx, idx + c * b ^ (k + 1)))
        = (idx, idx + c * b ^ (k + 1)) := by
      split
      · rename_i h0; rw [hs.len_eq, hl h0]
      · rfl
    have hcap' : idx + (c * nodes b k + c * b ^ (k + 1)) ≤ cap := by
      rw [← Nat.mul_add]; exact hcap
    have hpn := Nat.mul_le_mul_left c (pow_le_nodes b k)
    have hread : readRange fs s idx (idx + c * b ^ (k + 1)) = .ok
        ((List.range (c * b ^ (k + 1))).map fun i => g (idx + i)) :=
      readRange_ok hs.inv (by omega) (by rw [hs.len_eq]) (fun i _ hi => hs.vals i (by omega))
    obtain ⟨s1, fs1, h1, h2, h3, h4, h5, h6, h7⟩ := writeLayer_ok (ws := idx + c * b ^ (k + 1))
      (own := owns s) (cap := cap)
      ((List.range (c * b ^ k)).map ((fun ns => A.nodeHash ns l) ∘ fun j =>
        (List.range b).map fun i => g (idx + (b * j + i))))
      0 s fs hs.inv (by simp; omega) (by rw [hs.len_eq]; rfl) rfl
    have hfull : Full fs1 s1 cap (idx + c * b ^ (k + 1) + c * b ^ k) := by
      refine ⟨nextRow A.nodeHash g b l idx (idx + c * b ^ (k + 1)), h2, by rw [h3]; simp, ?_⟩
      intro i hi
      unfold nextRow
      split
      · rename_i hlt
        exact h5 i _ (by omega) (hs.vals i hlt)
      · rename_i hge
        have := h4 (i - (idx + c * b ^ (k + 1))) (by simp; omega)
        simp only [List.getElem_map, List.getElem_range, Function.comp, Nat.add_zero] at this
        rw [show idx + c * b ^ (k + 1) + (i - (idx + c * b ^ (k + 1))) = i by omega] at this
        exact this
    obtain ⟨idx', s2, fs2, g1, g2, g3, g4⟩ := ih f c (l + 1) (idx + c * b ^ (k + 1)) s1 fs1 hc hfull
      (by omega) (by omega)
    refine ⟨idx', s2, fs2, ?_, g2, by omega, by rw [nodes, Nat.mul_add]; omega⟩
    rw [show l + (k + 1) = l + 1 + k by omega, ← g1, ← Nat.add_assoc]
    conv => lhs; unfold smallTreeLoop
    simp only [hgt, ↓reduceIte]
    rw [hrw]
    dsimp only
    rw [M.bind_ok (a := _) (fs' := fs) (by rw [M.get_run, hread])]
    rw [show (List.range (c * b ^ (k + 1))) = List.range (b * (c * b ^ k)) by rw [hw],
      chunks_map_range _ (by omega), List.map_map, M.bind_ok h1, hb.shiftRight]
    congr 2
    rw [hw, Nat.mul_div_cancel_left _ (by omega)]

theorem chunks_short {α : Type} {b : Nat} {xs : List α} (h0 : xs ≠ []) (h : xs.length ≤ b) :
    chunks b xs = [xs] := by
  unfold chunks
  cases xs with
  | nil => simp at h0
  | cons x xs =>
    simp only [List.length_cons, chunks.go, List.isEmpty_cons, Bool.false_eq_true, ↓reduceIte]
    rw [List.take_of_length_le h, List.drop_eq_nil_of_le h]
    cases xs <;> simp [chunks.go]

/-- The last, incomplete group does not hash to the expected number of nodes. -/
theorem hashChunk_short (A : Alg E) {b c : Nat} (level : Nat) (hc : 0 < c) (hcb : c < b)
    (ns : List E) (hn : ns.length = c) :
    hashChunk A b level c ns = .error (.err "Invalid hashed node length") := by
  unfold hashChunk
  dsimp only
  rw [ensure_false]
  · rfl
  · rw [length_encodeAll, Nat.div_eq_of_lt hcb]
    have : (chunks b ns).length = 1 := by
      have h1 := lt_chunks_length (xs := ns) (n := b) (by omega) (k := 0)
      have h2 := lt_chunks_length (xs := ns) (n := b) (by omega) (k := 1)
      omega
    have hp := LawfulElement.byteLen_pos (E := E)
    simp [this]; omega

theorem numChunks_one {c : Nat} (h : 0 < c) (h2 : c ≤ buildChunkNodes) : numChunks c = 1 := by
  unfold numChunks
  simp only [buildChunkNodes] at *
  omega

theorem processLayer_short {A : Alg E} {b q cap c l idx : Nat} (hq : b * q = buildChunkNodes)
    {σ : Sched} (hσ : σ.Valid) (hc : 0 < c) (hcb : c < b) {s : S} {fs : FS}
    (hs : Full fs s cap (idx + c)) (ws : Nat) :
    processLayer A b σ s c l idx ws fs = (.error (.err "Invalid hashed node length"), fs) := by
  obtain ⟨g, hs⟩ := hs
  have hb' : b ≤ buildChunkNodes := by
    rw [← hq]
    rcases Nat.eq_zero_or_pos q with h | h
    · subst h; simp [buildChunkNodes] at hq
    · exact Nat.le_mul_of_pos_right _ h
  unfold processLayer
  rw [M.bind_ok (mEnsure_true (by rw [← hq]; exact Nat.mul_mod_right b q) _ _)]
  apply runSteps_one_error
  · unfold layerRead
    dsimp only
    rw [Nat.zero_mul, Nat.add_zero, Nat.add_sub_cancel_left, Nat.min_eq_right (by omega),
      readRange_ok hs.inv hc (by rw [hs.len_eq]) (fun i _ hi => hs.vals i hi), Res.ok_bind,
      hashChunk_short A l hc hcb _ (by simp)]
  · rw [numChunks_one hc (by omega)]
    exact hσ l 1

/-- The default build never succeeds when the number of leaves is not a power of the arity; and
unless the small-tree path is taken on a store without spare room it fails with an `Err`. -/
theorem defaultBuild_err {A : Alg E} {b c q cap : Nat} (hb : Arity b) (hb' : b ≤ buildChunkNodes)
    (hq : 1 ≤ q) (hc : 1 < c) (hcb : c < b) (hev : c * b ^ q % 2 = 0) {σ : Sched} (hσ : σ.Valid)
    (hcap : c * nodes b q ≤ cap) {s : S} {fs : FS} (hs : Full fs s cap (c * b ^ q))
    (cfg : Option StoreConfig) :
    ∃ e fs', defaultBuild A b σ s (c * b ^ q) (q + 1) cfg fs = (.error e, fs') ∧
      (smallTreeBuild < c * b ^ q ∨ c * nodes b q < cap → ∃ m, e = .err m) ∧
      (c * b ^ q ≤ smallTreeBuild → c * nodes b q = cap →
        (∀ (s : S) (fs : FS) (el : E), Inv fs s cap →
          ∃ m fs', writeAt s el cap fs = (.error (.panic m), fs')) → ∃ m, e = .panic m) := by
  have hb2 := hb.two_le
  obtain ⟨q', hq'⟩ := exists_quot hb hb'
  have hfuel : q < c * b ^ q := by
    have := le_pow_of_two_le hb2 q
    have : b ^ q ≤ c * b ^ q := Nat.le_mul_of_pos_left _ (by omega)
    omega
  have hlen : len (E := E) s = c * b ^ q := hs.choose_spec.len_eq
  unfold defaultBuild
  rw [M.bind_ok (mEnsure_true ((eq_nextPow2_iff b).2 hb.pow2).symm _ _),
    M.bind_ok (mEnsure_true hlen _ _), M.bind_ok (mEnsure_true hev _ _)]
  obtain ⟨f, hf⟩ : ∃ f, c * b ^ q + 1 = (f + 1) + q := ⟨c * b ^ q - q, by omega⟩
  split
  · rename_i hsmall
    unfold buildSmallTree
    rw [M.bind_ok (mEnsure_true hev _ _), hf]
    obtain ⟨idx, s1, fs1, h1, ⟨g, h2⟩, h3, h4⟩ := smallTreeLoop_reach (A := A) (cap := cap) hb q (f + 1) c 0 0
      s fs (by omega) (by simpa using hs) (fun _ => rfl) (by simpa using hcap)
    have hread : readRange fs1 s1 idx (idx + c) = .ok ((List.range c).map fun i => g (idx + i)) :=
      readRange_ok h2.inv (by omega) (by rw [h2.len_eq]) (fun i _ hi => h2.vals i (by omega))
    have hstep : smallTreeLoop A b (f + 1) c (0 + q) idx s1 fs1
        = (writeAt s1 (A.nodeHash ((List.range c).map fun i => g (idx + i)) (0 + q)) (idx + c) >>=
          fun s2 => smallTreeLoop A b f 0 (0 + q + 1) (idx + c) s2) fs1 := by
      conv => lhs; unfold smallTreeLoop
      simp only [gt_iff_lt, hc, ↓reduceIte]
      rw [if_neg (by omega)]
      dsimp only
      rw [M.bind_ok (a := _) (fs' := fs1) (by rw [M.get_run, hread])]
      rw [chunks_short (by simp; omega) (by simp; omega), hb.shiftRight, Nat.div_eq_of_lt hcb]
      simp only [List.map_cons, List.map_nil, writeLayer, Nat.add_zero, M.bind_run]
      rcases writeAt s1 (A.nodeHash ((List.range c).map fun i => g (idx + i)) (0 + q)) (idx + c) fs1
        with ⟨_ | _, _⟩ <;> rfl
    obtain ⟨f, rfl⟩ : ∃ g, f = g + 1 := ⟨f - 1, by omega⟩
    rcases hw : writeAt s1 (A.nodeHash ((List.range c).map fun i => g (idx + i)) (0 + q)) (idx + c) fs1
      with ⟨r, fs2⟩
    cases r with
    | error e =>
      refine ⟨e, fs2, ?_, ?_, fun _ hr hfull => ?_⟩
      · apply M.bind_error
        rw [h1, hstep, M.bind_error hw]
      rotate_left
      · obtain ⟨m, fs', g1⟩ := hfull s1 fs1 (A.nodeHash ((List.range c).map fun i => g (idx + i)) (0 + q)) h2.inv
        rw [show idx + c = cap by omega, g1] at hw
        simp only [Prod.mk.injEq, Except.error.injEq] at hw
        exact ⟨m, hw.1.symm⟩
      · rintro (hr | hr)
        · omega
        · obtain ⟨s', fs', g1, _⟩ := write (A.nodeHash ((List.range c).map fun i => g (idx + i)) (0 + q))
            (i := idx + c) h2.inv (by omega)
          rw [hw] at g1
          simp at g1
    | ok s2 =>
      refine ⟨.err "Invalid tree row_count", fs2, ?_, fun _ => ⟨_, rfl⟩, fun _ hr hfull => ?_⟩
      rotate_left
      · obtain ⟨m, fs', g1⟩ := hfull s1 fs1 (A.nodeHash ((List.range c).map fun i => g (idx + i)) (0 + q)) h2.inv
        rw [show idx + c = cap by omega, g1] at hw
        simp at hw
      have : smallTreeLoop A b (f + 1 + 1) c (0 + q) idx s1 fs1 = (.ok (s2, 0 + q + 1), fs2) := by
        rw [hstep, M.bind_ok hw]
        unfold smallTreeLoop
        simp
      rw [M.bind_ok (h1.trans this)]
      exact M.bind_error (mEnsure_false (by omega) _ _)
  · obtain ⟨idx, s1, fs1, h1, h2, h3, h4⟩ := buildLoop_reach (A := A) (cap := cap) hb hq' hσ q (f + 1) c 0 0
      s fs (by omega) (by simpa using hs) (fun _ => rfl) (by simpa using hcap)
    refine ⟨.err "Invalid hashed node length", fs1, ?_, fun _ => ⟨_, rfl⟩, fun hr => by omega⟩
    rw [hf]
    apply M.bind_error
    rw [h1]
    unfold buildLoop
    simp only [gt_iff_lt, hc, ↓reduceIte]
    rw [if_neg (by omega)]
    exact M.bind_error (processLayer_short hq' hσ (by omega) hcb h2 _)

/-- Arities above the chunk size are refused in the first layer. -/
theorem defaultBuild_wide {A : Alg E} {b n cap rows : Nat} (hb : Arity b) (hb' : buildChunkNodes < b)
    (hn : b ≤ n) (hev : n % 2 = 0) (σ : Sched) {s : S} {fs : FS} (hs : Full fs s cap n)
    (cfg : Option StoreConfig) :
    ∃ m fs', defaultBuild A b σ s n rows cfg fs = (.error (.err m), fs') := by
  have hlen : len (E := E) s = n := hs.choose_spec.len_eq
  refine ⟨"Invalid chunk size", fs, ?_⟩
  · unfold defaultBuild
    rw [M.bind_ok (mEnsure_true ((eq_nextPow2_iff b).2 hb.pow2).symm _ _),
      M.bind_ok (mEnsure_true hlen _ _), M.bind_ok (mEnsure_true hev _ _)]
    rw [if_neg (by simp only [buildChunkNodes, smallTreeBuild] at *; omega)]
    apply M.bind_error
    unfold buildLoop
    simp only [gt_iff_lt, show 1 < n by simp only [buildChunkNodes] at *; omega, ↓reduceIte]
    apply M.bind_error
    unfold processLayer
    exact M.bind_error (mEnsure_false (by rw [Nat.mod_eq_of_lt hb']; simp [buildChunkNodes]) _ _)

/-- A store that does not hold as many leaves as announced is refused. -/
theorem defaultBuild_len {A : Alg E} {b n rows : Nat} (σ : Sched) {s : S} (fs : FS)
    (hs : len (E := E) s ≠ n) (cfg : Option StoreConfig) :
    ∃ m, defaultBuild A b σ s n rows cfg fs = (.error (.err m), fs) := by
  unfold defaultBuild
  by_cases hb : nextPow2 b = b
  · rw [M.bind_ok (mEnsure_true hb _ _), M.bind_error (mEnsure_false hs _ _)]
    exact ⟨_, rfl⟩
  · rw [M.bind_error (mEnsure_false hb _ _)]
    exact ⟨_, rfl⟩

end build

/-! ### The build of `DiskStore` -/
namespace DiskStore
variable {E : Type} [Element E] [LawfulElement E]

theorem buildLoop_reach {A : Alg E} {b q cap : Nat} (hb : Arity b) (hq : b * q = buildChunkNodes)
    {σ : Sched} (hσ : σ.Valid) : ∀ (k f c l idx : Nat) (s : DiskStore E) (fs : FS), 0 < c →
    Full fs s cap (idx + c * b ^ k) → (l = 0 → idx = 0) → idx + c * nodes b k ≤ cap →
    ∃ idx' s' fs', DiskStore.buildLoop A b σ (f + k) (c * b ^ k) l idx s fs
        = DiskStore.buildLoop A b σ f c (l + k) idx' s' fs' ∧ Full fs' s' cap (idx' + c) ∧
      (l + k = 0 → idx' = 0) := by
  have hb2 := hb.two_le
  intro k
  induction k with
  | zero =>
    intro f c l idx s fs hc hs hl hcap
    exact ⟨idx, s, fs, by simp, by simpa using hs, hl⟩
  | succ k ih =>
    intro f c l idx s fs hc ⟨g, hs⟩ hl hcap
    have hlen : s.len = idx + c * b ^ (k + 1) := hs.len_eq
    have hw : c * b ^ (k + 1) = b * (c * b ^ k) := by rw [Nat.pow_succ]; ring
    have hp : 0 < c * b ^ k := Nat.mul_pos hc (Nat.pow_pos (by omega))
    have hgt : c * b ^ (k + 1) > 1 := by
      rw [hw]
      calc 1 < 2 * 1 := by omega
        _ ≤ b * (c * b ^ k) := Nat.mul_le_mul hb2 hp
    have hrw : (if l = 0 then (0, s.len) else (idx, idx + c * b ^ (k + 1)))
        = (idx, idx + c * b ^ (k + 1)) := by
      split
      · rename_i h0; rw [hlen, hl h0]
      · rfl
    have hcap' : idx + (c * nodes b k + c * b ^ (k + 1)) ≤ cap := by
      rw [← Nat.mul_add]; exact hcap
    have hpn := Nat.mul_le_mul_left c (pow_le_nodes b k)
    obtain ⟨fs1, h1, h2, h3⟩ := DiskStore.processLayer_ok (A := A) (w := c * b ^ k) (level := l)
      (rs := idx) (ws := idx + c * b ^ (k + 1)) hb hq hp (by omega) (by omega) hσ
      (nextRow_eq (by omega)) (hs.nextRow A.nodeHash b l idx)
    rw [← hw] at h1
    obtain ⟨idx', s2, fs2, g1, g2, g3⟩ := ih f c (l + 1) (idx + c * b ^ (k + 1)) _ fs1 hc ⟨_, h2⟩
      (by omega) (by omega)
    refine ⟨idx', s2, fs2, ?_, g2, by omega⟩
    rw [show l + (k + 1) = l + 1 + k by omega, ← g1, ← Nat.add_assoc]
    conv => lhs; unfold DiskStore.buildLoop
    simp only [hgt, ↓reduceIte]
    rw [hrw]
    dsimp only
    rw [M.bind_ok h1, hb.shiftRight]
    have : c * b ^ (k + 1) / b = c * b ^ k := by
      rw [hw, Nat.mul_div_cancel_left _ (by omega)]
    rw [this, hlen]

theorem mmapTasks_one {b q c : Nat} (hb : Arity b) (hq : b * q = buildChunkNodes) (hc : 0 < c)
    (hcb : c < b) : mmapTasks E b c = 1 := by
  have hb' : b ≤ buildChunkNodes := by
    rw [← hq]
    rcases Nat.eq_zero_or_pos q with h | h
    · subst h; simp [buildChunkNodes] at hq
    · exact Nat.le_mul_of_pos_right _ h
  have hp := LawfulElement.byteLen_pos (E := E)
  have hq0 : 0 < q := by
    rcases Nat.eq_zero_or_pos q with h | h
    · subst h; simp [buildChunkNodes] at hq
    · exact h
  unfold mmapTasks
  dsimp only
  rw [writeChunkWidth_eq hb hq, numChunks_one hc (by omega)]
  apply Nat.min_eq_left
  rw [Nat.le_div_iff_mul_le (Nat.mul_pos hq0 hp)]
  have := Nat.mul_pos hc hp
  omega

theorem processLayer_short {A : Alg E} {b q cap c l idx : Nat} (hb : Arity b)
    (hq : b * q = buildChunkNodes)
    {σ : Sched} (hσ : σ.Valid) (hc : 0 < c) (hcb : c < b) {s : DiskStore E} {fs : FS}
    (hs : Full fs s cap (idx + c)) (ws : Nat) :
    DiskStore.processLayer A b σ s c l idx ws fs
      = (.error (.err "Invalid hashed node length"), fs) := by
  obtain ⟨g, hs⟩ := hs
  obtain ⟨bs, hbs, _⟩ := hs.inv
  have hlen : s.len = idx + c := hs.len_eq
  have hb' : b ≤ buildChunkNodes := by
    rw [← hq]
    rcases Nat.eq_zero_or_pos q with h | h
    · subst h; simp [buildChunkNodes] at hq
    · exact Nat.le_mul_of_pos_right _ h
  unfold DiskStore.processLayer
  rw [M.bind_ok (a := ()) (fs' := fs) (by
        unfold FS.openFile; rw [M.get_run, FS.contents_ok hbs]; rfl),
    M.bind_ok (mEnsure_true (by rw [← hq]; exact Nat.mul_mod_right b q) _ _)]
  apply runSteps_one_error
  · unfold DiskStore.layerRead
    dsimp only
    rw [Nat.zero_mul, Nat.add_zero, Nat.add_sub_cancel_left, Nat.min_eq_right (by omega),
      DiskStore.readRange_eq hc (by omega) (fun i _ hi => hs.vals i hi), Res.ok_bind,
      hashChunk_short A l hc hcb _ (by simp)]
  · rw [mmapTasks_one hb hq hc hcb]
    exact hσ l 1

theorem build_err {A : Alg E} {b c q cap rows : Nat} (hb : Arity b) (hb' : b ≤ buildChunkNodes)
    (hc : 1 < c) (hcb : c < b) (hev : c * b ^ q % 2 = 0) {σ : Sched} (hσ : σ.Valid)
    (hcap : c * nodes b q ≤ cap) {s : DiskStore E} {fs : FS} (hs : Full fs s cap (c * b ^ q))
    (cfg : Option StoreConfig) :
    ∃ m fs', DiskStore.build A b σ s (c * b ^ q) rows cfg fs = (.error (.err m), fs') := by
  have hb2 := hb.two_le
  obtain ⟨q', hq'⟩ := exists_quot hb hb'
  have hfuel : q < c * b ^ q := by
    have := le_pow_of_two_le hb2 q
    have : b ^ q ≤ c * b ^ q := Nat.le_mul_of_pos_left _ (by omega)
    omega
  have hlen : s.len = c * b ^ q := hs.choose_spec.len_eq
  obtain ⟨f, hf⟩ : ∃ f, c * b ^ q + 1 = (f + 1) + q := ⟨c * b ^ q - q, by omega⟩
  obtain ⟨idx, s1, fs1, h1, h2, h3⟩ := buildLoop_reach (A := A) (cap := cap) hb hq' hσ q (f + 1) c 0 0
      s fs (by omega) (by simpa using hs) (fun _ => rfl) (by simpa using hcap)
  refine ⟨"Invalid hashed node length", fs1, ?_⟩
  unfold DiskStore.build
  rw [M.bind_ok (mEnsure_true ((eq_nextPow2_iff b).2 hb.pow2).symm _ _),
    M.bind_ok (mEnsure_true hlen _ _), M.bind_ok (mEnsure_true hev _ _), hf]
  apply M.bind_error
  rw [h1]
  have hl1 : s1.len = idx + c := h2.choose_spec.len_eq
  unfold DiskStore.buildLoop
  simp only [gt_iff_lt, hc, ↓reduceIte]
  have hrw : (if 0 + q = 0 then (0, s1.len) else (idx, idx + c)) = (idx, idx + c) := by
    split
    · rename_i h0; rw [hl1, h3 h0]
    · rfl
  rw [hrw]
  exact M.bind_error (processLayer_short hb hq' hσ (by omega) hcb h2 _)

theorem build_wide {A : Alg E} {b n cap rows : Nat} (hb : Arity b) (hb' : buildChunkNodes < b)
    (hn : b ≤ n) (hev : n % 2 = 0) (σ : Sched) {s : DiskStore E} {fs : FS} (hs : Full fs s cap n)
    (cfg : Option StoreConfig) :
    ∃ m fs', DiskStore.build A b σ s n rows cfg fs = (.error (.err m), fs') := by
  have hlen : s.len = n := hs.choose_spec.len_eq
  obtain ⟨bs, hbs, _⟩ := hs.choose_spec.inv
  refine ⟨"Invalid chunk size", fs, ?_⟩
  · unfold DiskStore.build
    rw [M.bind_ok (mEnsure_true ((eq_nextPow2_iff b).2 hb.pow2).symm _ _),
      M.bind_ok (mEnsure_true hlen _ _), M.bind_ok (mEnsure_true hev _ _)]
    apply M.bind_error
    unfold DiskStore.buildLoop
    simp only [gt_iff_lt, show 1 < n by simp only [buildChunkNodes] at *; omega, ↓reduceIte]
    apply M.bind_error
    unfold DiskStore.processLayer
    rw [M.bind_ok (a := ()) (fs' := fs) (by
        unfold FS.openFile; rw [M.get_run, FS.contents_ok hbs]; rfl)]
    exact M.bind_error (mEnsure_false (by rw [Nat.mod_eq_of_lt hb']; simp [buildChunkNodes]) _ _)

theorem build_len {A : Alg E} {b n rows : Nat} (σ : Sched) {s : DiskStore E} (fs : FS)
    (hs : s.len ≠ n) (cfg : Option StoreConfig) :
    ∃ m, DiskStore.build A b σ s n rows cfg fs = (.error (.err m), fs) := by
  unfold DiskStore.build
  by_cases hb : nextPow2 b = b
  · rw [M.bind_ok (mEnsure_true hb _ _), M.bind_error (mEnsure_false hs _ _)]
    exact ⟨_, rfl⟩
  · rw [M.bind_error (mEnsure_false hb _ _)]
    exact ⟨_, rfl⟩

end DiskStore

/-! ### Laws of rejection -/

/-- How the builds treat leaf counts they cannot turn into a tree.  `clean n`: with `n` leaves the
failure is an orderly `Err` (a panic otherwise). -/
class RejectingStore (S : Type) (E : outParam Type) [Element E] [Store S E] extends
    LawfulStore S E where
  clean : Nat → Prop
  build_err : ∀ {A : Alg E} {b c q : Nat}, Arity b → b ≤ buildChunkNodes → 1 ≤ q → 1 < c → c < b →
    c * b ^ q % 2 = 0 → ∀ {σ : Sched}, σ.Valid → ∀ {s : S} {fs : FS},
    Full fs s (c * nodes b q) (c * b ^ q) → ∀ cfg : Option StoreConfig,
    ∃ e fs', Store.build A b σ s (c * b ^ q) (q + 1) cfg fs = (.error e, fs') ∧
      (clean (c * b ^ q) → ∃ m, e = .err m) ∧ (¬ clean (c * b ^ q) → ∃ m, e = .panic m)
  build_wide : ∀ {A : Alg E} {b n cap rows : Nat}, Arity b → buildChunkNodes < b → b ≤ n → n % 2 = 0 →
    ∀ (σ : Sched) {s : S} {fs : FS}, Full fs s cap n → ∀ cfg : Option StoreConfig,
    ∃ m fs', Store.build A b σ s n rows cfg fs = (.error (.err m), fs')
  build_len : ∀ {A : Alg E} {b n rows : Nat} (σ : Sched) {s : S} (fs : FS), len (E := E) s ≠ n →
    ∀ cfg : Option StoreConfig, ∃ m, Store.build A b σ s n rows cfg fs = (.error (.err m), fs)

section instances
variable {E : Type} [Element E] [LawfulElement E]

instance VecStore.rejecting : RejectingStore (VecStore E) E where
  clean _ := True
  build_err {A b c q} hb hb' hq hc hcb hev σ hσ s fs hs cfg := by
    obtain ⟨g, hs⟩ := hs
    obtain ⟨e, fs', h1, h2, -⟩ := defaultBuild_err (A := A) (cap := c * nodes b q + 1) hb hb' hq hc hcb hev hσ
      (Nat.le_succ _) (s := s) (fs := fs) ⟨g, trivial, hs.len_eq, hs.vals⟩ cfg
    exact ⟨e, fs', h1, fun _ => h2 (Or.inr (Nat.lt_succ_self _)), fun h => absurd trivial h⟩
  build_wide hb hb' hn hev σ _ _ hs cfg := defaultBuild_wide hb hb' hn hev σ hs cfg
  build_len σ _ fs hs cfg := defaultBuild_len σ fs hs cfg

instance DiskStore.rejecting [FloatRows] : RejectingStore (DiskStore E) E where
  clean _ := True
  build_err hb hb' _ hc hcb hev _ hσ _ _ hs cfg := by
    obtain ⟨m, fs', h⟩ := DiskStore.build_err hb hb' hc hcb hev hσ (Nat.le_refl _) hs cfg
    exact ⟨_, fs', h, fun _ => ⟨m, rfl⟩, fun h => absurd trivial h⟩
  build_wide hb hb' hn hev σ _ _ hs cfg := DiskStore.build_wide hb hb' hn hev σ hs cfg
  build_len σ _ fs hs cfg := DiskStore.build_len σ fs hs cfg

/-- A write at the capacity indexes past the end of the map. -/
theorem MmapStore.writeAt_full {s : MmapStore E} {n cap : Nat} (hn : s.map = some n)
    (h : n = cap * Element.byteLen E) (e : E) (fs : FS) :
    ∃ m fs', writeAt s e cap fs = (.error (.panic m), fs') := by
  have hp := LawfulElement.byteLen_pos (E := E)
  have hl := LawfulElement.length_toBytes e
  refine ⟨"range end index out of range for slice", fs, ?_⟩
  show MmapStore.writeAt s e cap fs = _
  unfold MmapStore.writeAt
  rw [M.bind_ok (a := s) (fs' := fs) (by unfold MmapStore.ensureMap; rw [hn]; rfl), if_pos hl]
  apply M.bind_error
  unfold MmapStore.mapWrite
  rw [hn]
  dsimp only
  rw [if_neg (by omega)]
  rfl

instance MmapStore.rejecting : RejectingStore (MmapStore E) E where
  clean n := smallTreeBuild < n
  build_err hb hb' hq hc hcb hev _ hσ _ _ hs cfg := by
    obtain ⟨e, fs', h1, h2, h3⟩ := defaultBuild_err hb hb' hq hc hcb hev hσ (Nat.le_refl _) hs cfg
    refine ⟨e, fs', h1, fun h => h2 (Or.inl h), fun h => h3 (by omega) rfl ?_⟩
    rintro s fs el ⟨bs, g1, g2, g3⟩
    exact MmapStore.writeAt_full g2 g3 el fs
  build_wide hb hb' hn hev σ _ _ hs cfg := defaultBuild_wide hb hb' hn hev σ hs cfg
  build_len σ _ fs hs cfg := defaultBuild_len σ fs hs cfg

end instances

/-! ### The constructors -/
namespace BaseTree
section
variable {S E : Type} [Element E] [LawfulElement E] [Store S E] [RejectingStore S E] [FloatRows]

/-- A leaf count that passes the first checks without being a power of the arity. -/
def Ragged (b n : Nat) : Prop :=
  Arity b ∧ b ≤ buildChunkNodes ∧ IsPow2 n ∧ b ≤ n ∧ ¬ ∃ k, 1 ≤ k ∧ n = b ^ k

/-- `finish` of every constructor on a store that holds `n` leaves: a tree only for powers of the
arity. -/
theorem finish_cases {A : Alg E} {b n size rows : Nat} (hb : Arity b) (hf : FloatRows.FloorAt b n)
    (hsz : sizes b n = .ok (size, rows)) {σ : Sched} (hσ : σ.Valid) {s : S} {fs : FS}
    (hs : Full fs s size n) (cfg : Option StoreConfig)
    (hno : ¬ (b ≤ buildChunkNodes ∧ ∃ k, 1 ≤ k ∧ n = b ^ k)) :
    ∃ e fs', (do
        let (root, s) ← Store.build A b σ s n rows cfg
        pure (⟨s, n, size, rows, root⟩ : BaseTree S E) : M (BaseTree S E)) fs = (.error e, fs') ∧
      (RejectingStore.clean S n ∨ ¬ Ragged b n → ∃ m, e = .err m) ∧
      (¬ RejectingStore.clean S n → Ragged b n → ∃ m, e = .panic m) := by
  rcases Nat.lt_or_ge buildChunkNodes b with hw | hw
  · have h2 : ¬ (n ≤ 1 ∨ ¬ IsPow2 n ∨ ¬ IsPow2 b ∨ n < b) := by
      intro h
      obtain ⟨m, hm⟩ := sizes_err h
      rw [hsz] at hm
      simp at hm
    simp only [not_or, not_le, not_lt, not_not] at h2
    have hev : n % 2 = 0 := by
      obtain ⟨m, rfl⟩ := h2.2.1
      rcases m with _ | m
      · simp at h2
      · rw [Nat.pow_succ]; omega
    obtain ⟨m, fs', h⟩ := RejectingStore.build_wide (A := A) (rows := rows) hb hw h2.2.2.2 hev σ hs cfg
    exact ⟨.err m, fs', M.bind_error h, fun _ => ⟨m, rfl⟩, fun _ h => absurd h.2.1 (by omega)⟩
  · rcases sizes_cases hb hf with ⟨m, h⟩ | h | ⟨c, q, hq, hc, hcb, hn, hp2, h⟩
    · rw [hsz] at h; simp at h
    · exact absurd ⟨hw, h⟩ hno
    · rw [hsz] at h
      simp only [Except.ok.injEq, Prod.mk.injEq] at h
      obtain ⟨rfl, rfl⟩ := h
      subst hn
      have hev : c * b ^ q % 2 = 0 := by
        have h2 := even_pow hb hq
        rw [Nat.mul_mod, h2]; simp
      obtain ⟨e, fs', h, h', h''⟩ := RejectingStore.build_err (A := A) hb hw hq hc hcb hev hσ hs cfg
      refine ⟨e, fs', M.bind_error h, ?_, fun h _ => h'' h⟩
      rintro (h | h)
      · exact h' h
      · refine absurd ⟨hb, hw, hp2, ?_, fun ⟨k, _, hk⟩ => not_pow_of_mul hc hcb ⟨k, hk⟩⟩ h
        calc b ≤ b ^ q := Nat.le_self_pow (by omega) b
          _ ≤ c * b ^ q := Nat.le_mul_of_pos_left _ (by omega)

/-- Outcomes of a constructor on `n` leaves that cannot form a tree. -/
def Rejected (S : Type) {E : Type} [Element E] [LawfulElement E] [Store S E] [RejectingStore S E] (b n : Nat) (r : Res (BaseTree S E) × FS) :
    Prop := ∃ e, r.1 = .error e ∧ (RejectingStore.clean S n ∨ ¬ Ragged b n → ∃ m, e = .err m) ∧
      (¬ RejectingStore.clean S n → Ragged b n → ∃ m, e = .panic m)

/-- The arguments form a full tree. -/
def Buildable (b n : Nat) : Prop := Arity b ∧ b ≤ buildChunkNodes ∧ ∃ k, 1 ≤ k ∧ n = b ^ k

omit [LawfulElement E] [Store S E] [RejectingStore S E] [Element E] in
theorem sizes_ok_of {b n : Nat} (h : Ragged b n) : Res.IsOk (sizes b n) := by
  obtain ⟨hb, -, h2, h4, -⟩ := h
  have hb2 := hb.two_le
  have hr : ∃ r, merkleTreeLen n b = .ok r := by
    obtain ⟨c, q, hn, hq, hc, hcb, _⟩ := pow2_split hb h2 h4
    rcases Nat.eq_or_lt_of_le hc with h | h
    · exact ⟨_, by rw [hn, ← h, Nat.one_mul, merkleTreeLen_pow hb hq]⟩
    · exact ⟨_, by rw [hn, merkleTreeLen_mul hb hq h hcb]⟩
  unfold BaseTree.sizes
  rw [ensure_true (by omega), Res.ok_bind, ensure_true ((eq_nextPow2_iff _).2 h2).symm, Res.ok_bind,
    ensure_true ((eq_nextPow2_iff _).2 hb.pow2).symm, Res.ok_bind]
  obtain ⟨r, hr⟩ := hr
  rw [hr]; exact ⟨_, rfl⟩

theorem rejected_of_sizes {b n : Nat} (hb : b ≠ 1) (h : ¬ Arity b ∨ Res.IsErr (sizes b n))
    {f : Nat × Nat → M (BaseTree S E)} {fs : FS} :
    Rejected S b n ((M.ofRes (sizes b n) >>= f) fs) := by
  have h : Res.IsErr (sizes b n) := by
    rcases h with h | h
    · exact sizes_err (Or.inr (Or.inr (Or.inl fun hp => h (arity_of_pow2 hp hb))))
    · exact h
  obtain ⟨m, hm⟩ := h
  refine ⟨.err m, ?_, fun _ => ⟨m, rfl⟩, fun _ h => ?_⟩
  rotate_left
  · obtain ⟨x, hx⟩ := sizes_ok_of h
    rw [hm] at hx; cases hx
  rw [M.bind_error (x := M.ofRes (sizes b n)) (e := .err m) (fs' := fs) (by rw [M.ofRes_run, hm])]

theorem sizes_leafs_le {b n size rows : Nat} (hb : Arity b) (hf : FloatRows.FloorAt b n)
    (h : sizes b n = .ok (size, rows)) : n ≤ size := by
  rcases sizes_cases hb hf with ⟨m, h'⟩ | ⟨k, hk, rfl⟩ | ⟨c, q, hq, hc, hcb, rfl, hp2, h'⟩
  · rw [h] at h'; simp at h'
  · rw [sizes_ok hb hk (hf.exact hb (by omega))] at h
    simp only [Except.ok.injEq, Prod.mk.injEq] at h
    rw [← h.1]; exact pow_le_nodes b k
  · rw [h] at h'
    simp only [Except.ok.injEq, Prod.mk.injEq] at h'
    rw [h'.1]; exact Nat.mul_le_mul_left c (pow_le_nodes b q)

variable {A : Alg E} (hA : A.LawfulReset) {b : Nat} (hb : b ≠ 1) {σ : Sched} (hσ : σ.Valid)
include hA hb hσ

theorem tryFromIter_err {items : List E} (hf : FloatRows.FloorAt b items.length)
    (hno : ¬ Buildable b items.length) (fs : FS) :
    Rejected S b items.length (tryFromIter A b σ (some items.length) (items.map .ok) fs) := by
  unfold tryFromIter
  dsimp only
  by_cases ha : Arity b
  swap
  · exact rejected_of_sizes hb (Or.inl ha)
  rcases hsz : sizes b items.length with e | ⟨size, rows⟩
  · rw [← hsz]
    refine rejected_of_sizes hb (Or.inr ?_)
    exact isErr_of_not_ok (sizes_returns hb) (by rw [hsz]; simp)
  obtain ⟨s, fs1, h1, h2, h3, h4, h5⟩ := LawfulStore.new_ok (S := S) fs size
  obtain ⟨s2, fs2, g1, g2, g3, g4, g5⟩ := populateData_ok hA items (A.leafHash Element.default)
    (sizes_leafs_le ha hf hsz) h2 ((LawfulStore.isEmpty_iff s).2 h3) h3
  obtain ⟨e, fs3, r1, r2⟩ := finish_cases (A := A) ha hf hsz hσ ⟨_, g2⟩ none
    (fun h => hno ⟨ha, h⟩)
  refine ⟨e, ?_, r2⟩
  rw [M.bind_ok (M.ofRes_ok _ _)]
  dsimp only
  rw [M.bind_ok h1, M.bind_ok g1, r1]

theorem tryFromIterWithConfig_err {items : List E} (hf : FloatRows.FloorAt b items.length)
    (hno : ¬ Buildable b items.length) {fs : FS} {c : StoreConfig} (hc : fs.file c.file = none) :
    Rejected S b items.length (tryFromIterWithConfig A b σ (some items.length) (items.map .ok) c fs) := by
  unfold tryFromIterWithConfig
  dsimp only
  by_cases ha : Arity b
  swap
  · exact rejected_of_sizes hb (Or.inl ha)
  rcases hsz : sizes b items.length with e | ⟨size, rows⟩
  · rw [← hsz]
    refine rejected_of_sizes hb (Or.inr ?_)
    exact isErr_of_not_ok (sizes_returns hb) (by rw [hsz]; simp)
  obtain ⟨s, fs1, h1, h2, h3, h4, h5⟩ := LawfulStore.newWithConfig_ok (S := S) fs size b c hc
  obtain ⟨s2, fs2, g1, g2, g3, g4, g5⟩ := populateData_ok hA items (A.leafHash Element.default)
    (sizes_leafs_le ha hf hsz) h2 ((LawfulStore.isEmpty_iff s).2 h3) h3
  obtain ⟨e, fs3, r1, r2⟩ := finish_cases (A := A) ha hf hsz hσ ⟨_, g2⟩ (some c)
    (fun h => hno ⟨ha, h⟩)
  refine ⟨e, ?_, r2⟩
  rw [M.bind_ok (M.ofRes_ok _ _)]
  dsimp only
  rw [M.bind_ok h1, h4]
  simp only [Bool.false_eq_true, ↓reduceIte]
  rw [M.bind_ok (M.expect_ok _ g1), r1]

theorem fromParIter_err {π : ParOrder} (hπ : π.Valid) {items : List E}
    (hf : FloatRows.FloorAt b items.length)
    (hno : ¬ Buildable b items.length) (fs : FS) :
    Rejected S b items.length (fromParIter A b σ π items fs) := by
  unfold fromParIter
  dsimp only
  by_cases ha : Arity b
  swap
  · exact rejected_of_sizes hb (Or.inl ha)
  rcases hsz : sizes b items.length with e | ⟨size, rows⟩
  · rw [← hsz]
    refine rejected_of_sizes hb (Or.inr ?_)
    exact isErr_of_not_ok (sizes_returns hb) (by rw [hsz]; simp)
  obtain ⟨s, fs1, h1, h2, h3, h4, h5⟩ := LawfulStore.new_ok (S := S) fs size
  obtain ⟨s2, fs2, g1, g2, g3, g4, g5⟩ := populateDataPar_ok hA items (A.leafHash Element.default)
    (sizes_leafs_le ha hf hsz) hπ h2 ((LawfulStore.isEmpty_iff s).2 h3) h3
  obtain ⟨e, fs3, r1, r2⟩ := finish_cases (A := A) ha hf hsz hσ ⟨_, g2⟩ none
    (fun h => hno ⟨ha, h⟩)
  refine ⟨e, ?_, r2⟩
  rw [M.bind_ok (M.ofRes_ok _ _)]
  dsimp only
  rw [M.bind_ok (M.expect_ok _ h1), M.bind_ok g1, r1]

theorem fromParIterWithConfig_err {π : ParOrder} (hπ : π.Valid) {items : List E}
    (hf : FloatRows.FloorAt b items.length)
    (hno : ¬ Buildable b items.length) {fs : FS} {c : StoreConfig} (hc : fs.file c.file = none) :
    Rejected S b items.length (fromParIterWithConfig A b σ π items c fs) := by
  unfold fromParIterWithConfig
  dsimp only
  by_cases ha : Arity b
  swap
  · exact rejected_of_sizes hb (Or.inl ha)
  rcases hsz : sizes b items.length with e | ⟨size, rows⟩
  · rw [← hsz]
    refine rejected_of_sizes hb (Or.inr ?_)
    exact isErr_of_not_ok (sizes_returns hb) (by rw [hsz]; simp)
  obtain ⟨s, fs1, h1, h2, h3, h4, h5⟩ := LawfulStore.newWithConfig_ok (S := S) fs size b c hc
  obtain ⟨s2, fs2, g1, g2, g3, g4, g5⟩ := populateDataPar_ok hA items (A.leafHash Element.default)
    (sizes_leafs_le ha hf hsz) hπ h2 ((LawfulStore.isEmpty_iff s).2 h3) h3
  obtain ⟨e, fs3, r1, r2⟩ := finish_cases (A := A) ha hf hsz hσ ⟨_, g2⟩ (some c)
    (fun h => hno ⟨ha, h⟩)
  refine ⟨e, ?_, r2⟩
  rw [M.bind_ok (M.ofRes_ok _ _)]
  dsimp only
  rw [M.bind_ok h1, h4]
  simp only [Bool.false_eq_true, ↓reduceIte]
  rw [M.bind_ok g1, r1]

omit hA in
theorem fromByteSlice_err {es : List E} (hf : FloatRows.FloorAt b es.length)
    (hno : ¬ Buildable b es.length) (fs : FS) :
    Rejected S b es.length (fromByteSlice A b σ (encodeAll es) fs) := by
  unfold fromByteSlice
  rw [M.bind_ok (a := es.length) (fs' := fs) (by
      unfold sliceLeafs
      rw [M.ofRes_run, modP_encodeAll, Res.ok_bind, ensure_true rfl, Res.ok_bind, div_encodeAll])]
  by_cases ha : Arity b
  swap
  · exact rejected_of_sizes hb (Or.inl ha)
  rcases hsz : sizes b es.length with e | ⟨size, rows⟩
  · rw [← hsz]
    refine rejected_of_sizes hb (Or.inr ?_)
    exact isErr_of_not_ok (sizes_returns hb) (by rw [hsz]; simp)
  obtain ⟨s, fs1, h1, h2, h3⟩ := LawfulStore.newFromSlice_ok (S := S) fs size es Element.default
    (sizes_leafs_le ha hf hsz)
  obtain ⟨e, fs3, r1, r2⟩ := finish_cases (A := A) ha hf hsz hσ ⟨_, h2⟩ none
    (fun h => hno ⟨ha, h⟩)
  refine ⟨e, ?_, r2⟩
  rw [M.bind_ok (M.ofRes_ok _ _)]
  dsimp only
  rw [M.bind_ok h1, r1]

omit hA in
theorem fromByteSliceWithConfig_err {es : List E} (hf : FloatRows.FloorAt b es.length)
    (hno : ¬ Buildable b es.length) {fs : FS} {c : StoreConfig} (hc : fs.file c.file = none) :
    Rejected S b es.length (fromByteSliceWithConfig A b σ (encodeAll es) c fs) := by
  unfold fromByteSliceWithConfig
  rw [M.bind_ok (a := es.length) (fs' := fs) (by
      unfold sliceLeafs
      rw [M.ofRes_run, modP_encodeAll, Res.ok_bind, ensure_true rfl, Res.ok_bind, div_encodeAll])]
  by_cases ha : Arity b
  swap
  · exact rejected_of_sizes hb (Or.inl ha)
  rcases hsz : sizes b es.length with e | ⟨size, rows⟩
  · rw [← hsz]
    refine rejected_of_sizes hb (Or.inr ?_)
    exact isErr_of_not_ok (sizes_returns hb) (by rw [hsz]; simp)
  obtain ⟨s, fs1, h1, h2, h3⟩ := LawfulStore.newFromSliceWithConfig_ok (S := S) fs size b es
    Element.default c hc (sizes_leafs_le ha hf hsz)
  obtain ⟨e, fs3, r1, r2⟩ := finish_cases (A := A) ha hf hsz hσ ⟨_, h2⟩ (some c)
    (fun h => hno ⟨ha, h⟩)
  refine ⟨e, ?_, r2⟩
  rw [M.bind_ok (M.ofRes_ok _ _)]
  dsimp only
  rw [M.bind_ok h1, r1]

end
end BaseTree
end Verif
