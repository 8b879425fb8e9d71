import Verif.Model.Merkle
import Verif.Lemmas.StoreLaws
/-!
Filling a store with leaf hashes, sequentially and in parallel.
-/
set_option linter.unusedSectionVars false
namespace Verif
open Spec StoreOps LawfulWrite

section chunks
variable {α : Type}

theorem chunks.go_getElem? (n : Nat) (hn : 0 < n) : ∀ (f : Nat) (xs : List α), xs.length ≤ f → ∀ k,
    (chunks.go n f xs)[k]? = if n * k < xs.length then some ((xs.drop (n * k)).take n) else none
  | 0, xs, h, k => by
    have : xs = [] := List.eq_nil_of_length_eq_zero (by omega)
    subst this; simp [chunks.go]
  | f + 1, xs, h, k => by
    unfold chunks.go
    cases xs with
    | nil => simp
    | cons x xs =>
      simp only [List.isEmpty_cons, Bool.false_eq_true, ↓reduceIte]
      cases k with
      | zero => simp
      | succ k =>
        have h' : ((x :: xs).drop n).length ≤ f := by simp at h ⊢; omega
        rw [List.getElem?_cons_succ, chunks.go_getElem? n hn f _ h' k, List.drop_drop]
        have e : n * (k + 1) = n + n * k := by ring
        rw [e]
        simp only [List.length_drop]
        by_cases hc : n + n * k < (x :: xs).length
        · rw [if_pos (by omega), if_pos hc]
        · rw [if_neg (by omega), if_neg hc]

theorem chunks_getElem? {n : Nat} (hn : 0 < n) (xs : List α) (k : Nat) :
    (chunks n xs)[k]? = if n * k < xs.length then some ((xs.drop (n * k)).take n) else none :=
  chunks.go_getElem? n hn _ xs (Nat.le_refl _) k

theorem lt_chunks_length {n : Nat} (hn : 0 < n) (xs : List α) (k : Nat) :
    k < (chunks n xs).length ↔ n * k < xs.length := by
  have := chunks_getElem? hn xs k
  constructor
  · intro h
    by_contra hc
    rw [if_neg hc, List.getElem?_eq_none_iff] at this
    omega
  · intro h
    by_contra hc
    rw [if_pos h, List.getElem?_eq_none (by omega)] at this
    cases this

theorem chunks_getD {n : Nat} (hn : 0 < n) (xs : List α) {k : Nat} (h : k < (chunks n xs).length) :
    (chunks n xs).getD k [] = (xs.drop (n * k)).take n := by
  rw [List.getD_eq_getElem?_getD, chunks_getElem? hn, if_pos ((lt_chunks_length hn xs k).1 h)]
  rfl

end chunks

section populate
variable {S E : Type} [Element E] [LawfulElement E] [StoreOps S E] [LawfulWrite S E]

theorem Filled.congr {fs : FS} {s : S} {cap n : Nat} {g g' : Nat → E} (h : Filled fs s cap n g)
    (hg : ∀ i, i < n → g i = g' i) : Filled fs s cap n g' :=
  ⟨h.inv, h.len_eq, fun i hi => hg i hi ▸ h.vals i hi⟩

/-- Appending leaf hashes to a filled store. -/
theorem Filled.append {fs : FS} {s : S} {cap n : Nat} {hs : List E} (d : E)
    (h : Filled fs s cap n (fun i => hs.getD i d)) (hcap : hs.length ≤ cap) (hn : n ≤ hs.length)
    {es : List E} (he : ∃ t, hs.drop n = es ++ t) :
    ∃ s' fs', copyFromSlice s (encodeAll es) (len (E := E) s) fs = (.ok s', fs') ∧
      Filled fs' s' cap (n + es.length) (fun i => hs.getD i d) ∧ SameOutside (owns s) fs fs' ∧
      owns s' = owns s ∧ loadedFromDisk (E := E) s' = loadedFromDisk (E := E) s := by
  obtain ⟨t, ht⟩ := he
  have hl : hs.length = n + es.length + t.length := by
    have := congrArg List.length ht
    simp at this; omega
  obtain ⟨s', fs', h1, h2, h3, h4, h5, h6, h7, h8⟩ := copy es (start := n) h.inv (by omega)
  refine ⟨s', fs', by rw [h.len_eq]; exact h1, ⟨h2, by rw [h3, h.len_eq]; omega, ?_⟩, h6, h7, h8⟩
  intro i hi
  rcases Nat.lt_or_ge i n with hlt | hge
  · exact h5 i _ (Or.inl hlt) (h.vals i hlt)
  · have hj : i - n < es.length := by omega
    have e : hs.getD i d = es[i - n] := by
      have : (hs.drop n)[i - n]? = some es[i - n] := by
        rw [ht, List.getElem?_append_left hj, List.getElem?_eq_getElem hj]
      rw [List.getElem?_drop, show n + (i - n) = i by omega] at this
      rw [List.getD_eq_getElem?_getD, this]; rfl
    have := h4 (i - n) hj
    rw [show n + (i - n) = i by omega] at this
    simp only [e]; exact this

theorem populateLoop_ok {A : Alg E} (hA : A.LawfulReset) {cap : Nat} (hs : List E) (d : E)
    (hcap : hs.length ≤ cap) : ∀ (items : List E) (a : A.σ) (pend : List E) (n : Nat) (s : S) (fs : FS),
    Filled fs s cap n (fun i => hs.getD i d) → n ≤ hs.length →
    hs.drop n = pend ++ items.map A.leafHash →
    ∃ pend' n' s' fs', populateLoop A (items.map .ok) a (encodeAll pend) s fs
        = (.ok (encodeAll pend', s'), fs') ∧ Filled fs' s' cap n' (fun i => hs.getD i d) ∧
      n' ≤ hs.length ∧ hs.drop n' = pend' ∧ SameOutside (owns s) fs fs' ∧ owns s' = owns s ∧
      loadedFromDisk (E := E) s' = loadedFromDisk (E := E) s
  | [], a, pend, n, s, fs, hf, hn, hd =>
    ⟨pend, n, s, fs, rfl, hf, hn, by simpa using hd, SameOutside.refl _ _, rfl, rfl⟩
  | it :: items, a, pend, n, s, fs, hf, hn, hd => by
    have hbuf : encodeAll pend ++ Element.toBytes (A.leafHash it) = encodeAll (pend ++ [A.leafHash it]) := by
      rw [encodeAll_append]; simp [encodeAll]
    have hd' : hs.drop n = (pend ++ [A.leafHash it]) ++ items.map A.leafHash := by
      rw [hd]; simp
    rw [List.map_cons, populateLoop, M.bind_ok (M.ofRes_ok _ _)]
    have hleaf : (A.leaf (A.reset a) it).1 = A.leafHash it := by rw [hA]; rfl
    dsimp only
    rw [hleaf, hbuf]
    split
    · obtain ⟨s1, fs1, h1, h2, h3, h4, h5⟩ := hf.append d hcap hn ⟨_, hd'⟩
      rw [M.bind_ok h1]
      have hd2 : hs.drop (n + (pend ++ [A.leafHash it]).length) = [] ++ items.map A.leafHash := by
        rw [← List.drop_drop, hd']
        rw [List.drop_append_of_le_length (Nat.le_refl _), List.drop_length]
      have hn2 : n + (pend ++ [A.leafHash it]).length ≤ hs.length := by
        have := congrArg List.length hd'
        simp at this ⊢; omega
      obtain ⟨p', n', s', fs', g1, g2, g3, g4, g5, g6, g7⟩ := populateLoop_ok hA hs d hcap items
        (A.leaf (A.reset a) it).2 [] _ s1 fs1 h2 hn2 hd2
      exact ⟨p', n', s', fs', g1, g2, g3, g4, h3.trans (h4 ▸ g5), g6.trans h4, g7.trans h5⟩
    · exact populateLoop_ok hA hs d hcap items _ _ n s fs hf hn hd'

theorem populateData_ok {A : Alg E} (hA : A.LawfulReset) {cap : Nat} (items : List E) (d : E)
    (hcap : items.length ≤ cap) {s : S} {fs : FS} (hinv : Inv fs s cap)
    (he : isEmpty (E := E) s = true) (hlen : len (E := E) s = 0) :
    ∃ s' fs', populateData A s (items.map .ok) fs = (.ok s', fs') ∧
      Filled fs' s' cap items.length (fun i => (items.map A.leafHash).getD i d) ∧
      SameOutside (owns s) fs fs' ∧ owns s' = owns s ∧
      loadedFromDisk (E := E) s' = loadedFromDisk (E := E) s := by
  unfold populateData
  rw [he, if_neg (by simp)]
  have h0 : Filled fs s cap 0 (fun i => (items.map A.leafHash).getD i d) :=
    ⟨hinv, hlen, fun i hi => by omega⟩
  obtain ⟨p, n, s1, fs1, h1, h2, h3, h4, h5, h6, h7⟩ := populateLoop_ok hA (items.map A.leafHash) d
    (by simpa using hcap) items A.init [] 0 s fs h0 (by omega) (by simp)
  have h1' : populateLoop A (items.map .ok) A.init [] s fs = (.ok (encodeAll p, s1), fs1) := h1
  rw [M.bind_ok h1']
  obtain ⟨s2, fs2, g1, g2, g3, g4, g5⟩ := h2.append d (by simpa using hcap) h3 (es := p) ⟨[], by simpa using h4⟩
  refine ⟨s2, fs2, g1, ?_, h5.trans (h6 ▸ g3), g4.trans h6, g5.trans h7⟩
  have : n + p.length = items.length := by
    have := congrArg List.length h4
    simp at this h3; omega
  rw [← this]; exact g2

omit [LawfulElement E] in
theorem leafChunkBytes_eq {A : Alg E} (hA : A.LawfulReset) : ∀ (es : List E) (a : A.σ),
    leafChunkBytes A es a = encodeAll (es.map A.leafHash)
  | [], _ => rfl
  | e :: es, a => by
    have hleaf : (A.leaf (A.reset a) e).1 = A.leafHash e := by rw [hA]; rfl
    show Element.toBytes (A.leaf (A.reset a) e).1 ++ leafChunkBytes A es (A.leaf (A.reset a) e).2 = _
    rw [leafChunkBytes_eq hA es, hleaf]; rfl

theorem populateTasks_ok {A : Alg E} (hA : A.LawfulReset) {cap : Nat} (items : List E) (d : E)
    (hcap : items.length ≤ cap) : ∀ (ts : List Nat) (s : S) (fs : FS) (done : Nat → Prop),
    (∀ t ∈ ts, t < (chunks buildDataBlockSize items).length) →
    Inv fs s cap → len (E := E) s ≤ items.length →
    (∀ t, done t → t < (chunks buildDataBlockSize items).length →
      min items.length (buildDataBlockSize * t + buildDataBlockSize) ≤ len (E := E) s) →
    (∀ t, done t → ∀ i, buildDataBlockSize * t ≤ i → i < buildDataBlockSize * t + buildDataBlockSize →
      i < items.length → holds fs s i ((items.map A.leafHash).getD i d)) →
    ∃ s' fs', populateTasks A (chunks buildDataBlockSize items) ts s fs = (.ok s', fs') ∧
      Inv fs' s' cap ∧ len (E := E) s' ≤ items.length ∧
      (∀ t, (done t ∨ t ∈ ts) → t < (chunks buildDataBlockSize items).length →
        min items.length (buildDataBlockSize * t + buildDataBlockSize) ≤ len (E := E) s') ∧
      (∀ t, (done t ∨ t ∈ ts) → ∀ i, buildDataBlockSize * t ≤ i →
        i < buildDataBlockSize * t + buildDataBlockSize →
        i < items.length → holds fs' s' i ((items.map A.leafHash).getD i d)) ∧
      SameOutside (owns s) fs fs' ∧ owns s' = owns s ∧
      loadedFromDisk (E := E) s' = loadedFromDisk (E := E) s
  | [], s, fs, done, _, hinv, hl, hd, hh =>
    ⟨s, fs, rfl, hinv, hl, by simpa using hd, by simpa using hh, SameOutside.refl _ _, rfl, rfl⟩
  | t :: ts, s, fs, done, hts, hinv, hl, hd, hh => by
    have hB : 0 < buildDataBlockSize := by simp [buildDataBlockSize, buildChunkNodes]
    have ht := hts t (by simp)
    have ht' := (lt_chunks_length hB items t).1 ht
    obtain ⟨s1, fs1, h1, h2, h3, h4, h5, h6, h7, h8⟩ := copy
      (((items.drop (buildDataBlockSize * t)).take buildDataBlockSize).map A.leafHash)
      (start := buildDataBlockSize * t) hinv (by simp; omega)
    have hcl : (((items.drop (buildDataBlockSize * t)).take buildDataBlockSize).map A.leafHash).length
        = min buildDataBlockSize (items.length - buildDataBlockSize * t) := by simp
    obtain ⟨s2, fs2, g1, g2, g3, g4, g5, g6, g7, g8⟩ := populateTasks_ok hA items d hcap ts s1 fs1
      (fun u => done u ∨ u = t) (fun u hu => hts u (by simp [hu])) h2 (by rw [h3, hcl]; omega)
      (by
        rintro u (hu | rfl) hul
        · have := hd u hu hul
          omega
        · rw [h3, hcl]; omega)
      (by
        have key : ∀ i, buildDataBlockSize * t ≤ i →
            i < buildDataBlockSize * t + buildDataBlockSize →
            i < items.length → holds fs1 s1 i ((items.map A.leafHash).getD i d) := by
          intro i hi1 hi2 hi3
          have := h4 (i - buildDataBlockSize * t) (by rw [hcl]; omega)
          rw [show buildDataBlockSize * t + (i - buildDataBlockSize * t) = i by omega] at this
          simp only [List.getElem_map, List.getElem_take, List.getElem_drop,
            show buildDataBlockSize * t + (i - buildDataBlockSize * t) = i by omega] at this
          rw [List.getD_eq_getElem?_getD, List.getElem?_map, List.getElem?_eq_getElem hi3]
          exact this
        rintro u (hu | rfl) i hi1 hi2 hi3
        · by_cases hin : buildDataBlockSize * t ≤ i ∧ i < buildDataBlockSize * t + buildDataBlockSize
          · exact key i hin.1 hin.2 hi3
          · refine h5 i _ ?_ (hh u hu i hi1 hi2 hi3)
            rw [hcl]; omega
        · exact key i hi1 hi2 hi3)
    refine ⟨s2, fs2, ?_, g2, g3, ?_, ?_, h6.trans (h7 ▸ g6), g7.trans h7, g8.trans h8⟩
    · rw [populateTasks, leafChunkBytes_eq hA, chunks_getD hB items ht, M.bind_ok h1]
      exact g1
    · intro u hu hul
      refine g4 u ?_ hul
      rcases hu with hu | hu
      · exact Or.inl (Or.inl hu)
      · rcases List.mem_cons.1 hu with hu | hu
        · exact Or.inl (Or.inr hu)
        · exact Or.inr hu
    · intro u hu
      refine g5 u ?_
      rcases hu with hu | hu
      · exact Or.inl (Or.inl hu)
      · rcases List.mem_cons.1 hu with hu | hu
        · exact Or.inl (Or.inr hu)
        · exact Or.inr hu

theorem populateDataPar_ok {A : Alg E} (hA : A.LawfulReset) {cap : Nat} (items : List E) (d : E)
    (hcap : items.length ≤ cap) {π : ParOrder} (hπ : π.Valid) {s : S} {fs : FS} (hinv : Inv fs s cap)
    (he : isEmpty (E := E) s = true) (hlen : len (E := E) s = 0) :
    ∃ s' fs', populateDataPar A π s items fs = (.ok s', fs') ∧
      Filled fs' s' cap items.length (fun i => (items.map A.leafHash).getD i d) ∧
      SameOutside (owns s) fs fs' ∧ owns s' = owns s ∧
      loadedFromDisk (E := E) s' = loadedFromDisk (E := E) s := by
  have hB : 0 < buildDataBlockSize := by simp [buildDataBlockSize, buildChunkNodes]
  have hmem : ∀ t, t ∈ π (chunks buildDataBlockSize items).length ↔
      t < (chunks buildDataBlockSize items).length := fun t => by
    rw [(hπ _).mem_iff, List.mem_range]
  unfold populateDataPar
  rw [he, if_neg (by simp)]
  obtain ⟨s1, fs1, h1, h2, h3, h4, h5, h6, h7, h8⟩ := populateTasks_ok hA items d hcap
    (π (chunks buildDataBlockSize items).length) s fs (fun _ => False)
    (fun t ht => (hmem t).1 ht) hinv (by omega) (by simp) (by simp)
  have hdiv : ∀ i, i < items.length → i / buildDataBlockSize < (chunks buildDataBlockSize items).length := by
    intro i hi
    rw [lt_chunks_length hB]
    exact Nat.lt_of_le_of_lt (Nat.mul_div_le _ _) hi
  refine ⟨s1, fs1, h1, ⟨h2, ?_, ?_⟩, h6, h7, h8⟩
  · rcases Nat.eq_zero_or_pos items.length with h | h
    · omega
    · have hlt := hdiv (items.length - 1) (by omega)
      have := h4 _ (Or.inr ((hmem _).2 hlt)) hlt
      have h9 := Nat.div_add_mod (items.length - 1) buildDataBlockSize
      have h10 := Nat.mod_lt (items.length - 1) hB
      omega
  · intro i hi
    have h9 := Nat.div_add_mod i buildDataBlockSize
    have h10 := Nat.mod_lt i hB
    exact h5 _ (Or.inr ((hmem _).2 (hdiv i hi))) i (by omega) (by omega) hi

end populate
end Verif
