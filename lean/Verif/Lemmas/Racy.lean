import Verif.Model.Racy
import Verif.Lemmas.RunSteps
import Mathlib.Data.List.Basic
import Mathlib.Tactic.Tauto
/-! Byte by byte, the workers of a layer do what they do chunk by chunk. -/
namespace Verif
namespace Racy

/-- Workers of the layer write behind everything that is read, each to a piece of its own, and as many
bytes as foreseen. -/
structure Layer.Apart (y : Layer) (n : Nat) (ω : Nat → Nat) : Prop where
  rw : ∀ t u, t < n → u < n → y.start t + y.size t ≤ y.dest u
  ww : ∀ t u, t < u → u < n → y.dest t + y.room t ≤ y.dest u
  len : ∀ t bs o, t < n → y.hash t bs = .ok o → o.length = ω t
  pos : ∀ t, t < n → 0 < y.size t

/-- What worker `t` makes of the bytes `bs₀` of the file. -/
def Layer.result (y : Layer) (bs₀ : Bytes) (t : Nat) : Bytes :=
  match y.hash t (region bs₀ (y.start t) (y.size t)) with
  | .ok o => o
  | .error _ => []

/-- The bytes `D` of the results have been written over `bs₀`, and nothing else has changed. -/
structure Layer.Written (y : Layer) (n : Nat) (ω : Nat → Nat) (bs₀ : Bytes) (D : Nat → Nat → Prop)
    (cur : Bytes) : Prop where
  length : cur.length = bs₀.length
  new : ∀ t i, t < n → i < ω t → D t i → cur[y.dest t + i]? = (y.result bs₀ t)[i]?
  old : ∀ p, (∀ t i, t < n → i < ω t → D t i → p ≠ y.dest t + i) → cur[p]? = bs₀[p]?

section
variable {y : Layer} {n : Nat} {ω : Nat → Nat} {bs₀ cur : Bytes} {D : Nat → Nat → Prop}

theorem Layer.Written.start (y : Layer) (n : Nat) (ω : Nat → Nat) (bs₀ : Bytes) :
    y.Written n ω bs₀ (fun _ _ => False) bs₀ :=
  ⟨rfl, fun _ _ _ _ h => h.elim, fun _ _ => rfl⟩

theorem Layer.Written.unique {cur' : Bytes} (h : y.Written n ω bs₀ D cur)
    (h' : y.Written n ω bs₀ D cur') : cur = cur' := by
  apply List.ext_getElem?
  intro p
  by_cases hp : ∃ t i, t < n ∧ i < ω t ∧ D t i ∧ p = y.dest t + i
  · obtain ⟨t, i, ht, hi, hd, rfl⟩ := hp
    rw [h.new t i ht hi hd, h'.new t i ht hi hd]
  · have : ∀ t i, t < n → i < ω t → D t i → p ≠ y.dest t + i :=
      fun t i ht hi hd e => hp ⟨t, i, ht, hi, hd, e⟩
    rw [h.old p this, h'.old p this]

theorem Layer.Written.congr {D' : Nat → Nat → Prop} (h : y.Written n ω bs₀ D cur)
    (hd : ∀ t i, t < n → i < ω t → (D t i ↔ D' t i)) : y.Written n ω bs₀ D' cur :=
  ⟨h.length, fun t i ht hi h1 => h.new t i ht hi ((hd t i ht hi).2 h1),
    fun p hp => h.old p fun t i ht hi h1 => hp t i ht hi ((hd t i ht hi).1 h1)⟩

/-- Writing part of the result of worker `t`. -/
theorem Layer.Written.add (ha : y.Apart n ω) (hr : ∀ u i, u < n → D u i → i < ω u → ω u ≤ y.room u)
    (h : y.Written n ω bs₀ D cur) {t i k : Nat} {data : Bytes} (ht : t < n) (hk : i + k ≤ ω t)
    (hroom : ω t ≤ y.room t)
    (hlen : data.length = k) (hdata : ∀ j, j < k → data[j]? = (y.result bs₀ t)[i + j]?)
    (hin : y.dest t + i + k ≤ bs₀.length) :
    y.Written n ω bs₀ (fun u j => D u j ∨ (u = t ∧ i ≤ j ∧ j < i + k))
      (patch cur (y.dest t + i) data) := by
  have hin' : y.dest t + i + data.length ≤ cur.length := by rw [h.length, hlen]; exact hin
  refine ⟨by rw [patch_length hin', h.length], fun u j hu hj hd => ?_, fun p hp => ?_⟩
  · rw [patch_getElem? hin', hlen]
    by_cases hut : u = t
    · subst hut
      by_cases hji : i ≤ j ∧ j < i + k
      · rw [if_pos (by omega), hdata _ (by omega)]
        congr 1; omega
      · rw [if_neg (by omega)]
        rcases hd with hd | hd
        · exact h.new u j hu hj hd
        · omega
    · have hd : D u j := by
        rcases hd with hd | hd
        · exact hd
        · exact absurd hd.1 hut
      have hru := hr u j hu hd hj
      rw [if_neg ?_]
      · exact h.new u j hu hj hd
      · rcases Nat.lt_or_gt_of_ne hut with hlt | hgt
        · have := ha.ww u t hlt ht
          omega
        · have := ha.ww t u hgt hu
          omega
  · rw [patch_getElem? hin', if_neg, h.old p fun u j hu hj hd => hp u j hu hj (Or.inl hd)]
    rintro ⟨h1, h2⟩
    rw [hlen] at h2
    exact hp t (p - y.dest t) ht (by omega) (Or.inr ⟨rfl, by omega, by omega⟩) (by omega)

/-- What is read has not been written to. -/
theorem Layer.Written.read (ha : y.Apart n ω) (h : y.Written n ω bs₀ D cur) {t i : Nat} (ht : t < n)
    (hi : i < y.size t) : cur[y.start t + i]? = bs₀[y.start t + i]? := by
  refine h.old _ fun u j hu _ _ => ?_
  have := ha.rw t u ht hu
  omega

theorem Layer.Written.region_eq (ha : y.Apart n ω) (h : y.Written n ω bs₀ D cur) {t : Nat} (ht : t < n) :
    region cur (y.start t) (y.size t) = region bs₀ (y.start t) (y.size t) := by
  apply List.ext_getElem?
  intro i
  simp only [region, List.getElem?_take, List.getElem?_drop]
  split
  · exact h.read ha ht (by assumption)
  · rfl

end

/-- Worker `t` can do its work on a file with the bytes `bs₀`. -/
structure Layer.Ready (y : Layer) (ω : Nat → Nat) (bs₀ : Bytes) (t : Nat) : Prop where
  check : y.check t = .ok ()
  read : y.start t + y.size t ≤ bs₀.length
  hash : y.hash t (region bs₀ (y.start t) (y.size t)) = .ok (y.result bs₀ t)
  room : ω t ≤ y.room t
  write : y.dest t + ω t ≤ bs₀.length

theorem FS.set_set (fs : FS) (f : FileId) (a c : Option Bytes) : (fs.set f a).set f c = fs.set f c := by
  simp only [FS.set]
  congr 1
  funext g
  split <;> rfl

theorem FS.set_same {fs : FS} {f : FileId} {a : Option Bytes} (h : fs.file f = a) : fs.set f a = fs := by
  cases fs
  simp only [FS.set]
  congr 1
  funext g
  split
  · rename_i hg; subst hg; exact h.symm
  · rfl

/-! ### Byte by byte -/
section bytes
variable {y : Layer} {n : Nat} {ω : Nat → Nat} {bs₀ : Bytes} {fs₀ : FS}

/-- After the steps `pre`. -/
structure Layer.Inv (y : Layer) (n : Nat) (ω : Nat → Nat) (bs₀ : Bytes) (fs₀ : FS) (pre : List Step)
    (m : Mem) (fs : FS) : Prop where
  file : ∃ cur, fs = fs₀.set y.file (some cur) ∧ y.Written n ω bs₀ (fun t i => Step.write t i ∈ pre) cur
  buf : ∀ t i, t < n → i < y.size t → Step.read t i ∈ pre → bs₀[y.start t + i]? = some (m.buf t i)
  out : ∀ t, t < n → Step.hash t ∈ pre → m.out t = y.result bs₀ t
  read : ∀ t i, t < n → i < y.size t → Step.read t i ∈ pre → y.check t = .ok () ∧ y.start t + i < bs₀.length
  hash : ∀ t, t < n → Step.hash t ∈ pre →
    y.hash t (region bs₀ (y.start t) (y.size t)) = .ok (y.result bs₀ t) ∧ ω t ≤ y.room t
  write : ∀ t i, t < n → i < ω t → Step.write t i ∈ pre → y.dest t + i < bs₀.length
  order : ∀ t i, t < n → i < ω t → Step.write t i ∈ pre → Step.hash t ∈ pre

theorem Layer.Inv.init (hf : fs₀.file y.file = some bs₀) : y.Inv n ω bs₀ fs₀ [] Mem.init fs₀ where
  file := ⟨bs₀, (FS.set_same hf).symm, (Layer.Written.start y n ω bs₀).congr (by simp)⟩
  buf := by simp
  out := by simp
  read := by simp
  hash := by simp
  write := by simp
  order := by simp

/-- The next step is one the order allows. -/
def Layer.Next (y : Layer) (n : Nat) (ω : Nat → Nat) (pre : List Step) : Step → Prop
  | .read t i => t < n ∧ i < y.size t
  | .hash t => t < n ∧ ∀ i, i < y.size t → Step.read t i ∈ pre
  | .write t i => t < n ∧ i < ω t ∧ Step.hash t ∈ pre

theorem bytesRead {t : Nat} {m : Mem} (h : ∀ i, i < y.size t → bs₀[y.start t + i]? = some (m.buf t i)) :
    (List.range (y.size t)).map (m.buf t) = region bs₀ (y.start t) (y.size t) := by
  apply List.ext_getElem?
  intro i
  simp only [region, List.getElem?_take, List.getElem?_drop, List.getElem?_map]
  by_cases hi : i < y.size t
  · rw [if_pos hi, h i hi, List.getElem?_range hi]; rfl
  · rw [if_neg hi, List.getElem?_eq_none (by simp; omega)]; rfl

theorem readByte_ok {fs : FS} {f : FileId} {cur bs : Bytes} {off : Nat} (hf : fs.file f = some cur) :
    fs.readExactAt f off 1 = .ok bs ↔ ∃ b, cur[off]? = some b ∧ bs = [b] := by
  unfold FS.readExactAt
  rw [FS.contents_ok hf]
  simp only [bind, Except.bind, Nat.one_ne_zero, ↓reduceIte]
  by_cases h : off + 1 ≤ cur.length
  · have hlt : off < cur.length := by omega
    have : region cur off 1 = [cur[off]] := by
      unfold region
      rw [List.drop_eq_getElem_cons hlt]; rfl
    rw [if_pos h, this]
    simp [List.getElem?_eq_getElem hlt, eq_comm]
  · rw [if_neg h]
    simp [List.getElem?_eq_none (show cur.length ≤ off by omega)]

theorem Layer.step_inv (ha : y.Apart n ω) {pre : List Step} {st : Step} {m m' : Mem} {fs fs' : FS}
    (hI : y.Inv n ω bs₀ fs₀ pre m fs) (hn : y.Next n ω pre st) (h : y.step st m fs = (.ok m', fs')) :
    y.Inv n ω bs₀ fs₀ (pre ++ [st]) m' fs' := by
  obtain ⟨cur, rfl, hw⟩ := hI.file
  have hcur : (fs₀.set y.file (some cur)).file y.file = some cur := FS.set_self _ _ _
  cases st with
  | read t i =>
    obtain ⟨ht, hi⟩ := hn
    unfold Layer.step at h
    obtain ⟨_, f1, h1, h2⟩ := M.bind_ok_iff.1 h
    obtain ⟨bs, f2, h3, h4⟩ := M.bind_ok_iff.1 h2
    rw [M.ofRes_run] at h1
    obtain ⟨hc, rfl⟩ := Prod.mk.inj h1
    rw [M.get_run] at h3
    obtain ⟨hr, rfl⟩ := Prod.mk.inj h3
    cases h4
    obtain ⟨b, hb, rfl⟩ := (readByte_ok hcur).1 hr
    rw [hw.read ha ht hi] at hb
    have hlt : y.start t + i < bs₀.length := by
      by_contra hge
      rw [List.getElem?_eq_none (by omega)] at hb
      cases hb
    refine ⟨⟨cur, rfl, hw.congr (by simp)⟩, ?_, ?_, ?_, ?_, ?_, ?_⟩
    · intro u j hu hj hm
      dsimp only
      by_cases he : u = t ∧ j = i
      · obtain ⟨rfl, rfl⟩ := he
        simpa using hb
      · rw [if_neg he]
        refine hI.buf u j hu hj ?_
        rcases List.mem_append.1 hm with hm | hm
        · exact hm
        · simp at hm; exact absurd hm he
    · intro u hu hm
      exact hI.out u hu (by simpa using hm)
    · intro u j hu hj hm
      rcases List.mem_append.1 hm with hm | hm
      · exact hI.read u j hu hj hm
      · simp at hm
        obtain ⟨rfl, rfl⟩ := hm
        exact ⟨hc, hlt⟩
    · intro u hu hm
      exact hI.hash u hu (by simpa using hm)
    · intro u j hu hj hm
      exact hI.write u j hu hj (by simpa using hm)
    · intro u j hu hj hm
      exact List.mem_append_left _ (hI.order u j hu hj (by simpa using hm))
  | hash t =>
    obtain ⟨ht, hall⟩ := hn
    unfold Layer.step at h
    obtain ⟨bs, f1, h1, h2⟩ := M.bind_ok_iff.1 h
    rw [M.ofRes_run] at h1
    obtain ⟨hh, rfl⟩ := Prod.mk.inj h1
    rw [bytesRead (bs₀ := bs₀) fun i hi => hI.buf t i ht hi (hall i hi)] at hh
    have hres : y.result bs₀ t = bs := by unfold Layer.result; rw [hh]
    split at h2
    · rename_i hroom
      cases h2
      have hl := ha.len t _ _ ht hh
      refine ⟨⟨cur, rfl, hw.congr (by simp)⟩, ?_, ?_, ?_, ?_, ?_, ?_⟩
      · intro u j hu hj hm
        exact hI.buf u j hu hj (by simpa using hm)
      · intro u hu hm
        dsimp only
        by_cases he : u = t
        · subst he
          rw [if_pos rfl, hres]
        · rw [if_neg he]
          refine hI.out u hu ?_
          rcases List.mem_append.1 hm with hm | hm
          · exact hm
          · simp at hm; exact absurd hm he
      · intro u j hu hj hm
        exact hI.read u j hu hj (by simpa using hm)
      · intro u hu hm
        rcases List.mem_append.1 hm with hm | hm
        · exact hI.hash u hu hm
        · simp at hm
          subst hm
          exact ⟨by rw [hres]; exact hh, by rw [← hl]; exact hroom⟩
      · intro u j hu hj hm
        exact hI.write u j hu hj (by simpa using hm)
      · intro u j hu hj hm
        exact List.mem_append_left _ (hI.order u j hu hj (by simpa using hm))
    · cases h2
  | write t i =>
    obtain ⟨ht, hi, hm⟩ := hn
    unfold Layer.step at h
    obtain ⟨_, f1, h1, h2⟩ := M.bind_ok_iff.1 h
    cases h2
    unfold FS.mmapWrite at h1
    rw [FS.contents_ok hcur] at h1
    dsimp only at h1
    split at h1
    · rename_i hin
      obtain ⟨-, rfl⟩ := Prod.mk.inj h1
      rw [hI.out t ht hm, FS.set_set]
      rw [List.length_singleton, hw.length] at hin
      obtain ⟨hh, hroom⟩ := hI.hash t ht hm
      have hl := ha.len t _ _ ht hh
      have hadd := hw.add ha (t := t) (i := i) (k := 1) (data := [(y.result bs₀ t).getD i 0])
        (fun u j hu hd hj => ?_) ht (by omega) hroom rfl (fun j hj => ?_) hin
      · refine ⟨⟨_, rfl, hadd.congr fun u j hu hj => ?_⟩, ?_, ?_, ?_, ?_, ?_, ?_⟩
        · simp only [List.mem_append, List.mem_singleton, Step.write.injEq]
          constructor
          · rintro (h | h)
            · exact Or.inl h
            · exact Or.inr ⟨h.1, by omega⟩
          · rintro (h | h)
            · exact Or.inl h
            · exact Or.inr ⟨h.1, by omega, by omega⟩
        · intro u j hu hj hm
          exact hI.buf u j hu hj (by simpa using hm)
        · intro u hu hm
          exact hI.out u hu (by simpa using hm)
        · intro u j hu hj hm
          exact hI.read u j hu hj (by simpa using hm)
        · intro u hu hm
          exact hI.hash u hu (by simpa using hm)
        · intro u j hu hj hm
          rcases List.mem_append.1 hm with hm | hm
          · exact hI.write u j hu hj hm
          · simp at hm
            obtain ⟨rfl, rfl⟩ := hm
            omega
        · intro u j hu hj hm
          rcases List.mem_append.1 hm with h | h
          · exact List.mem_append_left _ (hI.order u j hu hj h)
          · simp at h
            obtain ⟨rfl, rfl⟩ := h
            exact List.mem_append_left _ (by assumption)
      · exact (hI.hash u hu (hI.order u j hu hj hd)).2
      · have : j = 0 := by omega
        subst this
        simp [List.getD_eq_getElem?_getD, List.getElem?_eq_getElem (show i < (y.result bs₀ t).length by omega)]
    · cases h1

/-- A worker that is ready can take any step the order allows. -/
theorem Layer.step_ok (ha : y.Apart n ω) (hy : ∀ t, t < n → y.Ready ω bs₀ t) {pre : List Step} {st : Step}
    {m : Mem} {fs : FS} (hI : y.Inv n ω bs₀ fs₀ pre m fs) (hn : y.Next n ω pre st) :
    ∃ m' fs', y.step st m fs = (.ok m', fs') := by
  obtain ⟨cur, rfl, hw⟩ := hI.file
  have hcur : (fs₀.set y.file (some cur)).file y.file = some cur := FS.set_self _ _ _
  cases st with
  | read t i =>
    obtain ⟨ht, hi⟩ := hn
    have hr := (hy t ht).read
    have hb := hw.read ha ht hi
    have hlt : y.start t + i < bs₀.length := by omega
    rw [List.getElem?_eq_getElem hlt] at hb
    have h1 := (readByte_ok hcur).2 ⟨_, hb, rfl⟩
    have h2 : M.ofRes (y.check t) (fs₀.set y.file (some cur)) = (.ok (), fs₀.set y.file (some cur)) := by
      rw [M.ofRes_run, (hy t ht).check]
    have h3 : M.get (fun fs => fs.readExactAt y.file (y.start t + i) 1) (fs₀.set y.file (some cur))
        = (.ok [bs₀[y.start t + i]], fs₀.set y.file (some cur)) := by rw [M.get_run, h1]
    unfold Layer.step
    dsimp only
    rw [M.bind_ok h2, M.bind_ok h3]
    exact ⟨_, _, rfl⟩
  | hash t =>
    obtain ⟨ht, hall⟩ := hn
    have h2 : M.ofRes (y.hash t (region bs₀ (y.start t) (y.size t))) (fs₀.set y.file (some cur))
        = (.ok (y.result bs₀ t), fs₀.set y.file (some cur)) := by rw [M.ofRes_run, (hy t ht).hash]
    unfold Layer.step
    dsimp only
    rw [bytesRead (bs₀ := bs₀) fun i hi => hI.buf t i ht hi (hall i hi), M.bind_ok h2,
      if_pos (by rw [ha.len t _ _ ht (hy t ht).hash]; exact (hy t ht).room)]
    exact ⟨_, _, rfl⟩
  | write t i =>
    obtain ⟨ht, hi, hm⟩ := hn
    have := (hy t ht).write
    have h2 : FS.mmapWrite y.file (y.dest t + i) [(m.out t).getD i 0] (fs₀.set y.file (some cur))
        = (.ok (), (fs₀.set y.file (some cur)).set y.file
          (some (patch cur (y.dest t + i) [(m.out t).getD i 0]))) := by
      unfold FS.mmapWrite
      rw [FS.contents_ok hcur]
      dsimp only
      rw [if_pos (by rw [List.length_singleton, hw.length]; omega)]
    unfold Layer.step
    dsimp only
    rw [M.bind_ok h2]
    exact ⟨_, _, rfl⟩

theorem idxOf_append_cons {pre sts : List Step} {st : Step} (h : (pre ++ st :: sts).count st = 1) :
    (pre ++ st :: sts).idxOf st = pre.length := by
  have hn : st ∉ pre := by
    intro hm
    rw [List.count_append, List.count_cons_self] at h
    have := List.count_pos_iff.2 hm
    omega
  rw [List.idxOf_append_of_notMem hn]
  simp

theorem mem_of_idxOf_lt {pre sts : List Step} {x : Step} (h : (pre ++ sts).idxOf x < pre.length) : x ∈ pre := by
  by_contra hn
  rw [List.idxOf_append_of_notMem hn] at h
  omega

/-- In a possible order every step comes when it may. -/
theorem Steps.Valid.next {pre sts : List Step} {st : Step} (hv : Steps.Valid (pre ++ st :: sts) n y.size ω) :
    y.Next n ω pre st := by
  have hpos : 0 < (pre ++ st :: sts).count st := List.count_pos_iff.2 (by simp)
  cases st with
  | read t i =>
    have := hv.read t i
    show t < n ∧ i < y.size t
    by_contra hn
    rw [if_neg hn] at this
    omega
  | hash t =>
    have hc := hv.hash t
    have ht : t < n := by
      by_contra hn
      rw [if_neg hn] at hc
      omega
    rw [if_pos ht] at hc
    refine ⟨ht, fun i hi => ?_⟩
    have h := hv.read_hash t i ht hi
    rw [idxOf_append_cons hc] at h
    exact mem_of_idxOf_lt h
  | write t i =>
    have hc := hv.write t i
    have ht : t < n ∧ i < ω t := by
      by_contra hn
      rw [if_neg hn] at hc
      omega
    rw [if_pos ht] at hc
    refine ⟨ht.1, ht.2, ?_⟩
    have h := hv.hash_write t i ht.1 ht.2
    rw [idxOf_append_cons hc] at h
    exact mem_of_idxOf_lt h

theorem Layer.run_inv (ha : y.Apart n ω) :
    ∀ (sts pre : List Step) (m m' : Mem) (fs fs' : FS), Steps.Valid (pre ++ sts) n y.size ω →
      y.Inv n ω bs₀ fs₀ pre m fs → y.run sts m fs = (.ok m', fs') →
      y.Inv n ω bs₀ fs₀ (pre ++ sts) m' fs' := by
  intro sts
  induction sts with
  | nil =>
    intro pre m m' fs fs' _ hI h
    cases h
    simpa using hI
  | cons st sts ih =>
    intro pre m m' fs fs' hv hI h
    unfold Layer.run at h
    obtain ⟨m1, f1, h1, h2⟩ := M.bind_ok_iff.1 h
    have := ih (pre ++ [st]) m1 m' f1 fs' (by simpa using hv) (y.step_inv ha hI hv.next h1) h2
    simpa using this

theorem Layer.run_ok (ha : y.Apart n ω) (hy : ∀ t, t < n → y.Ready ω bs₀ t) :
    ∀ (sts pre : List Step) (m : Mem) (fs : FS), Steps.Valid (pre ++ sts) n y.size ω →
      y.Inv n ω bs₀ fs₀ pre m fs → ∃ m' fs', y.run sts m fs = (.ok m', fs') := by
  intro sts
  induction sts with
  | nil =>
    intro pre m fs _ _
    exact ⟨m, fs, rfl⟩
  | cons st sts ih =>
    intro pre m fs hv hI
    obtain ⟨m1, f1, h1⟩ := y.step_ok ha hy hI hv.next
    obtain ⟨m2, f2, h2⟩ := ih (pre ++ [st]) m1 f1 (by simpa using hv) (y.step_inv ha hI hv.next h1)
    refine ⟨m2, f2, ?_⟩
    unfold Layer.run
    rw [M.bind_ok h1]
    exact h2

theorem Steps.Valid.mem_read {sts : List Step} (hv : Steps.Valid sts n y.size ω) {t i : Nat} (ht : t < n)
    (hi : i < y.size t) : Step.read t i ∈ sts :=
  List.count_pos_iff.1 (by rw [hv.read, if_pos ⟨ht, hi⟩]; omega)
theorem Steps.Valid.mem_hash {sts : List Step} (hv : Steps.Valid sts n y.size ω) {t : Nat} (ht : t < n) :
    Step.hash t ∈ sts :=
  List.count_pos_iff.1 (by rw [hv.hash, if_pos ht]; omega)
theorem Steps.Valid.mem_write {sts : List Step} (hv : Steps.Valid sts n y.size ω) {t i : Nat} (ht : t < n)
    (hi : i < ω t) : Step.write t i ∈ sts :=
  List.count_pos_iff.1 (by rw [hv.write, if_pos ⟨ht, hi⟩]; omega)

/-- A layer ends well exactly if all its workers are ready; the file then holds all results. -/
theorem Layer.run_iff (ha : y.Apart n ω) (hω : ∀ t, t < n → 0 < ω t) {sts : List Step}
    (hv : Steps.Valid sts n y.size ω) (hf : fs₀.file y.file = some bs₀) {fs' : FS} :
    (∃ m, y.run sts Mem.init fs₀ = (.ok m, fs')) ↔
      (∀ t, t < n → y.Ready ω bs₀ t) ∧
        ∃ cur, fs' = fs₀.set y.file (some cur) ∧ y.Written n ω bs₀ (fun _ _ => True) cur := by
  have hI0 : y.Inv n ω bs₀ fs₀ [] Mem.init fs₀ := Layer.Inv.init hf
  constructor
  · rintro ⟨m, h⟩
    have hI := y.run_inv ha sts [] _ _ _ _ (by simpa using hv) hI0 h
    rw [List.nil_append] at hI
    obtain ⟨cur, hc, hw⟩ := hI.file
    refine ⟨fun t ht => ?_, cur, hc, hw.congr fun t i ht hi => by simp [hv.mem_write ht hi]⟩
    have hp := ha.pos t ht
    have h1 := hI.read t (y.size t - 1) ht (by omega) (hv.mem_read ht (by omega))
    have h2 := hI.hash t ht (hv.mem_hash ht)
    have hp' := hω t ht
    have h3 := hI.write t (ω t - 1) ht (by omega) (hv.mem_write ht (by omega))
    exact ⟨h1.1, by omega, h2.1, h2.2, by omega⟩
  · rintro ⟨hy, cur, rfl, hw⟩
    obtain ⟨m, f, h⟩ := y.run_ok ha hy sts [] Mem.init fs₀ (by simpa using hv) hI0
    have hI := y.run_inv ha sts [] _ _ _ _ (by simpa using hv) hI0 h
    rw [List.nil_append] at hI
    obtain ⟨cur', rfl, hw'⟩ := hI.file
    have := (hw'.congr (D' := fun _ _ => True) fun t i ht hi => by simp [hv.mem_write ht hi]).unique hw
    subst this
    exact ⟨m, h⟩

end bytes

/-! ### Chunk by chunk -/
section chunkwise
variable {y : Layer} {n : Nat} {ω : Nat → Nat} {bs₀ : Bytes} {fs₀ : FS}

/-- The reading half of a worker, in one step. -/
def Layer.readAll (y : Layer) (t : Nat) (fs : FS) : Res Bytes := do
  y.check t
  let bs ← fs.readExactAt y.file (y.start t) (y.size t)
  y.hash t bs

/-- The writing half of a worker, in one step. -/
def Layer.writeAll (y : Layer) (t : Nat) (bs : Bytes) : M Unit :=
  if bs.length ≤ y.room t then FS.mmapWrite y.file (y.dest t) bs
  else M.throw (.panic "range end index out of range for slice")

theorem readExactAt_ok {fs : FS} {f : FileId} {cur bs : Bytes} {off k : Nat} (hk : 0 < k)
    (hf : fs.file f = some cur) :
    fs.readExactAt f off k = .ok bs ↔ off + k ≤ cur.length ∧ bs = region cur off k := by
  unfold FS.readExactAt
  rw [FS.contents_ok hf]
  simp only [bind, Except.bind]
  rw [if_neg (by omega)]
  split
  · rename_i h
    simp [h, eq_comm]
  · rename_i h
    simp [h]

theorem Layer.readAll_ok (ha : y.Apart n ω) {D : Nat → Nat → Prop} {cur : Bytes}
    (hw : y.Written n ω bs₀ D cur) {t : Nat} (ht : t < n) {bs : Bytes} :
    y.readAll t (fs₀.set y.file (some cur)) = .ok bs ↔ bs = y.result bs₀ t ∧
      y.check t = .ok () ∧ y.start t + y.size t ≤ bs₀.length ∧
      y.hash t (region bs₀ (y.start t) (y.size t)) = .ok (y.result bs₀ t) := by
  unfold Layer.readAll
  simp only [bind_ok_iff]
  constructor
  · rintro ⟨u, h1, b, h2, h3⟩
    obtain ⟨h4, rfl⟩ := (readExactAt_ok (ha.pos t ht) (FS.set_self _ _ _)).1 h2
    rw [hw.region_eq ha ht] at h3
    have : y.result bs₀ t = bs := by unfold Layer.result; rw [h3]
    rw [hw.length] at h4
    exact ⟨this.symm, h1, h4, by rw [this]; exact h3⟩
  · rintro ⟨rfl, h1, h2, h3⟩
    refine ⟨(), h1, region bs₀ (y.start t) (y.size t), ?_, h3⟩
    exact (readExactAt_ok (ha.pos t ht) (FS.set_self _ _ _)).2 ⟨by rw [hw.length]; exact h2, (hw.region_eq ha ht).symm⟩

theorem Layer.writeAll_ok {cur bs : Bytes} {t : Nat} {fs' : FS} {u : Unit} :
    y.writeAll t bs (fs₀.set y.file (some cur)) = (.ok u, fs') ↔ bs.length ≤ y.room t ∧
      y.dest t + bs.length ≤ cur.length ∧ fs' = fs₀.set y.file (some (patch cur (y.dest t) bs)) := by
  unfold Layer.writeAll
  by_cases hr : bs.length ≤ y.room t
  · rw [if_pos hr]
    unfold FS.mmapWrite
    rw [FS.contents_ok (FS.set_self _ _ _)]
    dsimp only
    split
    · rename_i h
      rw [FS.set_set]
      simp [hr, h, eq_comm]
    · rename_i h
      simp [h]
  · rw [if_neg hr]
    simp [hr, M.throw]

/-- The state of a worker of the chunk by chunk run. -/
def Layer.Chunk (y : Layer) (bs₀ : Bytes) (ts : List Nat) (pend : Nat → Option Bytes) (W : Nat → Prop)
    (t : Nat) : Prop :=
  (pend t = none ∧ ts.count t = 2 ∧ ¬ W t) ∨
  (pend t = some (y.result bs₀ t) ∧ ts.count t = 1 ∧ ¬ W t) ∨
  (pend t = some (y.result bs₀ t) ∧ ts.count t = 0 ∧ W t)

theorem Layer.chunks_inv {S : Type} (ha : y.Apart n ω) :
    ∀ (ts : List Nat) (pend : Nat → Option Bytes) (W : Nat → Prop) (s s' : S) (cur : Bytes) (fs' : FS),
      (∀ t, t < n → y.Chunk bs₀ ts pend W t) → (∀ t, n ≤ t → ts.count t = 0) →
      (∀ t, t < n → pend t ≠ none → y.check t = .ok () ∧ y.start t + y.size t ≤ bs₀.length ∧
        y.hash t (region bs₀ (y.start t) (y.size t)) = .ok (y.result bs₀ t)) →
      (∀ t, t < n → W t → y.Ready ω bs₀ t) →
      y.Written n ω bs₀ (fun t _ => W t) cur →
      runSteps (fun t _ fs => y.readAll t fs) (fun t bs s => do y.writeAll t bs; pure s) ts pend s
        (fs₀.set y.file (some cur)) = (.ok s', fs') →
      s' = s ∧ (∀ t, t < n → y.Ready ω bs₀ t) ∧
        ∃ cur, fs' = fs₀.set y.file (some cur) ∧ y.Written n ω bs₀ (fun _ _ => True) cur := by
  intro ts
  induction ts with
  | nil =>
    intro pend W s s' cur fs' hT _ _ hR hw h
    cases h
    have hW : ∀ t, t < n → W t := by
      intro t ht
      rcases hT t ht with h | h | h
      · simp at h
      · simp at h
      · exact h.2.2
    exact ⟨rfl, fun t ht => hR t ht (hW t ht), cur, rfl, hw.congr fun t _ ht _ => by simp [hW t ht]⟩
  | cons t ts ih =>
    intro pend W s s' cur fs' hT hN hP hR hw h
    have ht : t < n := by
      by_contra hn
      have := hN t (by omega)
      simp at this
    have hother : ∀ u, u ≠ t → (t :: ts).count u = ts.count u := fun u hu =>
      List.count_cons_of_ne (fun h => hu h.symm)
    have hself : (t :: ts).count t = ts.count t + 1 := by simp
    have hN' : ∀ u, n ≤ u → ts.count u = 0 := fun u hu => by
      rw [← hother u (by omega)]; exact hN u hu
    unfold runSteps at h
    rcases hT t ht with hc | hc | hc
    · rw [hc.1] at h
      obtain ⟨bs, f1, h1, h2⟩ := M.bind_ok_iff.1 h
      rw [M.get_run] at h1
      obtain ⟨hr, rfl⟩ := Prod.mk.inj h1
      obtain ⟨rfl, hq⟩ := (y.readAll_ok ha hw ht).1 hr
      refine ih _ W s s' cur fs' (fun u hu => ?_) hN' (fun u hu hp => ?_) hR hw h2
      · unfold Layer.Chunk
        by_cases hut : u = t
        · subst hut
          exact Or.inr (Or.inl ⟨if_pos rfl, by omega, hc.2.2⟩)
        · simp only [hut, ↓reduceIte]
          rw [← hother u hut]
          exact hT u hu
      · by_cases hut : u = t
        · subst hut; exact hq
        · rw [if_neg hut] at hp
          exact hP u hu hp
    · rw [hc.1] at h
      obtain ⟨s1, f1, h1, h2⟩ := M.bind_ok_iff.1 h
      obtain ⟨_, f2, h3, h4⟩ := M.bind_ok_iff.1 h1
      cases h4
      obtain ⟨g1, g2, rfl⟩ := (y.writeAll_ok).1 h3
      obtain ⟨q1, q2, q3⟩ := hP t ht (by rw [hc.1]; simp)
      have hl := ha.len t _ _ ht q3
      rw [hl] at g1 g2
      rw [hw.length] at g2
      have hadd := hw.add ha (fun u _ hu hd _ => (hR u hu hd).room) ht (i := 0) (k := ω t)
        (data := y.result bs₀ t) (by omega) g1 hl (fun j _ => by simp) (by omega)
      refine ih pend (fun u => W u ∨ u = t) _ s' _ fs' (fun u hu => ?_) hN' hP (fun u hu hW => ?_)
        (hadd.congr fun u j hu hj => ?_) h2
      · by_cases hut : u = t
        · subst hut
          exact Or.inr (Or.inr ⟨hc.1, by omega, Or.inr rfl⟩)
        · unfold Layer.Chunk
          simp only [hut, or_false]
          rw [← hother u hut]
          exact hT u hu
      · rcases hW with hW | rfl
        · exact hR u hu hW
        · exact ⟨q1, q2, q3, g1, g2⟩
      · constructor
        · rintro (h | h)
          · exact Or.inl h
          · exact Or.inr h.1
        · rintro (h | h)
          · exact Or.inl h
          · subst h; exact Or.inr ⟨rfl, by omega, by omega⟩
    · omega

theorem Layer.chunks_iff {S : Type} (ha : y.Apart n ω) {ts : List Nat}
    (hts : ∀ t, ts.count t = if t < n then 2 else 0) (hf : fs₀.file y.file = some bs₀) {s s' : S} {fs' : FS} :
    runSteps (fun t _ fs => y.readAll t fs) (fun t bs s => do y.writeAll t bs; pure s) ts (fun _ => none) s
        fs₀ = (.ok s', fs') ↔
      s' = s ∧ (∀ t, t < n → y.Ready ω bs₀ t) ∧
        ∃ cur, fs' = fs₀.set y.file (some cur) ∧ y.Written n ω bs₀ (fun _ _ => True) cur := by
  have key : ∀ {s s' : S} {fs' : FS},
      runSteps (fun t _ fs => y.readAll t fs) (fun t bs s => do y.writeAll t bs; pure s) ts (fun _ => none) s
        fs₀ = (.ok s', fs') → s' = s ∧ (∀ t, t < n → y.Ready ω bs₀ t) ∧
        ∃ cur, fs' = fs₀.set y.file (some cur) ∧ y.Written n ω bs₀ (fun _ _ => True) cur := by
    intro s s' fs' h
    rw [← FS.set_same hf] at h
    rw [FS.set_same hf, ← FS.set_same hf] at h
    refine y.chunks_inv ha ts (fun _ => none) (fun _ => False) s s' bs₀ fs' (fun t ht => ?_) (fun t ht => ?_)
      (fun t _ h => absurd rfl h) (fun t _ h => h.elim) (Layer.Written.start y n ω bs₀) h
    · exact Or.inl ⟨rfl, by rw [hts, if_pos ht], id⟩
    · rw [hts, if_neg (by omega)]
  constructor
  · exact key
  · rintro ⟨rfl, hy, cur, rfl, hw⟩
    obtain ⟨s1, f1, h1, -⟩ := runSteps_ok (rd := fun t (_ : S) fs => y.readAll t fs)
      (wr := fun t bs s => do y.writeAll t bs; pure s) (n := n) (exp := y.result bs₀)
      (I := fun W _ fs => ∃ cur, fs = fs₀.set y.file (some cur) ∧ y.Written n ω bs₀ (fun t _ => W t) cur)
      (by
        rintro W s fs t ⟨cur, rfl, hw⟩ ht
        exact (y.readAll_ok ha hw ht).2 ⟨rfl, (hy t ht).check, (hy t ht).read, (hy t ht).hash⟩)
      (by
        rintro W s fs t ⟨cur, rfl, hw⟩ ht -
        have hl := ha.len t _ _ ht (hy t ht).hash
        have h1 : y.writeAll t (y.result bs₀ t) (fs₀.set y.file (some cur)) = (.ok (), _) :=
          (y.writeAll_ok).2 ⟨by rw [hl]; exact (hy t ht).room, by rw [hl, hw.length]; exact (hy t ht).write, rfl⟩
        refine ⟨s, _, by rw [M.bind_ok h1]; rfl, _, rfl, ?_⟩
        have := (hy t ht).write
        refine (hw.add ha (fun u _ hu _ _ => (hy u hu).room) ht (i := 0) (k := ω t)
          (data := y.result bs₀ t) (by omega) (hy t ht).room hl (fun j _ => by simp) (by omega)).congr fun u j hu hj => ?_
        constructor
        · rintro (h | h)
          · exact Or.inl h
          · exact Or.inr h.1
        · rintro (h | h)
          · exact Or.inl h
          · subst h; exact Or.inr ⟨rfl, by omega, by omega⟩)
      hts (s := s') ⟨bs₀, (FS.set_same hf).symm, (Layer.Written.start y n ω bs₀)⟩
    obtain ⟨rfl, -, cur', rfl, hw'⟩ := key h1
    rw [hw'.unique hw] at h1
    exact h1

/-- Byte by byte and chunk by chunk, in any two possible orders, a layer ends well in the same cases and
leaves the same files. -/
theorem Layer.run_eq_chunks {S : Type} (ha : y.Apart n ω) (hω : ∀ t, t < n → 0 < ω t) {sts : List Step}
    (hv : Steps.Valid sts n y.size ω) {ts : List Nat} (hts : ∀ t, ts.count t = if t < n then 2 else 0)
    (hf : fs₀.file y.file = some bs₀) {s s' : S} {fs' : FS} :
    ((∃ m, y.run sts Mem.init fs₀ = (.ok m, fs')) ∧ s' = s) ↔
      runSteps (fun t _ fs => y.readAll t fs) (fun t bs s => do y.writeAll t bs; pure s) ts (fun _ => none) s
        fs₀ = (.ok s', fs') := by
  rw [y.run_iff ha hω hv hf, y.chunks_iff ha hts hf]
  tauto

end chunkwise
end Racy
end Verif
