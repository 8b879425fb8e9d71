import Verif.Lemmas.Flaky
/-!
What success of a function over a failing disk says about the operations it made.
-/
set_option linter.unusedSectionVars false
namespace Verif
namespace Flaky
variable {α : Type} {p : IoPlan}

theorem rd_ok {op : IoOp} {fs : FS} {x : Res α} {a : α} (h : rd p op fs x = .ok a) :
    p.fails op fs = false ∧ x = .ok a := by
  unfold rd at h
  split at h
  · cases h
  · exact ⟨by simpa using ‹¬ p.fails op fs = true›, h⟩

theorem io_ok {op : IoOp} {fs fs' : FS} {x : M α} {a : α} (h : io p op x fs = (.ok a, fs')) :
    p.fails op fs = false ∧ x fs = (.ok a, fs') := by
  unfold io at h
  split at h
  · cases h
  · exact ⟨by simpa using ‹¬ p.fails op fs = true›, h⟩

theorem check_ok {op : IoOp} {fs fs' : FS} {a : Unit} (h : check p op fs = (.ok a, fs')) :
    p.fails op fs = false ∧ fs' = fs := by
  unfold check at h
  split at h
  · cases h
  · cases h
    exact ⟨by simpa using ‹¬ p.fails op fs = true›, rfl⟩

theorem checkOpen_ok {f : FileId} {fs fs' : FS} {a : Unit} (h : checkOpen p f fs = (.ok a, fs')) :
    (p.fails (.open f true) fs = false ∨ p.fails (.open f false) fs = false) ∧ fs' = fs := by
  unfold checkOpen at h
  split at h
  · cases h
  · cases h
    refine ⟨?_, rfl⟩
    rename_i h
    cases ha : p.fails (.open f true) fs
    · exact .inl rfl
    · cases hb : p.fails (.open f false) fs
      · exact .inr rfl
      · exact absurd (by rw [ha, hb]; rfl) h

theorem readContext_ok {a b : Nat} {x : Res α} {r : α} (h : readContext a b x = .ok r) : x = .ok r := by
  unfold readContext at h
  split at h
  · simp only [bind_ok_iff] at h
    obtain ⟨_, _, h⟩ := h
    cases h
  · exact h

theorem ofRes_ok {x : Res α} {a : α} {fs fs' : FS} (h : M.ofRes x fs = (.ok a, fs')) : x = .ok a ∧ fs' = fs := by
  cases h
  exact ⟨rfl, rfl⟩

theorem get_ok {f : FS → Res α} {a : α} {fs fs' : FS} (h : M.get f fs = (.ok a, fs')) : f fs = .ok a ∧ fs' = fs := by
  obtain ⟨h1, h2⟩ := Prod.mk.inj h
  exact ⟨h1, h2.symm⟩

variable {E : Type} [Element E]

namespace Disk

theorem readAt_ok {fs : FS} {s : DiskStore E} {i : Nat} {e : E} (h : readAt p fs s i = .ok e) :
    p.fails (.read s.file (i * Element.byteLen E) (Element.byteLen E)) fs = false := by
  unfold readAt storeReadRange subP at h
  simp only [bind_ok_iff] at h
  obtain ⟨_, _, bs, ⟨n, hn, h⟩, _⟩ := h
  rw [if_pos (by omega)] at hn
  cases hn
  rw [Nat.add_sub_cancel_left] at h
  exact (rd_ok h).1

theorem readRange_ok {fs : FS} {s : DiskStore E} {a b : Nat} {es : List E} (h : readRange p fs s a b = .ok es) :
    p.fails (.read s.file (a * Element.byteLen E) (b * Element.byteLen E - a * Element.byteLen E)) fs = false := by
  unfold readRange storeReadRange subP at h
  simp only [bind_ok_iff] at h
  obtain ⟨_, _, bs, ⟨n, hn, h⟩, _⟩ := h
  split at hn <;> cases hn
  exact (rd_ok h).1

theorem readInto_ok {fs : FS} {s : DiskStore E} {i : Nat} {buf r : Bytes} (h : readInto p fs s i buf = .ok r) :
    p.fails (.read s.file (i * Element.byteLen E) buf.length) fs = false := by
  unfold readInto storeReadInto at h
  simp only [bind_ok_iff] at h
  obtain ⟨_, _, h⟩ := h
  exact (rd_ok (readContext_ok h)).1

theorem readRangeInto_ok {fs : FS} {s : DiskStore E} {a b : Nat} {buf r : Bytes}
    (h : readRangeInto p fs s a b buf = .ok r) :
    p.fails (.read s.file (a * Element.byteLen E) buf.length) fs = false := by
  unfold readRangeInto storeReadInto at h
  simp only [bind_ok_iff] at h
  obtain ⟨_, _, h⟩ := h
  exact (rd_ok (readContext_ok h)).1

theorem storeCopyFromSlice_ok {s : DiskStore E} {a : Nat} {bs : Bytes} {fs fs' : FS} {u : Unit}
    (h : storeCopyFromSlice p s a bs fs = (.ok u, fs')) : p.fails (.write s.file a bs) fs = false := by
  obtain ⟨_, f1, h1, h2⟩ := M.bind_ok_iff.1 h
  obtain ⟨-, rfl⟩ := mEnsure_ok_iff.1 h1
  exact (io_ok h2).1

theorem writeAt_ok {s s' : DiskStore E} {e : E} {i : Nat} {fs fs' : FS} (h : writeAt p s e i fs = (.ok s', fs')) :
    p.fails (.write s.file (i * Element.byteLen E) (Element.toBytes e)) fs = false := by
  obtain ⟨_, f1, h1, -⟩ := M.bind_ok_iff.1 h
  exact storeCopyFromSlice_ok h1

theorem copyFromSlice_ok {s s' : DiskStore E} {buf : Bytes} {i : Nat} {fs fs' : FS}
    (h : copyFromSlice p s buf i fs = (.ok s', fs')) :
    p.fails (.write s.file (i * Element.byteLen E) buf) fs = false := by
  obtain ⟨_, f1, h1, h2⟩ := M.bind_ok_iff.1 h
  obtain ⟨-, rfl⟩ := ofRes_ok h1
  obtain ⟨_, f2, h3, h4⟩ := M.bind_ok_iff.1 h2
  obtain ⟨-, rfl⟩ := mEnsure_ok_iff.1 h3
  obtain ⟨_, f3, h5, -⟩ := M.bind_ok_iff.1 h4
  exact storeCopyFromSlice_ok h5

theorem push_ok {s s' : DiskStore E} {e : E} {fs fs' : FS} (h : push p s e fs = (.ok s', fs')) :
    p.fails (.write s.file (s.len * Element.byteLen E) (Element.toBytes e)) fs = false := by
  obtain ⟨_, f1, h1, h2⟩ := M.bind_ok_iff.1 h
  obtain ⟨-, rfl⟩ := mEnsure_ok_iff.1 h1
  exact writeAt_ok h2

theorem new_ok {n : Nat} {s : DiskStore E} {fs fs' : FS} (h : new p n fs = (.ok s, fs')) :
    p.fails .temp fs = false ∧
      p.fails (.setLen s.file (Element.byteLen E * n)) (FS.createTemp fs).2 = false := by
  obtain ⟨f, f1, h1, h2⟩ := M.bind_ok_iff.1 h
  obtain ⟨g1, g2⟩ := io_ok h1
  obtain ⟨_, f2, h3, h4⟩ := M.bind_ok_iff.1 h2
  cases h4
  rw [g2]
  exact ⟨g1, (io_ok h3).1⟩

theorem newFromDiskWithPath_ok {n : Nat} {f : FileId} {s : DiskStore E} {fs fs' : FS}
    (h : newFromDiskWithPath p n f fs = (.ok s, fs')) :
    p.fails (.probe f) fs = false ∧ (p.fails (.open f true) fs = false ∨ p.fails (.open f false) fs = false) ∧
      p.fails (.size f) fs = false := by
  unfold newFromDiskWithPath at h
  rw [M.bind_ok (pathExists_run f fs)] at h
  obtain ⟨_, f2, h3, h4⟩ := M.bind_ok_iff.1 h
  obtain ⟨g, rfl⟩ := mEnsure_ok_iff.1 h3
  obtain ⟨_, f3, h5, h6⟩ := M.bind_ok_iff.1 h4
  obtain ⟨k, rfl⟩ := checkOpen_ok h5
  obtain ⟨_, f4, h7, h8⟩ := M.bind_ok_iff.1 h6
  obtain ⟨-, rfl⟩ := get_ok h7
  obtain ⟨m, f5, h9, h10⟩ := M.bind_ok_iff.1 h8
  obtain ⟨l, rfl⟩ := get_ok h9
  refine ⟨?_, k, (rd_ok l).1⟩
  cases hq : p.fails (.probe f) _
  · rfl
  · rw [hq] at g; cases g

theorem newWithConfig_ok {n b : Nat} {c : StoreConfig} {s : DiskStore E} {fs fs' : FS}
    (h : newWithConfig p n b c fs = (.ok s, fs')) (hc : fs.file c.file = none) :
    p.fails (.create c.file) fs = false ∧
      p.fails (.setLen c.file (Element.byteLen E * n)) (FS.createNew c.file fs).2 = false := by
  unfold newWithConfig at h
  rw [M.bind_ok (pathExists_run c.file fs), hc, Option.isSome_none, Bool.and_false, if_neg Bool.false_ne_true] at h
  obtain ⟨_, f1, h1, h2⟩ := M.bind_ok_iff.1 h
  obtain ⟨g1, g2⟩ := io_ok h1
  obtain ⟨_, f2, h3, h4⟩ := M.bind_ok_iff.1 h2
  rw [g2]
  exact ⟨g1, (io_ok h3).1⟩

theorem processLayer_ok {A : Alg E} {b : Nat} {σ : Sched} {s s' : DiskStore E} {w l r x : Nat} {fs fs' : FS}
    (h : processLayer p A b σ s w l r x fs = (.ok s', fs')) :
    p.fails (.map s.file (x * Element.byteLen E) (w * Element.byteLen E)) fs = false := by
  obtain ⟨_, f1, h1, h2⟩ := M.bind_ok_iff.1 h
  exact (check_ok h1).1

theorem build_ok {A : Alg E} {b : Nat} {σ : Sched} {s s' : DiskStore E} {n rows : Nat} {c : Option StoreConfig}
    {e : E} {fs fs' : FS} (h : build p A b σ s n rows c fs = (.ok (e, s'), fs')) :
    (1 < n → p.fails (.map s.file (s.len * Element.byteLen E) (n * Element.byteLen E)) fs = false) ∧
      p.fails (.read s'.file ((s'.len - 1) * Element.byteLen E) (Element.byteLen E)) fs' = false := by
  obtain ⟨_, f1, h1, h2⟩ := M.bind_ok_iff.1 h
  obtain ⟨-, rfl⟩ := mEnsure_ok_iff.1 h1
  obtain ⟨_, f2, h3, h4⟩ := M.bind_ok_iff.1 h2
  obtain ⟨-, rfl⟩ := mEnsure_ok_iff.1 h3
  obtain ⟨_, f3, h5, h6⟩ := M.bind_ok_iff.1 h4
  obtain ⟨-, rfl⟩ := mEnsure_ok_iff.1 h5
  obtain ⟨⟨s1, l1⟩, f4, h7, h8⟩ := M.bind_ok_iff.1 h6
  constructor
  · intro hn
    unfold buildLoop at h7
    rw [if_pos hn] at h7
    obtain ⟨s2, f5, h9, -⟩ := M.bind_ok_iff.1 h7
    exact processLayer_ok h9
  · obtain ⟨_, f6, h10, h11⟩ := M.bind_ok_iff.1 h8
    obtain ⟨_, f7, h12, h13⟩ := M.bind_ok_iff.1 h11
    obtain ⟨_, f8, h14, h15⟩ := M.bind_ok_iff.1 h13
    obtain ⟨r, f9, h16, h17⟩ := M.bind_ok_iff.1 h15
    obtain ⟨h18, rfl⟩ := get_ok h16
    cases h17
    unfold last at h18
    obtain ⟨i, h19, h20⟩ := bind_ok_iff.1 h18
    unfold subP at h19
    split at h19 <;> cases h19
    exact readAt_ok h20

theorem compact_ok [FloatRows] {s s' : DiskStore E} {b : Nat} {c : StoreConfig} {v : Nat} {r : Bool} {fs fs' : FS}
    (h : compact p s b c v fs = (.ok r, s', fs')) :
    ∃ dw cs ca fs1, s.compactPlan b c = .ok (dw, cs, ca) ∧
      p.fails (.open c.file false) fs = false ∧ p.fails (.seek c.file ca) fs = false ∧
      p.fails (.open c.file true) fs = false ∧ p.fails (.seek c.file (if v = 1 then dw else 0)) fs = false ∧
      p.fails (.copy c.file ca (if v = 1 then dw else 0)) fs = false ∧
      DiskStore.copyWithin c.file ca (if v = 1 then dw else 0) fs = (.ok cs, fs1) ∧
      p.fails (.setLen c.file (if v = 1 then dw + cs else cs)) fs1 = false ∧
      p.fails (.sync c.file) fs' = false ∧ p.fails (.size c.file) fs' = false := by
  unfold compact at h
  split at h
  · cases h
  · rename_i dw cs ca hp
    split at h
    · cases h
    · rename_i f1 hpre
      split at h
      · cases h
      · dsimp only at h
        split at h
        · cases h
        · rename_i n f2 hcf
          split at h
          · cases h
          · rename_i m hs
            split at h
            · cases h
              obtain ⟨_, g1, a1, a2⟩ := M.bind_ok_iff.1 hpre
              obtain ⟨b1, rfl⟩ := check_ok a1
              obtain ⟨_, g2, a3, a4⟩ := M.bind_ok_iff.1 a2
              obtain ⟨b2, rfl⟩ := check_ok a3
              obtain ⟨b3, rfl⟩ := check_ok a4
              obtain ⟨_, g3, a5, a6⟩ := M.bind_ok_iff.1 hcf
              obtain ⟨b4, rfl⟩ := check_ok a5
              obtain ⟨_, g4, a7, a8⟩ := M.bind_ok_iff.1 a6
              obtain ⟨-, rfl⟩ := get_ok a7
              obtain ⟨w, g5, a9, a10⟩ := M.bind_ok_iff.1 a8
              obtain ⟨b5, b6⟩ := io_ok a9
              obtain ⟨_, g6, a11, a12⟩ := M.bind_ok_iff.1 a10
              obtain ⟨rfl, rfl⟩ := mEnsure_ok_iff.1 a11
              obtain ⟨_, g7, a13, a14⟩ := M.bind_ok_iff.1 a12
              obtain ⟨b7, -⟩ := io_ok a13
              cases a14
              obtain ⟨_, c1, c2⟩ := bind_ok_iff.1 hs
              have e : (v == 1) = decide (v = 1) := rfl
              simp only [e, decide_eq_true_eq] at b4 b5 b6 b7
              exact ⟨dw, _, ca, _, hp, b1, b2, b3, b4, b5, b6, b7, (rd_ok c1).1, (rd_ok c2).1⟩
            · cases h

theorem isConsistent_ok {fs : FS} {n b : Nat} {c : StoreConfig} {r : Bool} (h : isConsistent p E fs n b c = .ok r) :
    p.fails (.open c.file false) fs = false ∧ p.fails (.size c.file) fs = false := by
  obtain ⟨_, h1, h2⟩ := bind_ok_iff.1 h
  obtain ⟨_, h3, -⟩ := bind_ok_iff.1 h2
  exact ⟨(rd_ok h1).1, (rd_ok h3).1⟩

end Disk

namespace Cache

theorem storeCopyFromSlice_ok {s : LevelCacheStore E} {a : Nat} {bs : Bytes} {fs fs' : FS} {u : Unit}
    (h : storeCopyFromSlice p s a bs fs = (.ok u, fs')) : p.fails (.write s.file a bs) fs = false := by
  obtain ⟨_, f1, h1, h2⟩ := M.bind_ok_iff.1 h
  obtain ⟨-, rfl⟩ := mEnsure_ok_iff.1 h1
  exact (io_ok h2).1

theorem writeAt_ok {s s' : LevelCacheStore E} {e : E} {i : Nat} {fs fs' : FS} (h : writeAt p s e i fs = (.ok s', fs')) :
    p.fails (.write s.file (i * Element.byteLen E) (Element.toBytes e)) fs = false := by
  obtain ⟨_, f1, h1, -⟩ := M.bind_ok_iff.1 h
  exact storeCopyFromSlice_ok h1

theorem copyFromSlice_ok {s s' : LevelCacheStore E} {buf : Bytes} {i : Nat} {fs fs' : FS}
    (h : copyFromSlice p s buf i fs = (.ok s', fs')) :
    p.fails (.write s.file (i * Element.byteLen E) buf) fs = false := by
  obtain ⟨_, f1, h1, h2⟩ := M.bind_ok_iff.1 h
  obtain ⟨-, rfl⟩ := ofRes_ok h1
  obtain ⟨_, f2, h3, h4⟩ := M.bind_ok_iff.1 h2
  obtain ⟨-, rfl⟩ := mEnsure_ok_iff.1 h3
  obtain ⟨_, f3, h5, -⟩ := M.bind_ok_iff.1 h4
  exact storeCopyFromSlice_ok h5

theorem push_ok {s s' : LevelCacheStore E} {e : E} {fs fs' : FS} (h : push p s e fs = (.ok s', fs')) :
    p.fails (.write s.file (s.len * Element.byteLen E) (Element.toBytes e)) fs = false := by
  obtain ⟨_, f1, h1, h2⟩ := M.bind_ok_iff.1 h
  obtain ⟨-, rfl⟩ := mEnsure_ok_iff.1 h1
  exact writeAt_ok h2

theorem new_ok {n : Nat} {s : LevelCacheStore E} {fs fs' : FS} (h : new p n fs = (.ok s, fs')) :
    p.fails .temp fs = false ∧
      p.fails (.setLen s.file (Element.byteLen E * n)) (FS.createTemp fs).2 = false := by
  obtain ⟨f, f1, h1, h2⟩ := M.bind_ok_iff.1 h
  obtain ⟨g1, g2⟩ := io_ok h1
  obtain ⟨_, f2, h3, h4⟩ := M.bind_ok_iff.1 h2
  cases h4
  rw [g2]
  exact ⟨g1, (io_ok h3).1⟩

theorem storeReadRange_ok {fs : FS} {s : LevelCacheStore E} {a b : Nat} {bs : Bytes}
    (h : storeReadRange p fs s a b = .ok bs) : p.fails (s.readOp a b (b - a)) fs = false := by
  unfold storeReadRange subP at h
  simp only [bind_ok_iff] at h
  obtain ⟨n, hn, _, _, h⟩ := h
  split at hn <;> cases hn
  unfold LevelCacheStore.readOp
  cases hr : s.reader with
  | none =>
    rw [hr] at h
    rw [if_neg (by simp)]
    exact (rd_ok h).1
  | some r =>
    rw [hr] at h
    dsimp only at h
    split at h
    · rw [if_pos ⟨rfl, ‹_›⟩]
      exact (rd_ok h).1
    · rw [if_neg (fun x => absurd x.2 ‹_›)]
      exact (rd_ok h).1

theorem storeReadInto_ok {fs : FS} {s : LevelCacheStore E} {a b : Nat} {buf r : Bytes}
    (h : storeReadInto p fs s a b buf = .ok r) : p.fails (s.readOp a b buf.length) fs = false := by
  unfold storeReadInto at h
  simp only [bind_ok_iff] at h
  obtain ⟨_, _, h⟩ := h
  unfold LevelCacheStore.readOp
  cases hr : s.reader with
  | none =>
    rw [hr] at h
    rw [if_neg (by simp)]
    exact (rd_ok (readContext_ok h)).1
  | some r =>
    rw [hr] at h
    dsimp only at h
    split at h
    · rw [if_pos ⟨rfl, ‹_›⟩]
      exact (rd_ok (readContext_ok h)).1
    · rw [if_neg (fun x => absurd x.2 ‹_›)]
      exact (rd_ok (readContext_ok h)).1

theorem readAt_ok {fs : FS} {s : LevelCacheStore E} {i : Nat} {e : E} (h : readAt p fs s i = .ok e) :
    p.fails (s.readOp (i * Element.byteLen E) (i * Element.byteLen E + Element.byteLen E) (Element.byteLen E)) fs
      = false := by
  unfold readAt at h
  simp only [bind_ok_iff] at h
  obtain ⟨_, _, bs, h, _⟩ := h
  have := storeReadRange_ok h
  rwa [Nat.add_sub_cancel_left] at this

theorem readRange_ok {fs : FS} {s : LevelCacheStore E} {a b : Nat} {es : List E} (h : readRange p fs s a b = .ok es) :
    p.fails (s.readOp (a * Element.byteLen E) (b * Element.byteLen E)
      (b * Element.byteLen E - a * Element.byteLen E)) fs = false := by
  unfold readRange at h
  simp only [bind_ok_iff] at h
  obtain ⟨_, _, bs, h, _⟩ := h
  exact storeReadRange_ok h

theorem readInto_ok {fs : FS} {s : LevelCacheStore E} {i : Nat} {buf r : Bytes} (h : readInto p fs s i buf = .ok r) :
    p.fails (s.readOp (i * Element.byteLen E) (i * Element.byteLen E + Element.byteLen E) buf.length) fs = false := by
  unfold readInto at h
  simp only [bind_ok_iff] at h
  obtain ⟨_, _, h⟩ := h
  exact storeReadInto_ok h

theorem readRangeInto_ok {fs : FS} {s : LevelCacheStore E} {a b : Nat} {buf r : Bytes}
    (h : readRangeInto p fs s a b buf = .ok r) :
    p.fails (s.readOp (a * Element.byteLen E) (b * Element.byteLen E) buf.length) fs = false := by
  unfold readRangeInto at h
  simp only [bind_ok_iff] at h
  obtain ⟨_, _, h⟩ := h
  exact storeReadInto_ok h

theorem readAtInternal_ok {fs : FS} {s : LevelCacheStore E} {i : Nat} {e : E} (h : readAtInternal p fs s i = .ok e) :
    p.fails (.read s.file (i * Element.byteLen E) (Element.byteLen E)) fs = false := by
  unfold readAtInternal storeReadRangeInternal subP at h
  simp only [bind_ok_iff] at h
  obtain ⟨_, _, bs, ⟨n, hn, _, _, h⟩, _⟩ := h
  rw [if_pos (by omega)] at hn
  cases hn
  rw [Nat.add_sub_cancel_left] at h
  exact (rd_ok h).1

theorem mustExist_ok {f : FileId} {fs fs' : FS} {msg : String} {α : Type} {k : Unit → M α} {a : α}
    (h : (pathExists p f >>= fun ex => mEnsure (ex = true) msg >>= k) fs = (.ok a, fs')) :
    p.fails (.probe f) fs = false ∧ k () fs = (.ok a, fs') := by
  rw [M.bind_ok (pathExists_run f fs)] at h
  obtain ⟨_, f2, h3, h4⟩ := M.bind_ok_iff.1 h
  obtain ⟨g, rfl⟩ := mEnsure_ok_iff.1 h3
  refine ⟨?_, h4⟩
  cases hq : p.fails (.probe f) _
  · rfl
  · rw [hq] at g; cases g

theorem newFromDisk_ok [FloatRows] {n b : Nat} {c : StoreConfig} {s : LevelCacheStore E} {fs fs' : FS}
    (h : newFromDisk p n b c fs = (.ok s, fs')) :
    p.fails (.probe c.file) fs = false ∧
      (p.fails (.open c.file true) fs = false ∨ p.fails (.open c.file false) fs = false) ∧
      p.fails (.size c.file) fs = false := by
  obtain ⟨g, h1⟩ := mustExist_ok h
  obtain ⟨_, f3, h5, h6⟩ := M.bind_ok_iff.1 h1
  obtain ⟨k, rfl⟩ := checkOpen_ok h5
  obtain ⟨m, f5, h9, h10⟩ := M.bind_ok_iff.1 h6
  obtain ⟨l, rfl⟩ := get_ok h9
  exact ⟨g, k, (rd_ok l).1⟩

theorem newFromDiskWithReader_ok [FloatRows] {n b : Nat} {c : StoreConfig} {r : ExternalReader}
    {s : LevelCacheStore E} {fs fs' : FS} (h : newFromDiskWithReader p n b c r fs = (.ok s, fs')) :
    p.fails (.probe c.file) fs = false ∧
      (p.fails (.open c.file true) fs = false ∨ p.fails (.open c.file false) fs = false) ∧
      p.fails (.size c.file) fs = false := by
  obtain ⟨g, h1⟩ := mustExist_ok h
  obtain ⟨_, f3, h5, h6⟩ := M.bind_ok_iff.1 h1
  obtain ⟨k, rfl⟩ := checkOpen_ok h5
  obtain ⟨m, f5, h9, h10⟩ := M.bind_ok_iff.1 h6
  obtain ⟨l, rfl⟩ := get_ok h9
  exact ⟨g, k, (rd_ok l).1⟩

theorem newWithConfig_ok [FloatRows] {n b : Nat} {c : StoreConfig} {s : LevelCacheStore E} {fs fs' : FS}
    (h : newWithConfig p n b c fs = (.ok s, fs')) (hc : fs.file c.file = none) :
    p.fails (.create c.file) fs = false ∧
      p.fails (.setLen c.file (Element.byteLen E * n)) (FS.createNew c.file fs).2 = false := by
  unfold newWithConfig at h
  rw [M.bind_ok (pathExists_run c.file fs), hc, Option.isSome_none, Bool.and_false, if_neg Bool.false_ne_true] at h
  obtain ⟨_, f1, h1, h2⟩ := M.bind_ok_iff.1 h
  obtain ⟨g1, g2⟩ := io_ok h1
  obtain ⟨_, f2, h3, h4⟩ := M.bind_ok_iff.1 h2
  obtain ⟨-, rfl⟩ := ofRes_ok h3
  obtain ⟨_, f3, h5, h6⟩ := M.bind_ok_iff.1 h4
  rw [g2]
  exact ⟨g1, (io_ok h5).1⟩

theorem processLayer_ok {A : Alg E} {b : Nat} {σ : Sched} {s s' : LevelCacheStore E} {w l r x : Nat} {fs fs' : FS}
    (h : processLayer p A b σ s w l r x fs = (.ok s', fs')) :
    p.fails (.map s.file (x * Element.byteLen E) (w * Element.byteLen E)) fs = false := by
  obtain ⟨_, f1, h1, h2⟩ := M.bind_ok_iff.1 h
  exact (check_ok h1).1

theorem frontTruncate_ok {s s' : LevelCacheStore E} {c : StoreConfig} {n : Nat} {fs fs' : FS}
    (h : frontTruncate p s c n fs = (.ok s', fs')) :
    ∃ w fs1, p.fails (.size s.file) fs = false ∧ p.fails (.open c.file false) fs = false ∧
      p.fails (.seek c.file (n * Element.byteLen E)) fs = false ∧ p.fails (.open c.file true) fs = false ∧
      p.fails (.seek c.file 0) fs = false ∧ p.fails (.copy c.file (n * Element.byteLen E) 0) fs = false ∧
      DiskStore.copyWithin c.file (n * Element.byteLen E) 0 fs = (.ok w, fs1) ∧
      p.fails (.setLen c.file w) fs1 = false := by
  obtain ⟨_, f1, h1, k1⟩ := M.bind_ok_iff.1 h
  obtain ⟨g1, rfl⟩ := get_ok h1
  obtain ⟨_, f2, h2, k2⟩ := M.bind_ok_iff.1 k1
  obtain ⟨-, rfl⟩ := mEnsure_ok_iff.1 h2
  obtain ⟨_, f3, h3, k3⟩ := M.bind_ok_iff.1 k2
  obtain ⟨g3, rfl⟩ := check_ok h3
  obtain ⟨_, f4, h4, k4⟩ := M.bind_ok_iff.1 k3
  obtain ⟨g4, rfl⟩ := check_ok h4
  obtain ⟨_, f5, h5, k5⟩ := M.bind_ok_iff.1 k4
  obtain ⟨g5, rfl⟩ := check_ok h5
  obtain ⟨_, f6, h6, k6⟩ := M.bind_ok_iff.1 k5
  obtain ⟨-, rfl⟩ := get_ok h6
  obtain ⟨_, f7, h7, k7⟩ := M.bind_ok_iff.1 k6
  obtain ⟨g7, rfl⟩ := check_ok h7
  obtain ⟨w, f8, h8, k8⟩ := M.bind_ok_iff.1 k7
  obtain ⟨g8, g8'⟩ := io_ok h8
  obtain ⟨_, f9, h9, k9⟩ := M.bind_ok_iff.1 k8
  obtain ⟨-, rfl⟩ := mEnsure_ok_iff.1 h9
  obtain ⟨_, f10, h10, k10⟩ := M.bind_ok_iff.1 k9
  exact ⟨w, f9, (rd_ok g1).1, g3, g4, g5, g7, g8, g8', (io_ok h10).1⟩

theorem build_ok [FloatRows] {A : Alg E} {b : Nat} {σ : Sched} {s s' : LevelCacheStore E} {n rows : Nat}
    {c : Option StoreConfig} {e : E} {fs fs' : FS} (h : build p A b σ s n rows c fs = (.ok (e, s'), fs')) :
    (1 < n → p.fails (.map s.file (s.len * Element.byteLen E) (n * Element.byteLen E)) fs = false) ∧
      ∃ i, p.fails (.read s'.file (i * Element.byteLen E) (Element.byteLen E)) fs' = false := by
  obtain ⟨_, f1, h1, h2⟩ := M.bind_ok_iff.1 h
  obtain ⟨-, rfl⟩ := mEnsure_ok_iff.1 h1
  obtain ⟨_, f2, h3, h4⟩ := M.bind_ok_iff.1 h2
  obtain ⟨-, rfl⟩ := mEnsure_ok_iff.1 h3
  obtain ⟨_, f3, h5, h6⟩ := M.bind_ok_iff.1 h4
  obtain ⟨-, rfl⟩ := mEnsure_ok_iff.1 h5
  cases c with
  | none => cases h6
  | some c =>
    obtain ⟨_, g1, k1, k2⟩ := M.bind_ok_iff.1 h6
    obtain ⟨-, rfl⟩ := ofRes_ok k1
    obtain ⟨_, g2, k3, k4⟩ := M.bind_ok_iff.1 k2
    obtain ⟨-, rfl⟩ := ofRes_ok k3
    obtain ⟨_, g3, k5, k6⟩ := M.bind_ok_iff.1 k4
    obtain ⟨-, rfl⟩ := ofRes_ok k5
    obtain ⟨⟨s1, l1⟩, f4, h7, h8⟩ := M.bind_ok_iff.1 k6
    constructor
    · intro hn
      unfold buildLoop at h7
      rw [if_pos hn] at h7
      obtain ⟨s2, f5, h9, -⟩ := M.bind_ok_iff.1 h7
      exact processLayer_ok h9
    · obtain ⟨_, f6, h10, h11⟩ := M.bind_ok_iff.1 h8
      obtain ⟨_, f7, h12, h13⟩ := M.bind_ok_iff.1 h11
      obtain ⟨_, f8, h14, h15⟩ := M.bind_ok_iff.1 h13
      obtain ⟨_, f9, h16, h17⟩ := M.bind_ok_iff.1 h15
      obtain ⟨i, f10, h18, h19⟩ := M.bind_ok_iff.1 h17
      obtain ⟨r, f11, h20, h21⟩ := M.bind_ok_iff.1 h19
      obtain ⟨h22, rfl⟩ := get_ok h20
      cases h21
      exact ⟨i, readAtInternal_ok h22⟩

theorem isConsistent_ok [FloatRows] {fs : FS} {n b : Nat} {c : StoreConfig} {r : Bool}
    (h : isConsistent p E fs n b c = .ok r) :
    p.fails (.open c.file false) fs = false ∧ p.fails (.size c.file) fs = false := by
  obtain ⟨_, h1, h2⟩ := bind_ok_iff.1 h
  obtain ⟨_, h3, -⟩ := bind_ok_iff.1 h2
  exact ⟨(rd_ok h1).1, (rd_ok h3).1⟩

theorem isConsistentV1_ok [FloatRows] {fs : FS} {n b : Nat} {c : StoreConfig} {r : Bool}
    (h : isConsistentV1 p E fs n b c = .ok r) :
    p.fails (.open c.file false) fs = false ∧ p.fails (.size c.file) fs = false := by
  obtain ⟨_, h1, h2⟩ := bind_ok_iff.1 h
  obtain ⟨_, h3, -⟩ := bind_ok_iff.1 h2
  exact ⟨(rd_ok h1).1, (rd_ok h3).1⟩

end Cache
end Flaky
end Verif
