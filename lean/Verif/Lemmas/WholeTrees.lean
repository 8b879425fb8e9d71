import Verif.Spec.WholeTrees
import Verif.Lemmas.Parts
import Verif.Lemmas.Compound64
import Verif.Lemmas.Unlink
/-! Whole trees answer as before if their base trees do. -/
set_option linter.unusedSectionVars false
namespace Verif
open Spec

namespace Node
variable {C C' E : Type} {leafsOf : C → Nat} {leafsOf' : C' → Nat} {R : C → C' → Prop} {t : Node C E}
  {u : Node C' E}

theorem M.bind_fst {α β : Type} (x : M α) (k : α → M β) (fs : FS) : ((x >>= k) fs).1
    = match x fs with | (.ok a, fs') => (k a fs').1 | (.error e, _) => .error e := by
  rcases h : x fs with ⟨r, fs'⟩
  cases r with
  | ok a => rw [M.bind_ok h]
  | error e => rw [M.bind_error h]

theorem genCachedLayerProof_congr {rootOf : C → E} {rootOf' : C' → E} {gen : C → Nat → M (Proof E)}
    {gen' : C' → Nat → M (Proof E)} {fs fs' : FS} (h : List.Forall₂ R t.children u.children)
    (hl : u.leafs = t.leafs) (hroot : u.root = t.root)
    (hR : ∀ c d, R c d → leafsOf' d = leafsOf c ∧ rootOf' d = rootOf c ∧
      ∀ i, (gen' d i fs').1 = (gen c i fs).1) (b pTop pSub arity i : Nat) :
    (u.genCachedLayerProof leafsOf' rootOf' gen' b pTop pSub arity i fs').1
      = (t.genCachedLayerProof leafsOf rootOf gen b pTop pSub arity i fs).1 := by
  unfold genCachedLayerProof
  by_cases h1 : arity ≠ 0
  swap
  · rw [M.bind_error (mEnsure_false h1 _ _), M.bind_error (mEnsure_false h1 _ _)]
  rw [M.bind_ok (mEnsure_true h1 _ _), M.bind_ok (mEnsure_true h1 _ _), hl]
  by_cases h2 : i < t.leafs
  swap
  · rw [M.bind_error (mEnsure_false h2 _ _), M.bind_error (mEnsure_false h2 _ _)]
  rw [M.bind_ok (mEnsure_true h2 _ _), M.bind_ok (mEnsure_true h2 _ _)]
  have hloc : Res.Alike (fun x y => R x.2.1 y.2.1 ∧ y.1 = x.1 ∧ y.2.2 = x.2.2) (locate leafsOf t arity i)
      (locate leafsOf' u arity i) := by
    unfold locate
    rw [hl]
    cases divP t.leafs arity with
    | error e => exact rfl
    | ok per =>
      simp only [Res.ok_bind]
      cases divP i per with
      | error e => exact rfl
      | ok ti =>
        simp only [Res.ok_bind]
        have := idxP_forall₂ h ti
        cases h1 : idxP t.children ti <;> cases h2 : idxP u.children ti <;> rw [h1, h2] at this
        · exact this
        · exact this.elim
        · exact this.elim
        · rename_i c d
          simp only [Res.ok_bind]
          rw [(hR _ _ this).1]
          cases modP i (leafsOf c) with
          | error e => exact rfl
          | ok li => exact ⟨this, rfl, rfl⟩
  cases e1 : locate leafsOf t arity i <;> cases e2 : locate leafsOf' u arity i <;> rw [e1, e2] at hloc
  · cases hloc; rfl
  · exact hloc.elim
  · exact hloc.elim
  · rename_i x y
    obtain ⟨ti, c, li⟩ := x
    obtain ⟨ti', d, li'⟩ := y
    obtain ⟨g1, rfl, rfl⟩ := hloc
    obtain ⟨-, -, g4⟩ := hR _ _ g1
    simp only [M.ofRes_ok_bind, M.bind_fst]
    have g5 := g4 li'
    rw [layerLemma_congr h (fun c d hcd => (hR c d hcd).2.1) hroot]
    rcases hx : gen c li' fs with ⟨r, f1⟩
    rcases hy : gen' d li' fs' with ⟨r', f2⟩
    rw [hx, hy] at g5
    dsimp only at g5
    subst g5
    cases r' with
    | error e => rfl
    | ok sp =>
      dsimp only
      cases layerLemma rootOf t ti' arity 0 <;> rfl

end Node

section
variable {S E : Type} [Element E] [StoreOps S E] {fs fs' : FS} {f : S → S}

theorem forall₂_map_right {α β : Type} {R : α → β → Prop} {g : α → β} : ∀ {xs : List α},
    (∀ x ∈ xs, R x (g x)) → List.Forall₂ R xs (xs.map g)
  | [], _ => .nil
  | x :: xs, h => .cons (h x (by simp)) (forall₂_map_right fun y hy => h y (by simp [hy]))

theorem BaseTree.SameAnswers.sizes {t t' : BaseTree S E} (h : BaseTree.SameAnswers fs t fs' t') :
    t'.leafs = t.leafs ∧ t'.length = t.length ∧ t'.rowCount = t.rowCount ∧ t'.root = t.root := by
  have := h.summary
  simp only [BaseTree.summary, Prod.mk.injEq] at this
  exact ⟨this.2.1, this.2.2.1, this.2.2.2, this.1⟩

theorem Tree1.SameAnswers.of_base : ∀ {t : Tree1 S E},
    t.AllBase (fun u => BaseTree.SameAnswers fs u fs' (u.mapStore f)) →
    Tree1.SameAnswers fs t fs' (t.mapStore f)
  | .base t, h => ⟨h.sizes.2.2.2, h.sizes.1, h.sizes.2.1, h.sizes.2.2.1, fun _ i => h.reads i,
      fun i j => h.ranges i j, fun b sub i => h.proofs b sub 0 i,
      fun A b sub σ i rows => h.cachedProofs A b sub 0 σ i rows⟩
  | .sub t, h => by
    have hc : List.Forall₂ (fun u u' => BaseTree.SameAnswers fs u fs' u') t.children
        (t.mapChildren (BaseTree.mapStore f)).children := forall₂_map_right h
    refine ⟨rfl, rfl, rfl, rfl, fun sub i => ?_, fun i j => rfl, fun b sub i => ?_,
      fun A b sub σ i rows => ?_⟩
    · exact Node.readAt_congr hc rfl (fun c d hcd => ⟨hcd.sizes.1, fun i _ => hcd.reads i⟩) sub i
    · exact Node.genSubTreeProof_congr hc rfl rfl
        (fun c d hcd => ⟨hcd.sizes.1, hcd.sizes.2.2.2, fun i _ => hcd.proofs b 0 0 i⟩) b 0 sub sub i
    · exact Node.genCachedLayerProof_congr hc rfl rfl
        (fun c d hcd => ⟨hcd.sizes.1, hcd.sizes.2.2.2, fun i => hcd.cachedProofs A b 0 0 σ i rows⟩)
        b 0 sub sub i

theorem Tree2.SameAnswers.of_base : ∀ {t : Tree2 S E},
    t.AllBase (fun u => BaseTree.SameAnswers fs u fs' (u.mapStore f)) →
    Tree2.SameAnswers fs t fs' (t.mapStore f)
  | .base t, h => ⟨h.sizes.2.2.2, h.sizes.1, h.sizes.2.1, h.sizes.2.2.1, fun _ _ i => h.reads i,
      fun b sub top i => h.proofs b sub top i,
      fun A b sub top σ i rows => h.cachedProofs A b sub top σ i rows⟩
  | .sub t, h => by
    have hc : List.Forall₂ (fun u u' => BaseTree.SameAnswers fs u fs' u') t.children
        (t.mapChildren (BaseTree.mapStore f)).children := forall₂_map_right h
    refine ⟨rfl, rfl, rfl, rfl, fun sub top i => ?_, fun b sub top i => ?_,
      fun A b sub top σ i rows => ?_⟩
    · exact Node.readAt_congr hc rfl (fun c d hcd => ⟨hcd.sizes.1, fun i _ => hcd.reads i⟩) sub i
    · exact Node.genSubTreeProof_congr hc rfl rfl
        (fun c d hcd => ⟨hcd.sizes.1, hcd.sizes.2.2.2, fun i _ => hcd.proofs b 0 0 i⟩) b top sub sub i
    · exact Node.genCachedLayerProof_congr hc rfl rfl
        (fun c d hcd => ⟨hcd.sizes.1, hcd.sizes.2.2.2, fun i => hcd.cachedProofs A b 0 0 σ i rows⟩)
        b top sub sub i
  | .top t, h => by
    have hc : List.Forall₂ (fun u u' => Tree1.SameAnswers fs u fs' u') t.children
        (t.mapChildren (Tree1.mapStore f)).children :=
      forall₂_map_right fun c hc => Tree1.SameAnswers.of_base (h c hc)
    refine ⟨rfl, rfl, rfl, rfl, fun sub top i => ?_, fun b sub top i => ?_,
      fun A b sub top σ i rows => ?_⟩
    · exact Node.readAt_congr hc rfl (fun c d hcd => ⟨hcd.leafs, fun i _ => hcd.reads sub i⟩) top i
    · exact Node.genSubTreeProof_congr hc rfl rfl
        (fun c d hcd => ⟨hcd.leafs, hcd.root, fun i _ => hcd.proofs b sub i⟩) b top sub top i
    · exact Node.genCachedLayerProof_congr hc rfl rfl
        (fun c d hcd => ⟨hcd.leafs, hcd.root, fun i => hcd.cachedProofs A b sub σ i rows⟩)
        b top sub top i

theorem Node.mapChildren_id {C E : Type} {g : C → C} (h : ∀ c, g c = c) (t : Node C E) :
    t.mapChildren g = t := by
  obtain rfl : g = id := funext h
  simp [Node.mapChildren]

theorem Tree1.mapStore_id : ∀ t : Tree1 S E, t.mapStore id = t
  | .base _ => rfl
  | .sub t => congrArg Tree1.sub (Node.mapChildren_id (fun _ => rfl) t)

theorem Tree2.mapStore_id : ∀ t : Tree2 S E, t.mapStore id = t
  | .base _ => rfl
  | .sub t => congrArg Tree2.sub (Node.mapChildren_id (fun _ => rfl) t)
  | .top t => congrArg Tree2.top (Node.mapChildren_id Tree1.mapStore_id t)

theorem Tree1.AllBase.mono {P Q : BaseTree S E → Prop} (h : ∀ u, P u → Q u) : ∀ {t : Tree1 S E},
    t.AllBase P → t.AllBase Q
  | .base _, ht => h _ ht
  | .sub _, ht => fun c hc => h c (ht c hc)

theorem Tree2.AllBase.mono {P Q : BaseTree S E → Prop} (h : ∀ u, P u → Q u) : ∀ {t : Tree2 S E},
    t.AllBase P → t.AllBase Q
  | .base _, ht => h _ ht
  | .sub _, ht => fun c hc => h c (ht c hc)
  | .top _, ht => fun c hc => Tree1.AllBase.mono h (ht c hc)

/-- Operations with configurations change no other file. -/
theorem ConfigOp.run_apart {S' : Type} [Confined S' E] [FloatRows] {A : Alg E} {g : FileId} :
    ∀ (ops : List (StoreConfig × ConfigOp S' A)) (fs : FS),
    (∀ p ∈ ops, ∀ s, p.2.handle = some s → ∀ g, Confined.owns (E := E) s g → g = p.1.file) →
    (∀ p ∈ ops, g ≠ p.1.file) → (ConfigOp.run ops fs).file g = fs.file g
  | [], _, _, _ => rfl
  | p :: ops, fs, h, hg => by
    refine (ConfigOp.run_apart ops _ (fun q hq => h q (by simp [hq])) fun q hq => hg q (by simp [hq])).trans ?_
    exact p.2.only (h p (by simp)) (hg p (by simp)) fs

/-- `deleteOpen` of a whole tree on a file that is there. -/
theorem Tree2.deleteOpen_run [FileHandle S] (t : Tree2 S E) {c : StoreConfig} {bs : Bytes}
    (h : fs.file c.file = some bs) :
    ∃ fs', t.deleteOpen c fs = (.ok (t.mapStore (FileHandle.follow c.file (.temp fs.nextTemp))), fs') ∧
      fs'.file (.temp fs.nextTemp) = some bs ∧ fs'.file c.file = none ∧
      (∀ g, g ≠ c.file → g ≠ .temp fs.nextTemp → fs'.file g = fs.file g) := by
  refine ⟨_, M.bind_ok (FS.unlink_run h), FS.set_self _ _ _, ?_, fun g h1 h2 => ?_⟩
  · exact (FS.set_other (fs.set c.file none) (show c.file ≠ .temp fs.nextTemp by nofun) (some bs)).trans
      (FS.set_self _ _ _)
  · exact (FS.set_other (fs.set c.file none) h2 (some bs)).trans (FS.set_other fs h1 _)

/-- Whatever is done after `deleteOpen` with configurations of other files than those of the base trees,
each base tree has the file it had. -/
theorem Tree2.deleteOpen_files [FileHandle S] {S' : Type} [Confined S' E] [FloatRows] {A : Alg E}
    (t : Tree2 S E) {c : StoreConfig} {bs : Bytes} (h : fs.file c.file = some bs) :
    ∃ fs', t.deleteOpen c fs = (.ok (t.mapStore (FileHandle.follow c.file (.temp fs.nextTemp))), fs') ∧
      fs'.file c.file = none ∧
      ∀ ops : List (StoreConfig × ConfigOp S' A),
        (∀ p ∈ ops, ∀ s, p.2.handle = some s → ∀ g, Confined.owns (E := E) s g → g = p.1.file) →
        (ConfigOp.run ops fs').file (.temp fs.nextTemp) = fs.file c.file ∧
        ∀ c' : StoreConfig, c'.file ≠ c.file → (∀ p ∈ ops, c'.file ≠ p.1.file) →
          (ConfigOp.run ops fs').file c'.file = fs.file c'.file := by
  obtain ⟨fs', e, h1, h2, h3⟩ := t.deleteOpen_run h
  refine ⟨fs', e, h2, fun ops hops => ⟨?_, fun c' hc hne => ?_⟩⟩
  · rw [ConfigOp.run_temp _ ops fs' hops, h1, h]
  · rw [ConfigOp.run_apart ops fs' hops hne, h3 _ hc (by nofun)]

end
end Verif
