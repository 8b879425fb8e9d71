import Verif.Lemmas.Digest
/-
Helper lemmas: loops that reuse a hasher, against fresh hashers.
-/
namespace Verif
variable {E : Type} {A : Alg E}

section
variable [Element E] {S : Type} [StoreOps S E]

theorem populateLoop_fresh (hA : A.LawfulReset) : ∀ (items : List (Res E)) (a : A.σ) (a' : A.fresh.σ) (buf : Bytes) (s : S),
    populateLoop A items a buf s = populateLoop A.fresh items a' buf s
  | [], _, _, _, _ => rfl
  | item :: items, a, a', buf, s => by
    rw [populateLoop, populateLoop]
    congr 1
    funext x
    dsimp only
    rw [hA a]
    show (if (buf ++ Element.toBytes (A.leaf A.init x).1).length ≥ _ then _ else _)
      = (if (buf ++ Element.toBytes (A.leaf A.init x).1).length ≥ _ then _ else _)
    split
    · congr 1
      funext s'
      exact populateLoop_fresh hA items _ _ _ _
    · exact populateLoop_fresh hA items _ _ _ _

theorem leafChunkBytes_fresh (hA : A.LawfulReset) : ∀ (es : List E) (a : A.σ),
    leafChunkBytes A es a = encodeAll (es.map A.leafHash)
  | [], _ => rfl
  | e :: es, a => by
    rw [leafChunkBytes, List.map_cons, encodeAll_cons, ← leafChunkBytes_fresh hA es (A.leaf (A.reset a) e).2,
      hA]
    rfl

end

theorem validateLoop_fresh (hA : A.LawfulReset) (b : Nat) (l : List E) (path : List Nat) :
    ∀ (f i pi : Nat) (a : A.σ) (a' : A.fresh.σ) (h : E),
      Proof.validateLoop A b l path f i pi a h = Proof.validateLoop A.fresh b l path f i pi a' h
  | 0, _, _, _, _, _ => rfl
  | f + 1, i, pi, a, a', h => by
    rw [Proof.validateLoop, Proof.validateLoop]
    split
    · dsimp only
      congr 1
      funext p
      congr 1
      funext r
      split
      · rfl
      · rw [hA a]
        exact validateLoop_fresh hA b l path f _ _ _ _ _
    · rfl

end Verif
