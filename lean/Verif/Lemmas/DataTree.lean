import Mathlib.Tactic.ByContra
import Verif.Spec.DataTree
import Verif.Spec.Digest
import Verif.Lemmas.Encoding
/-
Hashing a value with the hasher of an algorithm writes its encoding.
-/
namespace Verif
open Spec

variable [Target] {E : Type} [Element E] {σ : Type} {init : σ} {write : σ → Bytes → σ} {hash : σ → E × σ}

theorem hasher_streaming (hw : Streaming write) : (Alg.ofHasher σ init write hash).hasher.Streaming :=
  ⟨hw.1, hw.2⟩

theorem hashOf_eq (hw : Streaming write) {T : Type} [HashIn (Alg.ofHasher σ init write hash).hasher T] [Enc T]
    [EncodesIn (Alg.ofHasher σ init write hash).hasher T] (x : T) (s : σ) :
    hashOf (Alg.ofHasher σ init write hash) x s = write s (Enc.enc x) :=
  EncodesIn.hash_eq (H := (Alg.ofHasher σ init write hash).hasher) (fun _ _ _ => rfl) (hasher_streaming hw) x s

theorem enc_or_collision {T U : Type} [Enc T] [Enc U] {D : Bytes → E} {ds : List T} {es : List U}
    (h : (ds.map fun d => D (Enc.enc d)) = es.map fun d => D (Enc.enc d)) :
    ds.map Enc.enc = es.map Enc.enc ∨
      ∃ x y, x ∈ ds.map Enc.enc ∧ y ∈ es.map Enc.enc ∧ x ≠ y ∧ D x = D y := by
  by_cases he : ds.map Enc.enc = es.map Enc.enc
  · exact .inl he
  · refine .inr ?_
    have hl : ds.length = es.length := by simpa using congrArg List.length h
    have : ∃ i, ∃ (h1 : i < ds.length) (h2 : i < es.length), (Enc.enc ds[i] : Bytes) ≠ Enc.enc es[i] := by
      by_contra hne
      refine he (List.ext_getElem (by simpa using hl) fun i g1 g2 => ?_)
      rw [List.getElem_map, List.getElem_map]
      by_contra hx
      exact hne ⟨i, by simpa using g1, by simpa using g2, hx⟩
    obtain ⟨i, g1, g2, g3⟩ := this
    refine ⟨_, _, List.mem_map.2 ⟨_, List.getElem_mem g1, rfl⟩,
      List.mem_map.2 ⟨_, List.getElem_mem g2, rfl⟩, g3, ?_⟩
    have := List.getElem_of_eq h (i := i) (by simpa using g1)
    simpa only [List.getElem_map] using this

end Verif
