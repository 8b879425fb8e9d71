import Verif.Model.TreeStore
import Verif.Model.MmapStore
/-
Vocabulary for statements about stores whose calls can fail: computations that may end with an error
where another one goes on and otherwise do the same, stores that fail in this way, and a concrete
store that fails according to a plan.
-/
namespace Verif

/-- The first result is a fault of the kind `F`, or the same as the second one (up to `R`). -/
def Res.Sim {α' α : Type} (F : Fault → Prop) (R : α' → α → Prop) (x' : Res α') (x : Res α) : Prop :=
  match x' with
  | .error e => F e ∨ x = .error e
  | .ok a' => ∃ a, x = .ok a ∧ R a' a

/-- The first computation ends with a fault of the kind `F`, or does the same as the second one. -/
def M.Sim {α' α : Type} (F : Fault → Prop) (R : α' → α → Prop) (x' : M α') (x : M α) : Prop :=
  ∀ fs, match x' fs with
    | (.error e, fs') => F e ∨ x fs = (.error e, fs')
    | (.ok a', fs') => ∃ a, x fs = (.ok a, fs') ∧ R a' a

/-- An `Err`. -/
def Fault.IsErr : Fault → Prop
  | .err _ => True
  | _ => False
/-- An `Err` or a panic. -/
def Fault.Ends : Fault → Prop
  | .diverge => False
  | _ => True

/-- A store `S'` that does what `S` does (`erase` gives the store it imitates), except that calls may
fail with `Err` where those of `S` do not; the files may then be in any state. -/
class MayFailOps (S' : Type) (S : outParam Type) (E : outParam Type) [StoreOps S' E] [StoreOps S E] where
  erase : S' → S
  len : ∀ s, StoreOps.len (E := E) (erase s) = StoreOps.len (E := E) s
  isEmpty : ∀ s, StoreOps.isEmpty (E := E) (erase s) = StoreOps.isEmpty (E := E) s
  loaded : ∀ s, StoreOps.loadedFromDisk (E := E) (erase s) = StoreOps.loadedFromDisk (E := E) s
  readAt : ∀ fs s i,
    Res.Sim Fault.IsErr (· = ·) (StoreOps.readAt fs s i : Res E) (StoreOps.readAt fs (erase s) i)
  readRange : ∀ fs s a b, Res.Sim Fault.IsErr (· = ·) (StoreOps.readRange fs s a b : Res (List E))
    (StoreOps.readRange fs (erase s) a b)
  readInto : ∀ fs s i buf, Res.Sim Fault.IsErr (· = ·) (StoreOps.readInto (E := E) fs s i buf)
    (StoreOps.readInto (E := E) fs (erase s) i buf)
  readRangeInto : ∀ fs s a b buf, a ≤ b →
    Res.Sim Fault.IsErr (· = ·) (StoreOps.readRangeInto (E := E) fs s a b buf)
      (StoreOps.readRangeInto (E := E) fs (erase s) a b buf)
  writeAt : ∀ s (e : E) i, M.Sim Fault.IsErr (fun t' t => erase t' = t) (StoreOps.writeAt s e i)
    (StoreOps.writeAt (erase s) e i)
  copyFromSlice : ∀ s buf i, M.Sim Fault.IsErr (fun t' t => erase t' = t)
    (StoreOps.copyFromSlice (E := E) s buf i) (StoreOps.copyFromSlice (E := E) (erase s) buf i)
  push : ∀ s (e : E),
    M.Sim Fault.IsErr (fun t' t => erase t' = t) (StoreOps.push s e) (StoreOps.push (erase s) e)

/-- The same for the constructors and `build`. -/
class MayFail (S' : Type) (S : outParam Type) (E : outParam Type) [Element E] [Store S' E] [Store S E]
    extends MayFailOps S' S E where
  new : ∀ n, M.Sim Fault.IsErr (fun t' t => erase t' = t) (Store.new n) (Store.new n)
  newWithConfig : ∀ n b c, M.Sim Fault.IsErr (fun t' t => erase t' = t) (Store.newWithConfig n b c)
    (Store.newWithConfig n b c)
  newFromSlice : ∀ n bs, M.Sim Fault.IsErr (fun t' t => erase t' = t) (Store.newFromSlice n bs)
    (Store.newFromSlice n bs)
  newFromSliceWithConfig : ∀ n b bs c, M.Sim Fault.IsErr (fun t' t => erase t' = t)
    (Store.newFromSliceWithConfig n b bs c) (Store.newFromSliceWithConfig n b bs c)
  build : ∀ (A : Alg E) b σ s n rows c,
    M.Sim Fault.IsErr (fun x' x => x'.1 = x.1 ∧ erase x'.2 = x.2)
      (Store.build A b σ s n rows c) (Store.build A b σ (erase s) n rows c)

/-- The same tree on another store. -/
def BaseTree.mapStore {S' S E : Type} (f : S' → S) (t : BaseTree S' E) : BaseTree S E :=
  ⟨f t.store, t.leafs, t.len, t.rowCount, t.root⟩
/-- The same layer over other trees. -/
def Node.mapChildren {C' C E : Type} (f : C' → C) (t : Node C' E) : Node C E :=
  ⟨t.children.map f, t.leafs, t.len, t.rowCount, t.root⟩
/-- The same tree on other stores. -/
def Tree1.mapStore {S' S E : Type} (f : S' → S) : Tree1 S' E → Tree1 S E
  | .base t => .base (t.mapStore f)
  | .sub t => .sub (t.mapChildren (BaseTree.mapStore f))
/-- The same tree on other stores. -/
def Tree2.mapStore {S' S E : Type} (f : S' → S) : Tree2 S' E → Tree2 S E
  | .base t => .base (t.mapStore f)
  | .sub t => .sub (t.mapChildren (BaseTree.mapStore f))
  | .top t => .top (t.mapChildren (Tree1.mapStore f))

/-- Which calls of a store fail.  Reads are named by what they ask for, writes and pushes by how many
have been made on the store before. -/
structure FaultPlan where
  readAt : Nat → Bool := fun _ => false
  readRange : Nat → Nat → Bool := fun _ _ => false
  write : Nat → Bool := fun _ => false
  new : Bool := false

/-- A store `S` whose calls fail according to the plan `p`. -/
structure Faulty (p : FaultPlan) (S : Type) where
  inner : S
  writes : Nat

namespace Faulty
variable {p : FaultPlan} {S E : Type}

/-- The `Err` of a failing call. -/
def ioError {α : Type} : Res α := .error (.err "I/O error")

/-- A write that fails if the plan says so. -/
def onWrite (s : Faulty p S) (f : S → M S) : M (Faulty p S) :=
  if p.write s.writes then M.ofRes ioError else do
    let t ← f s.inner
    pure ⟨t, s.writes + 1⟩

/-- A constructor that fails if the plan says so. -/
def onNew (f : M S) : M (Faulty p S) :=
  if p.new then M.ofRes ioError else do
    let t ← f
    pure ⟨t, 0⟩

instance [StoreOps S E] : StoreOps (Faulty p S) E where
  len s := StoreOps.len (E := E) s.inner
  isEmpty s := StoreOps.isEmpty (E := E) s.inner
  loadedFromDisk s := StoreOps.loadedFromDisk (E := E) s.inner
  readAt fs s i := if p.readAt i then ioError else StoreOps.readAt fs s.inner i
  readRange fs s a b := if p.readRange a b then ioError else StoreOps.readRange fs s.inner a b
  readInto fs s i buf := if p.readAt i then ioError else StoreOps.readInto (E := E) fs s.inner i buf
  readRangeInto fs s a b buf :=
    if p.readRange a b then ioError else StoreOps.readRangeInto (E := E) fs s.inner a b buf
  writeAt s e i := s.onWrite fun t => StoreOps.writeAt t e i
  copyFromSlice s buf i := s.onWrite fun t => StoreOps.copyFromSlice (E := E) t buf i
  push s e := s.onWrite fun t => StoreOps.push t e

/-- The whole trait, with the default `build`; the operations that act on configured files only are
those of `S`. -/
instance [Element E] [Store S E] : Store (Faulty p S) E where
  new n := onNew (Store.new n)
  newWithConfig n b c := onNew (Store.newWithConfig n b c)
  newFromSlice n bs := onNew (Store.newFromSlice n bs)
  newFromSliceWithConfig n b bs c := onNew (Store.newFromSliceWithConfig n b bs c)
  newFromDisk n b c := onNew (Store.newFromDisk n b c)
  build := defaultBuild
  compact s b c v fs :=
    let r := Store.compact s.inner b c v fs
    (r.1, ⟨r.2.1, s.writes⟩, r.2.2)
  delete c := Store.delete (S := S) c

end Faulty

/-- The store uses the default `build` of the trait. -/
class DefaultBuild (S E : Type) [Element E] [Store S E] : Prop where
  build_eq : (Store.build : Alg E → Nat → Sched → S → Nat → Nat → Option StoreConfig → M (E × S))
    = defaultBuild

instance {E : Type} [Element E] : DefaultBuild (VecStore E) E := ⟨rfl⟩
instance {E : Type} [Element E] : DefaultBuild (MmapStore E) E := ⟨rfl⟩

end Verif
