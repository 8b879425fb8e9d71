import Verif.Model.Merkle
/-
The operations of a tree on its own store, for trees with any number of layers (src/merkle.rs:85-109,
212-221, 1373-1396, 1422-1429, 1471-1496).
-/
namespace Verif
variable {S E : Type}

/-- `Data::store` and `data` (src/merkle.rs:96-101, 1422-1429). -/
def Tree1.data : Tree1 S E → Option S
  | .base t => some t.store
  | .sub _ => none
/-- `Data::store` and `data` (src/merkle.rs:96-101, 1422-1429). -/
def Tree2.data : Tree2 S E → Option S
  | .base t => some t.store
  | .sub _ => none
  | .top _ => none

/-- `Data::store_mut` (src/merkle.rs:104-109): the tree with another store. -/
def Tree1.withStore : Tree1 S E → S → Tree1 S E
  | .base t, s => .base { t with store := s }
  | t, _ => t
/-- `Data::store_mut` (src/merkle.rs:104-109): the tree with another store. -/
def Tree2.withStore : Tree2 S E → S → Tree2 S E
  | .base t, s => .base { t with store := s }
  | t, _ => t

/-- `.context("data store is required to be initialised")?` (src/merkle.rs:1377-1380). -/
def storeOf (s : Option S) : Res S :=
  match s with
  | some s => .ok s
  | none => .error (.err "data store is required to be initialised")

section
variable [Element E] [StoreOps S E]

/-- `read_range` (src/merkle.rs:1471-1478). -/
def Tree2.readRange (fs : FS) (t : Tree2 S E) (start stop : Nat) : Res (List E) := do
  ensure (start < stop) "start must be less than end"
  let s ← storeOf t.data
  StoreOps.readRange fs s start stop

/-- `read_range_into` (src/merkle.rs:1480-1487). -/
def Tree1.readRangeInto (fs : FS) (t : Tree1 S E) (start stop : Nat) (buf : Bytes) : Res Bytes := do
  ensure (start < stop) "start must be less than end"
  let s ← storeOf t.data
  StoreOps.readRangeInto (E := E) fs s start stop buf
/-- `read_range_into` (src/merkle.rs:1480-1487). -/
def Tree2.readRangeInto (fs : FS) (t : Tree2 S E) (start stop : Nat) (buf : Bytes) : Res Bytes := do
  ensure (start < stop) "start must be less than end"
  let s ← storeOf t.data
  StoreOps.readRangeInto (E := E) fs s start stop buf

/-- `read_into` (src/merkle.rs:1490-1496). -/
def Tree1.readInto (fs : FS) (t : Tree1 S E) (pos : Nat) (buf : Bytes) : Res Bytes := do
  let s ← storeOf t.data
  StoreOps.readInto (E := E) fs s pos buf
/-- `read_into` (src/merkle.rs:1490-1496). -/
def Tree2.readInto (fs : FS) (t : Tree2 S E) (pos : Nat) (buf : Bytes) : Res Bytes := do
  let s ← storeOf t.data
  StoreOps.readInto (E := E) fs s pos buf

end

section
variable [Element E] [Store S E]

/-- `compact` (src/merkle.rs:1374-1381). -/
def Tree1.compact (b : Nat) (t : Tree1 S E) (config : StoreConfig) (version : Nat) (fs : FS) :
    Res Bool × Tree1 S E × FS :=
  match storeOf t.data with
  | .ok s =>
    let (r, s, fs) := Store.compact s b config version fs
    (r, t.withStore s, fs)
  | .error e => (.error e, t, fs)
/-- `compact` (src/merkle.rs:1374-1381). -/
def Tree2.compact (b : Nat) (t : Tree2 S E) (config : StoreConfig) (version : Nat) (fs : FS) :
    Res Bool × Tree2 S E × FS :=
  match storeOf t.data with
  | .ok s =>
    let (r, s, fs) := Store.compact s b config version fs
    (r, t.withStore s, fs)
  | .error e => (.error e, t, fs)

/-- `reinit` (src/merkle.rs:1384-1390). -/
def Tree1.reinit (t : Tree1 S E) : M (Tree1 S E) := do
  let s ← M.ofRes (storeOf t.data)
  let s ← Store.reinit s
  pure (t.withStore s)
/-- `reinit` (src/merkle.rs:1384-1390). -/
def Tree2.reinit (t : Tree2 S E) : M (Tree2 S E) := do
  let s ← M.ofRes (storeOf t.data)
  let s ← Store.reinit s
  pure (t.withStore s)

/-- `delete` (src/merkle.rs:1394-1396): the tree is not looked at. -/
def Tree1.delete (_t : Tree1 S E) (config : StoreConfig) : M Unit := Store.delete (S := S) config
/-- `delete` (src/merkle.rs:1394-1396): the tree is not looked at. -/
def Tree2.delete (_t : Tree2 S E) (config : StoreConfig) : M Unit := Store.delete (S := S) config

end

section
variable [Element E]

/-- `set_external_reader_path` (src/merkle.rs:212-221). -/
def Tree1.setExternalReaderPath (t : Tree1 (LevelCacheStore E) E) (path : String) :
    M (Tree1 (LevelCacheStore E) E) :=
  match t.data with
  | none => M.ofRes (.error (.err "store data required"))
  | some s => do
    let r ← ExternalReader.newFromPath path
    pure (t.withStore (s.setExternalReader r))
/-- `set_external_reader_path` (src/merkle.rs:212-221). -/
def Tree2.setExternalReaderPath (t : Tree2 (LevelCacheStore E) E) (path : String) :
    M (Tree2 (LevelCacheStore E) E) :=
  match t.data with
  | none => M.ofRes (.error (.err "store data required"))
  | some s => do
    let r ← ExternalReader.newFromPath path
    pure (t.withStore (s.setExternalReader r))

end
end Verif
