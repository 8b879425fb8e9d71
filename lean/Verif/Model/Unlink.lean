import Verif.Model.Merkle
import Verif.Model.MmapStore
/-
Deleting a file that is open.  Elsewhere in the model a handle is the name of its file.  On Unix
`remove_file` takes away the name only; the data stay until the last handle is closed.  Here such a file
becomes an anonymous one, and its handles go with it.
-/
namespace Verif

/-- `remove_file` on Unix: the file loses its name.  Returns the anonymous file that the open handles
have from now on. -/
def FS.unlink (f : FileId) : M FileId := fun fs =>
  match fs.file f with
  | some bs =>
    (.ok (.temp fs.nextTemp),
      { ((fs.set f none).set (.temp fs.nextTemp) (some bs)) with nextTemp := fs.nextTemp + 1 })
  | none => (.error (.err "Failed to delete"), fs)

/-- A store with one open file: the field `file` (src/store/disk.rs:33, src/store/level_cache.rs:37,
src/store/mmap.rs:17). -/
class FileHandle (S : Type) where
  file : S → FileId
  withFile : S → FileId → S

instance (E : Type) : FileHandle (DiskStore E) := ⟨DiskStore.file, fun s f => { s with file := f }⟩
instance (E : Type) : FileHandle (LevelCacheStore E) :=
  ⟨LevelCacheStore.file, fun s f => { s with file := f }⟩

instance (E : Type) : FileHandle (MmapStore E) := ⟨MmapStore.file, fun s f => { s with file := f }⟩

/-- The store when the file `f` was renamed to `g`: if `f` is open in it, it is `g` now. -/
def FileHandle.follow {S : Type} [FileHandle S] (f g : FileId) (s : S) : S :=
  if FileHandle.file s = f then FileHandle.withFile s g else s

/-- `delete` (src/merkle.rs:1394-1396, src/store/disk.rs:291-294, src/store/level_cache.rs:428-431)
while `t` is open, through `t` or another tree.  Returns `t` as it is afterwards. -/
def BaseTree.deleteOpen {S E : Type} [FileHandle S] (t : BaseTree S E) (config : StoreConfig) :
    M (BaseTree S E) := do
  let g ← FS.unlink config.file
  pure { t with store := FileHandle.follow config.file g t.store }

end Verif
