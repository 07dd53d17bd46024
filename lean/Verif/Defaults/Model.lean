import Verif.FileTree.Model
import Verif.Fd.Table

/-!
# What a new sandbox exports (model)

The constructor of `CallbackDispatcher` opens the library directories and the linker's cache and exports them.
-/

namespace Verif.Defaults

open Verif.FileTree Verif.Fd

/-- A text as bytes (the string constants at `src/libsandbox.cc:50` and `src/libsandbox.cc:713`). -/
def bytes (s : String) : List Byte := s.toList.map (fun c => UInt8.ofNat c.toNat)

/-- The paths in the order in which they are opened, with whether each is exported as a directory.
`libdirs`, `src/libsandbox.cc:50`, and `ldsocache`, `src/libsandbox.cc:713`. -/
def defaults : List (Bool × List Byte) :=
  [(true, bytes "/lib"), (true, bytes "/usr/lib"), (true, bytes "/usr/local/lib"), (false, bytes "/etc/ld.so.cache")]

/-- `open`, `src/libsandbox.cc:707` and `:714`: −1 when there is no such file (`disk` says what there is; for the directories it
says `none` for anything that is not a directory) or no room in the descriptor table. -/
def openPath (disk : List Byte → Option Obj) (lim : Nat) (t : Table) (path : List Byte) : Int × Table :=
  match disk path with
  | some o => create lim t o
  | none => (-1, t)

/-- One path, `src/libsandbox.cc:707-711` and `src/libsandbox.cc:714-718`. -/
def addOne (disk : List Byte → Option Obj) (lim : Nat) (s : Dir × Table) (d : Bool × List Byte) : Dir × Table :=
  match openPath disk lim s.2 d.2 with
  | (fd, t) => if 0 < fd then ((Export.run s.1 ⟨d.1, d.2, fd⟩).2.1, t) else (s.1, t)

/-- The constructor, `src/libsandbox.cc:703-718`: the tree and the descriptor table afterwards. -/
def construct (disk : List Byte → Option Obj) (lim : Nat) (t : Table) : Dir × Table :=
  defaults.foldl (addOne disk lim) ([], t)

end Verif.Defaults
