import Verif.PathSyscall.Spec
import Verif.BsdPath.Model

/-!
# Path requests on FreeBSD (specification)

Only data types of the model are used, none of its functions.
-/

namespace Verif.BsdPath.Spec

open Verif.FileTree Verif.FileTree.Spec
open Verif.PathSyscall.Spec (SafeName join)

/-- `fd` is a directory that the embedder exported, the path asked for is below it, and `rest` are the names
below it, none of which can climb. -/
def BelowDir (hist : List Export) (text : List Byte) (fd : Int) (rest : List (List Byte)) : Prop :=
  ∃ e ∈ hist, e.handle = fd ∧ e.isDir = true ∧ rest ≠ [] ∧ (∀ n ∈ rest, SafeName n) ∧
    Path.Spec.resolve [] (cut text) = some (namesOf e.path ++ rest)

/-- `fd` is a file that the embedder exported at exactly the path asked for. -/
def ThatFile (hist : List Export) (text : List Byte) (fd : Int) : Prop :=
  ∃ e ∈ hist, e.handle = fd ∧ e.isDir = false ∧ Path.Spec.resolve [] (cut text) = some (namesOf e.path)

/-- What one system call of the parent may be, when the request asked for the path `text`.  Calls with a path are
relative to an exported directory and carry the flag that makes the kernel refuse to leave it (bit 23 of the flags
of `openat`, bit 13 of the others).  Results are written only where the 224 bytes are within `[lo, hi)`. -/
def Permitted (hist : List Export) (text : List Byte) (lo hi : Nat) : HostOp → Prop
  | .openat fd path flags _ => flags.getLsbD 23 = true ∧ ∃ rest, BelowDir hist text fd rest ∧ path = some (join rest)
  | .faccessat fd path _ flags => flags.getLsbD 13 = true ∧
      ((∃ rest, BelowDir hist text fd rest ∧ path = some (join rest)) ∨ (ThatFile hist text fd ∧ path = none))
  | .fstatat fd path sb flags => flags.getLsbD 13 = true ∧
      (∃ rest, BelowDir hist text fd rest ∧ path = some (join rest)) ∧ lo ≤ sb.toNat ∧ sb.toNat + 224 ≤ hi
  | .dup fd => ThatFile hist text fd
  | .fstat fd sb => ThatFile hist text fd ∧ lo ≤ sb.toNat ∧ sb.toNat + 224 ≤ hi
  | .close _ => False

/-- The little-endian number in `n` bytes of memory. -/
def num (m : Mem) (a : Word) : Nat → Nat
  | 0 => 0
  | n + 1 => (m a).toNat + 256 * num m (a + 1) n

/-- Offsets of the structure that a program passes to `freebsd11_stat` on amd64: its size and the places of
`st_mode` (2 bytes) and `st_size` (8 bytes). -/
def oldSize : Nat := 120
def oldModeAt : Word := 8
def oldSizeAt : Word := 72

/-- What is wanted of the call: memory changes only in the caller's structure. -/
def OnlyStruct (before after : Mem) (buf : Word) : Prop :=
  ∀ x, ¬ (x - buf).toNat < oldSize → after x = before x

end Verif.BsdPath.Spec
