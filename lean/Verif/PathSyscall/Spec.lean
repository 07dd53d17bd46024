import Verif.FileTree.Spec
import Verif.Path.Spec
import Verif.PathSyscall.Model

/-!
# Path requests (specification)

Only data types of the model (`HostOp`, `Entry`, `Export`) are used, none of its functions.
-/

namespace Verif.PathSyscall.Spec

open Verif.FileTree Verif.FileTree.Spec

/-- A name that cannot leave a directory: not empty, not `..`, no separator, no zero byte. -/
def SafeName (n : List Byte) : Prop := n ≠ [] ∧ n ≠ [46, 46] ∧ (47 : Byte) ∉ n ∧ (0 : Byte) ∉ n

/-- Names joined by `/`. -/
def join : List (List Byte) → List Byte
  | [] => []
  | [n] => n
  | n :: ns => n ++ 47 :: join ns

/-- `fd` was opened by an earlier call of this very request. -/
def OpenedHere (before : Log) (fd : Int) : Prop :=
  0 ≤ fd ∧ ∃ e ∈ before, e.ret = fd ∧ ∃ d p fl m rs, e.op = .openat2 d p fl m rs

/-- What one system call may be, when the request asked for the path `text` and the exports made
so far are `hist`.  A descriptor number is either that of an export that covers the path asked
for, or one opened by this request.  Opening is always relative to an exported directory, with
the remaining names, none of which can climb, and with `RESOLVE_BENEATH` (value 8); or it passes a
null path with the descriptor of the exported file, which the kernel refuses.  A `struct stat`
is written only where the 144 bytes are within `[lo, hi)`. -/
def Permitted (hist : List Export) (text : List Byte) (lo hi : Nat) (before : Log) : HostOp → Prop
  | .openat2 fd path _ _ resolve =>
      resolve = 8 ∧ ∃ e ∈ hist, e.handle = fd ∧ ∃ rest,
        Path.Spec.resolve [] (cut text) = some (namesOf e.path ++ rest) ∧
        (∀ n ∈ rest, SafeName n) ∧
        ((e.isDir = true ∧ rest ≠ [] ∧ path = some (join rest)) ∨
          (e.isDir = false ∧ rest = [] ∧ path = none))
  | .dup fd => ∃ e ∈ hist, e.handle = fd ∧ e.isDir = false ∧
      Path.Spec.resolve [] (cut text) = some (namesOf e.path)
  | .fstat fd sb => (∃ e ∈ hist, e.handle = fd ∧ e.isDir = false ∧
      Path.Spec.resolve [] (cut text) = some (namesOf e.path)) ∧
      lo ≤ sb.toNat ∧ sb.toNat + 144 ≤ hi
  | .faccessat2 fd path _ _ => path = [] ∧ OpenedHere before fd
  | .fstatat fd path sb _ => path = [] ∧ OpenedHere before fd ∧
      lo ≤ sb.toNat ∧ sb.toNat + 144 ≤ hi
  | .close fd => OpenedHere before fd

/-- Every call of a log is permitted. -/
def Confined (hist : List Export) (text : List Byte) (lo hi : Nat) (log : Log) : Prop :=
  ∀ i (h : i < log.length), Permitted hist text lo hi (log.take i) log[i].op

/-- Bytes of a buffer before its first zero. -/
def textOf (b : List Byte) : List Byte := b.takeWhile (· ≠ 0)

end Verif.PathSyscall.Spec
