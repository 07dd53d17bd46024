import Verif.BsdPath.Model
import Verif.BsdNet.Spec

/-!
# `openat` with a relative path on FreeBSD (specification)
-/

namespace Verif.BsdRel

open Verif.BsdPath (Log Kernel HostOp)
open Verif.Syscall (CInt Answer)

/-- The call that opens the path `s`, as it stands, beneath the directory `fd` and nowhere else (bit 23 of the flags,
`O_RESOLVE_BENEATH`). -/
def openOp (fd : Int) (s : List Byte) (flags mode : CInt) : HostOp :=
  .openat fd (some s) (flags ||| 0x800000) mode

/-- One more call. -/
def then_ (k : Kernel) (l : Log) (op : HostOp) : Log := l ++ [⟨op, (k l op).1, (k l op).2⟩]

/-- What the host should do: open the path beneath the directory, and close its copy of the directory's descriptor if
it got one. -/
def calls (k : Kernel) (fd : Int) (s : List Byte) (flags mode : CInt) : Log :=
  if 0 ≤ fd then then_ k (then_ k [] (openOp fd s flags mode)) (.close fd) else then_ k [] (openOp fd s flags mode)

/-- `openat(dirfd, path, flags, mode)`, section 2 of the manual; the mode of a new file has 16 bits. -/
def asksRel (c : FreeBsd.Call) : Option (CInt × Word × CInt × CInt) :=
  match c.args with
  | d :: p :: f :: m :: _ =>
    if c.nr = 499 then some (d.setWidth 32, p, f.setWidth 32, (m.setWidth 16).setWidth 32) else none
  | _ => none

/-- What the program gets: the number of the file *in the host* if it was opened, and error 1, `EPERM`, for every
failure. -/
def given (r : Int × Int) : Answer := if 0 ≤ r.1 then .value r.1.toNat else .error 1

end Verif.BsdRel
