import Verif.Syscall.Model
import Verif.PathSyscall.Model

/-!
# The mode argument of `open` and `openat` (model)

The functions themselves are in `Verif.Syscall` (child) and `Verif.PathSyscall` (host).  Here the third argument of the C
functions is optional, as in C: `given` is the mode if the caller passed one, and `reg` what the place of the argument
holds otherwise.
-/

namespace Verif.OpenMode

open Verif.Syscall (CInt Env Request oCreat cOpen cOpenat)

/-- `va_arg(ap, int)`, `src/library_runner.cc:909` and `:928`: the argument, or what is in its place. -/
def vaArg (given : Option CInt) (reg : CInt) : CInt := given.getD reg

/-- A call of the C function `open`, `src/library_runner.cc:902-913`. -/
def callOpen (v : Env) (path : Word) (flags : CInt) (given : Option CInt) (reg : CInt) :
    (CInt × Option CInt) × List Request :=
  cOpen v path flags (vaArg given reg)

/-- A call of the C function `openat`, `src/library_runner.cc:924-937`. -/
def callOpenat (v : Env) (dirfd : CInt) (path : Word) (flags : CInt) (given : Option CInt) (reg : CInt) :
    Outcome ((CInt × Option CInt) × List Request) :=
  cOpenat v dirfd path flags (vaArg given reg)

end Verif.OpenMode
