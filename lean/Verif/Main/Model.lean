import Verif.Seccomp.Model
import Verif.Start.Model
import Verif.Syscall.Model

/-!
# The main function of the library runner (model)

The order in which the child protects itself and lets code of the library run.
-/

namespace Verif.Main

open Verif.Fd

/-- The parts of the child that `main` changes (`src/library_runner.cc:1054-1126`): the filter, the handler of trapped
calls, the descriptors, the number in `callbackSocket` (negative for none), the function that runs calls, and the two flags of
the shared header that `main` writes. -/
structure Proc where
  filter : Seccomp.Installed
  handler : Bool
  table : Table
  cb : Int
  invoke : Bool
  executing : Bool
  loaded : Bool

/-- What the rest of the system answers: libseccomp (`src/library_runner.cc:1056`), and whether the library can be
opened (`:1093`) and has the two functions (`:1101-1102`, `:1110-1111`). -/
structure Answers where
  seccomp : Seccomp.Answers
  dlopen : Bool
  init : Bool
  call : Bool

/-- The moments at which code of the library begins to run: its constructors in `fdlopen`
(`src/library_runner.cc:1093`), `sandbox_init` (`:1109`), and calls in the run loop (`:1123`). -/
inductive Point where
  | load
  | init
  | calls
  deriving Repr, DecidableEq

/-- How `main` ends, as far as it goes without the run loop: `assert` of a debug build fails, it returns 1
(`src/library_runner.cc:1096`, `:1106`), an invariant fails (`:1112-1113`), or it enters the run loop (`:1123`). -/
inductive End where
  | stopped
  | ret1
  | abort
  | runloop
  deriving Repr, DecidableEq

/-- `main`, `src/library_runner.cc:1054-1126`: the moments at which code of the library begins to run, each with the
process as it is then, and the end.  `self` is the process number the filter is made for.  Simplifications: the results of
`sigaction` and `close` are ignored, as in the code; the debug-build check of `malloc` (`:1072-1085`) is left out; the
library's code is taken to leave the process as it is until the next moment; a failing `malloc` of the stack is left out. -/
def main (ndebug : Bool) (self : Word) (a : Answers) (p : Proc) : List (Point × Proc) × End :=
  -- line 1056
  match Seccomp.install ndebug a.seccomp self with
  | .stopped => ([], .stopped)
  | f =>
    let p := { p with filter := f }
    -- lines 1057-1065
    let p := { p with handler := true }
    -- lines 1068-1070; `callbackSocket` holds nothing before
    let p := { p with table := close p.table 3 }
    let p := { p with table := close p.table 4 }
    let p := { p with cb := 5 }
    -- lines 1093-1097
    if a.dlopen = false then ([(.load, p)], .ret1)
    -- lines 1101-1107
    else if a.init = false then ([(.load, p)], .ret1)
    else
      -- lines 1109-1113
      let q := { p with invoke := a.call }
      if a.call = false then ([(.load, p), (.init, p)], .abort)
      else
        -- lines 1115-1123
        let q := { q with executing := false, loaded := true }
        ([(.load, p), (.init, p), (.calls, q)], .runloop)

/-- The path that `fdlopen` gives to `dlopen`, `src/library_runner.cc:55-65`. -/
def fdlopenPath (pid fd : Nat) : List Byte := Syscall.bytes s!"/proc/{pid}/fd/{fd}"

end Verif.Main
