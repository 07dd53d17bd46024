import Verif.Start.Model

/-!
# Starting the child under Capsicum (model)

On FreeBSD `Library::start_child` is the same up to its last call; then `SandboxCapsicum::execve` takes the place of
the Linux version.  The arrangement of the descriptors is `Verif.Start.startChild` with `proc := false`, which
makes the Linux step at its end do nothing.
-/

namespace Verif.Capsicum

open Verif.Fd

/-- The rights that matter here (`include/process_sandbox/platform/sandbox_capsicum.h:67-90`), as single bits; `other`
stands for all the others. -/
inductive Right where
  | read
  | write
  | seek
  | mmap
  | mmapX
  | fsync
  | fstat
  | lookup
  | ftruncate
  | other (n : Nat)
  deriving Repr, DecidableEq

/-- `CAP_MMAP_R` of `<sys/capsicum.h>`, `include/process_sandbox/platform/sandbox_capsicum.h:80`. -/
def mmapR : List Right := [.mmap, .seek, .read]

/-- `CAP_MMAP_RW`, `include/process_sandbox/platform/sandbox_capsicum.h:79`. -/
def mmapRW : List Right := mmapR ++ [.mmap, .seek, .write]

/-- `CAP_MMAP_RX`, `include/process_sandbox/platform/sandbox_capsicum.h:82` and `:89`. -/
def mmapRX : List Right := mmapR ++ [.mmap, .seek, .mmapX]

/-- The child before `execve(2)`: its descriptors and the rights of each number
(`include/process_sandbox/platform/sandbox_capsicum.h:32-36`). -/
structure Child where
  fds : Table
  rights : Nat → Right → Bool

/-- What the rest of the system answers: the limit on open files, what `open` finds at the three library directories
(`include/process_sandbox/platform/sandbox_capsicum.h:48`), whether `cap_rights_limit` works (`:62`) and whether `procctl`
does (`:98`). -/
structure Answers where
  lim : Nat
  dirs : List (Option Obj)
  limits : Bool
  procctl : Bool

/-- How the call ends: the program is executed, an invariant fails, or `err` ends the child
(`include/process_sandbox/platform/sandbox_capsicum.h:50-54`, `:62-65`, `:99-100`, `:147`). -/
inductive Out where
  | exec (c : Child) (env : List String)
  | abort
  | exit

/-- `open`, for a directory that may be missing, `include/process_sandbox/platform/sandbox_capsicum.h:48`: a new descriptor has
all rights. -/
def openDir (lim : Nat) (c : Child) : Option Obj → Int × Child
  | none => (-1, c)
  | some o =>
    match create lim c.fds o with
    | (n, t) => (n, { fds := t, rights := fun i r => if (i : Int) = n then true else c.rights i r })

/-- The loop over the library directories, `include/process_sandbox/platform/sandbox_capsicum.h:46-56`; `none`: the
invariant fails. -/
def openDirs (lim : Nat) : Child → Nat → List (Option Obj) → Option Child
  | c, _, [] => some c
  | c, libfd, d :: ds =>
    match openDir lim c d with
    | (fd, c) => if fd = (libfd : Int) then openDirs lim c (libfd + 1) ds else none

/-- `limit_fd`, `include/process_sandbox/platform/sandbox_capsicum.h:60-66`: the descriptor must be open and have the
rights already; `none`: `err` ends the child. -/
def limitFd (a : Answers) (c : Child) (fd : Nat) (rs : List Right) : Option Child :=
  if a.limits ∧ (c.fds fd).isSome ∧ rs.all (fun r => c.rights fd r) then
    some { c with rights := fun i r => if i = fd then rs.contains r else c.rights i r }
  else none

/-- The calls of `limit_fd` in order, `include/process_sandbox/platform/sandbox_capsicum.h:67-90`. -/
def limits : List (Nat × List Right) :=
  [(0, [.read]), (1, [.write, .fsync]), (2, [.write, .fsync]), (7, [.write, .read]), (3, mmapRW), (4, mmapR),
    (6, [.read, .fstat, .seek] ++ mmapRX), (8, [.read, .fstat, .lookup] ++ mmapRX),
    (9, [.read, .fstat, .lookup] ++ mmapRX), (10, [.read, .fstat, .lookup] ++ mmapRX)]

/-- Several calls of `limit_fd`, `include/process_sandbox/platform/sandbox_capsicum.h:67-90`. -/
def limitAll (a : Answers) : Child → List (Nat × List Right) → Option Child
  | c, [] => some c
  | c, (fd, rs) :: l =>
    match limitFd a c fd rs with
    | none => none
    | some c => limitAll a c l

/-- `SandboxCapsicum::execve`, `include/process_sandbox/platform/sandbox_capsicum.h:32-149`, for the environment
`{location, nullptr}` that `start_child` passes (`src/libsandbox.cc:857`); a failing `execve(2)` is left out. -/
def execve (a : Answers) (c : Child) (location : String) : Out :=
  match openDirs a.lim c 8 a.dirs with
  | none => .abort
  | some c =>
    match limitAll a c limits with
    | none => .exit
    | some c => if a.procctl then .exec c [location, "LD_LIBRARY_PATH_FDS=8:9:10"] else .abort

end Verif.Capsicum
