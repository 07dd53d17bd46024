import Verif.Fd.Table

/-!
# Starting the child process: its descriptors (model)
-/

namespace Verif.Start

open Verif.Fd

/-- `OtherLibraries`, `include/process_sandbox/sandbox_fd_numbers.h:55`; `last_fd` at
`src/libsandbox.cc:798`. -/
def lastFd : Nat := 8

/-- The `Handle` fields that `start_child` works on.  They live in the parent's memory, which the child
of `vfork` shares (`src/libsandbox.cc:790-796`, `:839-842`): `shm` is `shm.get_handle().fd`,
`pagemap` is `pagemap_mem.fd`, `rpc` and `cb` are the two socket arguments. -/
structure Handles where
  shm : Int
  pagemap : Int
  rpc : Int
  cb : Int
  deriving Repr, DecidableEq

/-- What the rest of the system does: the limit on open files, the result of opening the library
(`src/libsandbox.cc:818`) and whether `/proc/self/fd/4` can be opened
(`include/process_sandbox/platform/sandbox_seccomp-bpf.h:52`). -/
structure Env where
  lim : Nat
  lib : Option Obj
  proc : Bool
  deriving Repr, DecidableEq

/-- `move_fd`, `src/libsandbox.cc:799-807`: `while (x < last_fd) x = dup(x)`.  `fuel` bounds the number
of tests of the loop condition; `none` means that it has not ended by then. The debug-build check
that `x` is not negative is left out. -/
def moveFd (lim : Nat) : Nat → Table → Int → Option (Int × Table)
  | 0, _, _ => none
  | fuel + 1, t, x =>
    if x < lastFd then
      let r := dup lim t x
      moveFd lim fuel r.2 r.1
    else some (x, t)

/-- How the child's part ends: it executes the library runner with this table, it exits because the
library cannot be opened (`src/libsandbox.cc:819-822`), or it is still looping in `move_fd`. -/
inductive Out where
  | exec (t : Table)
  | exit
  | looping

/-- `SandboxSeccompBPF::execve`, `include/process_sandbox/platform/sandbox_seccomp-bpf.h:41-56`, up to the
call of `execve(2)`: reopen descriptor 4 for reading only. None of the results is checked. -/
def dropWrite (e : Env) (t : Table) : Table :=
  let r : Int × Table :=
    match e.proc, t 4 with
    | true, some o => create e.lim t { o with wr := false }
    | _, _ => (-1, t)
  close (dup2 r.2 r.1 4) r.1

/-- `Library::start_child`, `src/libsandbox.cc:790-863`, run in the child: the child's own copy of
the descriptor table and the shared `Handle` fields.  Returns how the child ends and the fields as the
parent finds them. -/
def startChild (fuel : Nat) (e : Env) (t : Table) (h : Handles) : Out × Handles :=
  -- line 810: `shm.get_handle().take()`
  match moveFd e.lim fuel t h.shm with
  | none => (.looping, { h with shm := -1 })
  | some (shmFd, t) =>
  -- line 811: the page map's handle is only read
  match moveFd e.lim fuel t h.pagemap with
  | none => (.looping, { h with shm := -1 })
  | some (pmFd, t) =>
  -- line 812: taken, moved and stored back
  match moveFd e.lim fuel t h.cb with
  | none => (.looping, { h with shm := -1, cb := -1 })
  | some (cbFd, t) =>
  -- line 813
  match moveFd e.lim fuel t h.rpc with
  | none => (.looping, { h with shm := -1, cb := cbFd, rpc := -1 })
  | some (rpcFd, t) =>
  -- lines 818-822
  let opened : Int × Table :=
    match e.lib with
    | some o => create e.lim t o
    | none => (-1, t)
  if opened.1 < 0 then (.exit, { h with shm := -1, cb := cbFd, rpc := rpcFd })
  else
  -- line 823
  match moveFd e.lim fuel opened.2 opened.1 with
  | none => (.looping, { h with shm := -1, cb := cbFd, rpc := rpcFd })
  | some (libFd, t) =>
  -- lines 825-832
  let t := dup2 t shmFd 3
  let t := dup2 t pmFd 4
  let t := dup2 t cbFd 5
  let t := dup2 t libFd 6
  let t := dup2 t rpcFd 7
  let t := closefrom t lastFd
  (.exec (dropWrite e t), { h with shm := -1, cb := -1, rpc := -1 })

end Verif.Start
