import Verif.Basic

/-!
# The child process handle (model)
-/

namespace Verif.Child

/-- `ExitStatus`, `include/process_sandbox/platform/child_process.h:49-60`. -/
structure ExitStatus where
  hasExited : Bool
  code : Nat
  deriving Repr, DecidableEq

/-- One answer of `waitpid(2)`: a process id and the status word, or an error
(`include/process_sandbox/platform/child_process_vfork.h:63-64`). -/
inductive Ans where
  | ok (pid : Int) (status : Nat)
  | eintr
  | failed
  deriving Repr, DecidableEq

/-- `ChildProcessVFork`, `include/process_sandbox/platform/child_process_vfork.h:22-41`. -/
structure Proc where
  pid : Int
  status : ExitStatus
  deriving Repr, DecidableEq

/-- `WEXITSTATUS`: `(s & 0xff00) >> 8`, used at
`include/process_sandbox/platform/child_process_vfork.h:72`. -/
def wexitstatus (s : Nat) : Nat := s / 256 % 256

/-- What a query does: it returns, it ends the host (`err(1, ...)`, line 68), or it blocks because the
system has given no further answer (`include/process_sandbox/platform/child_process_vfork.h:52-75`). -/
inductive Result where
  | status (e : ExitStatus)
  | hostExit
  | blocked
  deriving Repr, DecidableEq

/-- The loop at `include/process_sandbox/platform/child_process_vfork.h:61-65`: ask until the call is not
interrupted.  Returns the first other answer and the answers not used. -/
def ask : List Ans → Option (Ans × List Ans)
  | [] => none
  | .eintr :: as => ask as
  | a :: as => some (a, as)

/-- `ChildProcessVFork::waitpid`, `include/process_sandbox/platform/child_process_vfork.h:52-75`.  The list
holds the answers the system gives to the calls that are made; what is left of it tells how many calls
were made.  `options` only affects the answers. -/
def waitpid (p : Proc) (as : List Ans) : Result × Proc × List Ans :=
  if p.status.hasExited then (.status p.status, p, as)
  else
    match ask as with
    | none => (.blocked, p, [])
    | some (.ok r s, rest) =>
      if r = p.pid then
        (.status ⟨true, wexitstatus s⟩, { p with status := ⟨true, wexitstatus s⟩ }, rest)
      else (.status p.status, p, rest)
    | some (_, rest) => (.hostExit, p, rest)

/-- The constructor, `include/process_sandbox/platform/child_process_vfork.h:82-103`, in the parent: the
result of `vfork` is stored unchecked (−1 if it fails). The initial status is that of
`include/process_sandbox/platform/child_process.h:54-59`: not exited. -/
def start (vforkResult : Int) : Proc := ⟨vforkResult, ⟨false, 0⟩⟩

/-- A sequence of queries (`exit_status` or `wait_for_exit`,
`include/process_sandbox/platform/child_process_vfork.h:109-120`); it ends when the host ends or blocks. -/
def queries (p : Proc) (as : List Ans) : Nat → List Result × Proc × List Ans
  | 0 => ([], p, as)
  | n + 1 =>
    match waitpid p as with
    | (.status e, p', as') =>
      let r := queries p' as' n
      (.status e :: r.1, r.2)
    | (r, p', as') => ([r], p', as')

/-- `terminate`, `include/process_sandbox/platform/child_process_vfork.h:125-128`: the argument of
`kill(2)`. -/
def terminate (p : Proc) : Int := p.pid

/-! ## The handle with a process descriptor -/

/-- One answer of `kevent(2)`: the number of events and, if it is one, the event's data; or an error
(`include/process_sandbox/platform/child_process_pdfork.h:55-56`). -/
inductive KAns where
  | events (n : Nat) (data : Nat)
  | eintr
  | failed
  deriving Repr, DecidableEq

/-- FreeBSD's `WEXITSTATUS`: `s >> 8`, used at `include/process_sandbox/platform/child_process_pdfork.h:63`. -/
def bsdExitstatus (s : Nat) : Nat := s / 256

/-- The loop at `include/process_sandbox/platform/child_process_pdfork.h:53-56`. -/
def pdAsk : List KAns → Option (KAns × List KAns)
  | [] => none
  | .eintr :: as => pdAsk as
  | a :: as => some (a, as)

/-- `ChildProcessPDFork::wait_for_exit(timeout)`, `include/process_sandbox/platform/child_process_pdfork.h:44-66`: the status
is the only member that changes.  The time limit only affects the answers. -/
def pdWait (e : ExitStatus) (as : List KAns) : Result × ExitStatus × List KAns :=
  if e.hasExited then (.status e, e, as)
  else
    match pdAsk as with
    | none => (.blocked, e, [])
    | some (.events n d, rest) =>
      if n = 1 then (.status ⟨true, bsdExitstatus d⟩, ⟨true, bsdExitstatus d⟩, rest)
      else (.status e, e, rest)
    | some (_, rest) => (.hostExit, e, rest)

/-- A sequence of queries (`exit_status` or `wait_for_exit`,
`include/process_sandbox/platform/child_process_pdfork.h:105-118`). -/
def pdQueries (e : ExitStatus) (as : List KAns) : Nat → List Result × ExitStatus × List KAns
  | 0 => ([], e, as)
  | n + 1 =>
    match pdWait e as with
    | (.status r, e', as') =>
      let q := pdQueries e' as' n
      (.status r :: q.1, q.2)
    | (r, e', as') => ([r], e', as')

end Verif.Child
