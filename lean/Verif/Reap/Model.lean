import Verif.Child.Model
import Verif.Child.Spec

/-!
# One child handle, several threads of the host (model)

The handle of a sandbox's process is used by the threads that call into the sandbox
(`src/libsandbox.cc:973`, `:1008`, `:1017`) and by the thread of the memory service
(`src/libsandbox.cc:148`, `:254`); there is no lock.  This area models both kinds of handle at the
granularity of one access to the member `status` or one system call, together with the part of the kernel
that matters: when the child ends, who has learnt of it, and who has the child's process number.

Reading and writing `status` without a lock is formally a data race; each access is taken to be atomic here.
-/

namespace Verif.Reap
open Child (ExitStatus wexitstatus)
open Child.Spec (Fate encode)

/-- The two kinds of handle: a process number (`include/process_sandbox/platform/child_process_vfork.h:22-129`)
or a process descriptor with a kqueue (`include/process_sandbox/platform/child_process_pdfork.h:18-128`). -/
inductive Backend where
  | number
  | descriptor
  deriving Repr, DecidableEq

/-- What a thread asks for (`src/libsandbox.cc:993-1018`). -/
inductive Kind where
  /-- `exit_status` (`include/process_sandbox/platform/child_process_vfork.h:109-112`,
  `include/process_sandbox/platform/child_process_pdfork.h:105-110`) -/
  | poll
  /-- `wait_for_exit` (`include/process_sandbox/platform/child_process_vfork.h:117-120`,
  `include/process_sandbox/platform/child_process_pdfork.h:115-118`) -/
  | wait
  /-- `Library::terminate` (`src/libsandbox.cc:998-1004`) -/
  | term
  deriving Repr, DecidableEq

/-- Program counter of a thread that uses the handle,
`include/process_sandbox/platform/child_process_vfork.h:52-75`,
`include/process_sandbox/platform/child_process_pdfork.h:44-66`, `src/libsandbox.cc:998-1004`. -/
inductive Pc where
  | idle
  /-- `if (status.has_exited)`, line 54 and line 46 -/
  | check (k : Kind)
  /-- in `waitpid` or `kevent`, line 63 and line 55 -/
  | ask (k : Kind)
  /-- `status = {true, ...}`, line 72 and line 63 -/
  | store (k : Kind) (code : Nat)
  /-- `return status`, lines 56 and 74, lines 48 and 65 -/
  | ret (k : Kind)
  /-- `child_proc->terminate()`, `src/libsandbox.cc:1002` -/
  | kill
  /-- returned: the status, or nothing for `terminate` -/
  | done (e : Option ExitStatus)
  deriving Repr, DecidableEq

/-- State of host and kernel (`include/process_sandbox/platform/child_process_vfork.h:22-41`,
`include/process_sandbox/platform/child_process_pdfork.h:18-38`).  Processes have identities that are never
used again; the child is number 0. -/
structure St where
  /-- how the child ended; `none` while it runs -/
  fate : Option Fate
  /-- the kernel has told the host (for a process number: and has forgotten the child; for a descriptor: the
  event is reported once) -/
  told : Bool
  /-- the identity of the process that has the child's process number -/
  owner : Option Nat
  /-- the member `status` -/
  status : ExitStatus
  threads : List Pc
  /-- `err(1, ...)`: the host has ended -/
  hostExit : Bool
  /-- the identities of the processes that were sent `SIGKILL`, last first -/
  killed : List Nat
  deriving Repr, DecidableEq

/-- What happens next (`include/process_sandbox/platform/child_process_vfork.h:52-128`). -/
inductive Act where
  /-- thread `i` makes a call -/
  | start (i : Nat) (k : Kind)
  /-- thread `i` takes its next step -/
  | go (i : Nat)
  /-- the system call of thread `i` is interrupted and made again (line 65; line 56) -/
  | interrupt (i : Nat)
  /-- the child ends -/
  | exit (f : Fate)
  /-- another process gets the child's number -/
  | reuse (k : Nat)
  deriving Repr, DecidableEq

/-- Set the program counter of thread `i` (`include/process_sandbox/platform/child_process_vfork.h:52-128`). -/
def St.at (s : St) (i : Nat) (p : Pc) : St := { s with threads := s.threads.set i p }

/-- Thread `i` in the system call that asks for the child's state.  A process number: `waitpid`
(`include/process_sandbox/platform/child_process_vfork.h:61-73`); once the child has been waited for, there is no
such child and the call fails, which ends the host (line 68) -- that the number may by then belong to another
child of the host is left out.  A descriptor: `kevent`
(`include/process_sandbox/platform/child_process_pdfork.h:53-64`); the kernel reports the end of a process once.
`none`: the call blocks. -/
def asked (b : Backend) (s : St) (i : Nat) (k : Kind) : Option St :=
  match s.fate, s.told with
  | none, _ => if k = .wait then none else some (s.at i (.ret k))
  | some f, false =>
    some ({ s with told := true, owner := if b = Backend.number then none else s.owner }.at i
      (.store k (wexitstatus (encode f))))
  | some _, true =>
    match b with
    | .number => some { s with hostExit := true }
    | .descriptor => if k = .wait then none else some (s.at i (.ret k))

/-- The process that is signalled: whoever has the number
(`include/process_sandbox/platform/child_process_vfork.h:125-128`), or the process of the descriptor
(`include/process_sandbox/platform/child_process_pdfork.h:123-126`). -/
def target : Backend → St → List Nat
  | .number, s => s.owner.toList
  | .descriptor, _ => [0]

/-- One step (`include/process_sandbox/platform/child_process_vfork.h:52-128`,
`include/process_sandbox/platform/child_process_pdfork.h:44-127`, `src/libsandbox.cc:993-1004`).  `none`: not
enabled. -/
def step (b : Backend) (s : St) : Act → Option St
  | .start i k =>
    match s.threads[i]? with
    | some .idle => some (s.at i (.check k))
    | some (.done _) => some (s.at i (.check k))
    | _ => none
  | .go i =>
    if s.hostExit then none else
    match s.threads[i]? with
    | some (.check k) => some (s.at i (if s.status.hasExited then .ret k else .ask k))
    | some (.ask k) => asked b s i k
    | some (.store k c) => some ({ s with status := ⟨true, c⟩ }.at i (.ret k))
    | some (.ret .term) => some (s.at i (if s.status.hasExited then .done none else .kill))
    | some (.ret _) => some (s.at i (.done (some s.status)))
    | some .kill =>
      some ({ s with killed := target b s ++ s.killed }.at i (.done none))
    | _ => none
  | .interrupt i =>
    match s.threads[i]? with
    | some (.ask _) => some s
    | _ => none
  | .exit f => if s.fate = none then some { s with fate := some f } else none
  | .reuse k => if s.owner = none then some { s with owner := some (k + 1) } else none

/-- A run (`include/process_sandbox/platform/child_process_vfork.h:52-128`): all actions must be enabled. -/
def run (b : Backend) (s : St) : List Act → Option St
  | [] => some s
  | a :: as =>
    match step b s a with
    | none => none
    | some s' => run b s' as

/-- A running child, not yet asked about, with `n` threads of the host
(`include/process_sandbox/platform/child_process.h:49-60`). -/
def init (n : Nat) : St := ⟨none, false, some 0, ⟨false, 0⟩, List.replicate n .idle, false, []⟩

end Verif.Reap
