import Verif.Make.Model
import Verif.Capsicum.Model

/-!
# Making and destroying sandboxes on FreeBSD (model)

`Make` and `Cycle` are the constructor and the destructor with `vfork`, `epoll` and `memfd_create`.  Here they are with `pdfork`, `kqueue` and
`SHM_ANON`.  The child works on a copy of the host's memory, so the host keeps its handles; and it has two more, the process descriptor and the queue
on which it waits for the end of the process.  Any number of sandboxes may exist at a time, and the processes, the destructors and the memory
service take their steps in any order.
-/

namespace Verif.BsdMake

open Verif.Fd Verif.Start Verif.FileTree

/-- The host before: its descriptors, the number of the next new object, the descriptor of the page map
(`include/process_sandbox/sandbox.h:96`), that of the memory service's queue (`include/process_sandbox/platform/poller_kqueue.h:22`), and which objects are
queues (`kqueue(2)`: a queue is not inherited by a new process). -/
structure Host where
  t : Table
  next : Nat
  pagemap : Option Int
  poller : Option Int
  queues : List Nat

/-- The answers of the system, apart from running out of descriptors: `shm_open` with `SHM_ANON`
(`include/process_sandbox/platform/shm_posix.h:155`), the sizes (`:207-209`) and mappings (`:344-350`) of shared memory and page map, a thread
(`src/libsandbox.cc:265-269`), the registration of the socket (`include/process_sandbox/platform/poller_kqueue.h:36-40`), `pdfork`
(`include/process_sandbox/platform/child_process_pdfork.h:85`) and the registration of the process (`:97`). -/
structure Sys where
  anon : Bool
  shmSized : Bool
  shmMapped : Bool
  pmSized : Bool
  pmMapped : Bool
  thread : Bool
  registered : Bool
  forked : Bool
  watched : Bool
  deriving Repr, DecidableEq

/-- How the host is stopped, or the constructor left: `abort` (`SANDBOX_INVARIANT`, `assert` or `DefaultPal::error`,
`include/process_sandbox/platform/shm_posix.h:205-209`, `:245`, `include/process_sandbox/platform/poller_kqueue.h:40`), `err(1, …)`
(`include/process_sandbox/platform/socketpair_posix.h:239-242`, `include/process_sandbox/platform/child_process_pdfork.h:99`), a write to memory that is not
there (`src/libsandbox.cc:875`), or an exception (`std::thread`, `src/libsandbox.cc:267`). -/
inductive Stop where
  | aborts
  | exits
  | faults
  | throws
  deriving Repr, DecidableEq

/-- What the constructor has before it makes the process (`src/libsandbox.cc:866-885`): the files that the sandbox can ask for, the descriptors, and the
handles. -/
structure Ready where
  tree : Dir
  t : Table
  shm : Int
  pm : Int
  svc : Int
  rpc : Int
  poller : Int
  own : Int
  cb : Int

/-- A sandbox that has been made: what its process was born with and how far that got (`src/libsandbox.cc:914-923`), what the host has afterwards, the
handles of the `Library` (`include/process_sandbox/sandbox.h:529`, `:555`, `:611`, `include/process_sandbox/platform/child_process_pdfork.h:31-36`) and those of
the memory service and the page map. -/
structure Made where
  tree : Dir
  t : Table
  seen : Table
  child : Start.Out
  shm : Int
  pm : Int
  svc : Int
  poller : Int
  own : Int
  proc : Int
  kq : Int

/-- How the constructor ends.  `undefined`: `pdfork` has failed, and the process descriptor is a variable without a value
(`include/process_sandbox/platform/child_process_pdfork.h:82-86`). -/
inductive Out where
  | stops (s : Stop)
  | undefined
  | made (m : Made)

/-- `SharedMemoryObjectShmAnon`, `include/process_sandbox/platform/shm_posix.h:145-157`. -/
def object (s : Sys) (lim : Nat) (t : Table) (o : Obj) : Int × Table :=
  if s.anon then create lim t o else (-1, t)

/-- `ensure_initialised`, `include/process_sandbox/sandbox.h:466-475`, with `Pagemap::init`, `:195-202`; without a mapping a debug build stops at the
assertion, otherwise filling the heap's ranges writes to it (`src/libsandbox.cc:61-67`). -/
def pagemapOf (dbg : Bool) (s : Sys) (lim : Nat) (h : Host) (t : Table) : Except Stop (Int × Table) :=
  match h.pagemap with
  | some p => .ok (p, t)
  | none =>
    let r := object s lim t ⟨h.next + 1, true⟩
    if r.1 < 0 ∨ s.pmSized = false then .error .aborts
    else if s.pmMapped then .ok r
    else if dbg then .error .aborts
    else .error .faults

/-- `memory_service_provider().add_range`, `src/libsandbox.cc:288-293`, `:265-269` and `:276-284`: the first use makes the queue
(`include/process_sandbox/platform/poller_kqueue.h:22`, not checked) and its thread; then the socket is registered (`:32-42`), which fails without a queue. -/
def serve (s : Sys) (lim : Nat) (h : Host) (t : Table) : Except Stop (Int × Table) :=
  match h.poller with
  | some k => if s.registered then .ok (k, t) else .error .aborts
  | none =>
    let r := create lim t ⟨h.next + 4, true⟩
    if s.thread = false then .error .throws
    else if r.1 < 0 ∨ s.registered = false then .error .aborts
    else .ok r

/-- `Library::Library` up to the process, `src/libsandbox.cc:865-885`; `dbg`: assertions are compiled in; `disk`: what there is of the default exports. -/
def prepare (dbg : Bool) (lim : Nat) (disk : List Byte → Option Obj) (s : Sys) (h : Host) : Except Stop Ready :=
  -- line 866
  match object s lim h.t ⟨h.next, true⟩ with
  | (shm, t) =>
  if shm < 0 ∨ s.shmSized = false then .error .aborts
  else if dbg = true ∧ s.shmMapped = false then .error .aborts
  else
  -- lines 867-869
  match pagemapOf dbg s lim h t with
  | .error o => .error o
  | .ok (pm, t) =>
  -- line 870
  match Defaults.construct disk lim t with
  | (tree, t) =>
  -- line 875
  if s.shmMapped = false then .error .faults
  else
  -- line 880
  match Make.pair lim t ⟨h.next + 2, true⟩ ⟨h.next + 3, true⟩ with
  | none => .error .exits
  | some (svc, rpc, t) =>
  -- lines 881-882
  match serve s lim h t with
  | .error o => .error o
  | .ok (poller, t) =>
  -- line 885
  match Make.pair lim t ⟨h.next + 5, true⟩ ⟨h.next + 6, true⟩ with
  | none => .error .exits
  | some (own, cb, t) => .ok ⟨tree, t, shm, pm, svc, rpc, poller, own, cb⟩

/-- What a new process inherits: everything but queues (`kqueue(2)`; `include/process_sandbox/platform/child_process_pdfork.h:85`). -/
def inherited (queues : List Nat) (t : Table) : Table := fun i =>
  match t i with
  | some o => if o.id ∈ queues then none else some o
  | none => none

/-- The objects that are queues once the memory service exists (`include/process_sandbox/platform/poller_kqueue.h:22`). -/
def Host.allQueues (h : Host) : List Nat :=
  match h.poller with
  | some _ => h.queues
  | none => h.queues ++ [h.next + 4]

/-- `Library::Library`, `src/libsandbox.cc:865-932`, with `ChildProcessPDFork`,
`include/process_sandbox/platform/child_process_pdfork.h:80-102`: the process descriptor, then, in the host, the queue on which its end is reported.  The
process works on a copy of the host's memory, so that the host's handles stay as they are, and the two sockets of the child are closed by the
destructors at the end of the constructor (`src/libsandbox.cc:932`).  The host does not wait for its child.  Left out: running out of heap
memory and what the child does with memory that the host's other threads were changing. -/
def make (dbg : Bool) (fuel : Nat) (e : Env) (disk : List Byte → Option Obj) (s : Sys) (h : Host) : Out :=
  match prepare dbg e.lim disk s h with
  | .error o => .stops o
  | .ok r =>
  -- line 85
  match create e.lim r.t ⟨h.next + 7, true⟩ with
  | (proc, t) =>
  if s.forked = false ∨ proc < 0 then .undefined
  else
  -- line 94
  match create e.lim t ⟨h.next + 8, true⟩ with
  | (kq, t) =>
  -- lines 97-100
  if kq < 0 ∨ s.watched = false then .stops .exits
  else
    let seen := inherited h.allQueues r.t
    .made ⟨r.tree, close (close t r.cb) r.rpc, seen, (startChild fuel { e with proc := false } seen ⟨r.shm, r.pm, r.rpc, r.cb⟩).1,
      r.shm, r.pm, r.svc, r.poller, r.own, proc, kq⟩

/-- The rest of the process's life as a copy of the host: `SandboxCapsicum::execve` (`include/process_sandbox/platform/sandbox_capsicum.h:32-149`, called in
`src/libsandbox.cc:857-859`), with the descriptors that `start_child` has arranged; all have all rights until then.  `none`: it did not get that far.  -/
def Made.program (m : Made) (a : Capsicum.Answers) (location : String) : Option Capsicum.Out :=
  match m.child with
  | .exec t => some (Capsicum.execve a ⟨t, fun _ _ => true⟩ location)
  | _ => none

/-- A `Library` object: the handles that it owns (`include/process_sandbox/sandbox.h:529`, `:555`, `:611`, `src/libsandbox.cc:305`, `:327`,
`include/process_sandbox/platform/child_process_pdfork.h:31-36`), the object at the far end of its socket of the memory service, what its process was born with
and whether that runs. -/
structure Lib where
  files : List Int
  shm : Int
  own : Int
  proc : Int
  kq : Int
  peer : Nat
  seen : Table
  runs : Bool

/-- The host, its sandboxes, the `ranges` of its memory service (`src/libsandbox.cc:102-105`: the socket and the object at its other end) and what the
processes hold that sandboxed code has started itself (capability mode allows `fork`;
`include/process_sandbox/platform/sandbox_capsicum.h:20-24`). -/
structure World where
  h : Host
  libs : List Lib
  ranges : List (Int × Nat)
  strays : List Table

/-- What happens next (`src/libsandbox.cc:109-130`, `:757-788`, `:865-932`). -/
inductive Ev where
  /-- a sandbox is made -/
  | make (s : Sys)
  /-- the process of a sandbox ends -/
  | ends (k : Nat)
  /-- the process of a sandbox starts another one -/
  | forks (k : Nat)
  /-- such a process starts another one -/
  | again (j : Nat)
  /-- such a process ends -/
  | strayEnds (j : Nat)
  /-- a `Library` is destroyed -/
  | destroy (k : Nat)
  /-- the memory service is told that a socket has lost its peer -/
  | eof (k : Nat)
  /-- the memory service gives up a socket from which it cannot read or to which it cannot write -/
  | fail (k : Nat)

/-- The members of a `Library` are destroyed, in the reverse order of their declaration (`include/process_sandbox/sandbox.h:510-611`): the dispatcher with
its socket and the exported files, the shared memory, and the child with process descriptor and queue
(`include/process_sandbox/platform/child_process_pdfork.h:31-36`). -/
def Lib.closed (l : Lib) (t : Table) : Table :=
  close (close (close (l.files.foldl close (close t l.own)) l.shm) l.proc) l.kq

/-- Whether the system reports that the object has no process left that could write to it, `EV_EOF` in
`include/process_sandbox/platform/poller_kqueue.h:71`: neither the host nor a process of a sandbox, which may have kept everything that it was
born with. -/
def hungUp (lim : Nat) (w : World) (peer : Nat) : Bool :=
  !openId lim w.h.t peer && w.libs.all (fun l => !(l.runs && openId lim l.seen peer)) && w.strays.all (fun t => !openId lim t peer)

/-- The memory service drops an entry and with it the socket (`src/libsandbox.cc:115-123`). -/
def World.drop (w : World) (k : Nat) (x : Int) : World :=
  { w with h := { w.h with t := close w.h.t x }, ranges := w.ranges.eraseIdx k }

/-- One step.  `none`: it cannot happen, or it ends the host.  `~Library` returns only when the process has ended (`src/libsandbox.cc:757-759`); the entry in
the memory service is not its business. -/
def step (dbg : Bool) (fuel : Nat) (e : Env) (disk : List Byte → Option Obj) (w : World) : Ev → Option World
  | .make s =>
    match make dbg fuel e disk s w.h with
    | .made m =>
      some ⟨⟨m.t, w.h.next + 9, some m.pm, some m.poller, w.h.allQueues ++ [w.h.next + 8]⟩,
        w.libs ++ [⟨handlesOf m.tree, m.shm, m.own, m.proc, m.kq, w.h.next + 3, m.seen, true⟩],
        w.ranges ++ [(m.svc, w.h.next + 3)], w.strays⟩
    | _ => none
  | .ends k =>
    match w.libs[k]? with
    | some l => some { w with libs := w.libs.set k { l with runs := false } }
    | none => none
  | .forks k =>
    match w.libs[k]? with
    | some l => if l.runs then some { w with strays := w.strays ++ [l.seen] } else none
    | none => none
  | .again j =>
    match w.strays[j]? with
    | some t => some { w with strays := w.strays ++ [t] }
    | none => none
  | .strayEnds j =>
    match w.strays[j]? with
    | some _ => some { w with strays := w.strays.eraseIdx j }
    | none => none
  | .destroy k =>
    match w.libs[k]? with
    | some l => if l.runs then none else some { w with h := { w.h with t := l.closed w.h.t }, libs := w.libs.eraseIdx k }
    | none => none
  | .eof k =>
    match w.ranges[k]? with
    | some (x, p) => if hungUp e.lim w p then some (w.drop k x) else none
    | none => none
  | .fail k =>
    match w.ranges[k]? with
    | some (x, _) => some (w.drop k x)
    | none => none

/-- A run: every step must be possible (`src/libsandbox.cc:109-130`, `:757-788`, `:865-932`). -/
def run (dbg : Bool) (fuel : Nat) (e : Env) (disk : List Byte → Option Obj) : World → List Ev → Option World
  | w, [] => some w
  | w, ev :: evs =>
    match step dbg fuel e disk w ev with
    | some w' => run dbg fuel e disk w' evs
    | none => none

/-- A host that has not made a sandbox (`src/libsandbox.cc:288-293`, `include/process_sandbox/sandbox.h:466-475`). -/
def start (t : Table) (next : Nat) : World := ⟨⟨t, next, none, none, []⟩, [], [], []⟩

end Verif.BsdMake
