import Verif.Start.Host
import Verif.Defaults.Model

/-!
# Making a sandbox: the whole constructor (model)

`Start.construct` looks at the five descriptors that every sandbox has.  Here is the constructor with everything that takes a
descriptor, in the order of the code, and with every way in which it can end.
-/

namespace Verif.Make

open Verif.Fd Verif.Start Verif.FileTree

/-- The host before: its descriptors, the number of the next new object, the descriptor of the page map if there is one
(`include/process_sandbox/sandbox.h:96`, `:466-475`) and whether the memory service exists (`src/libsandbox.cc:288-293`). -/
structure Host where
  t : Table
  next : Nat
  pagemap : Option Int
  service : Bool

/-- The answers of the system, apart from running out of descriptors: whether `memfd_create` and `shm_open` work
(`include/process_sandbox/platform/shm_posix.h:90-95`, `:123-132`), whether the shared memory and the page map get their sizes (`:207-209`,
`:279-280`) and are mapped (`:286-324`; see `Shm`), whether a thread can be started (`src/libsandbox.cc:265-269`), whether `epoll_ctl` accepts the socket
(`include/process_sandbox/platform/poller_epoll.h:38-41`) and whether `vfork` works
(`include/process_sandbox/platform/child_process_vfork.h:84`). -/
structure Sys where
  memfd : Bool
  posix : Bool
  shmSized : Bool
  shmMapped : Bool
  pmSized : Bool
  pmMapped : Bool
  thread : Bool
  registered : Bool
  forked : Bool
  deriving Repr, DecidableEq

/-- A sandbox that has been made: the files it can ask for, how its process went on (`none`: there is none), and what the host has
afterwards: its descriptors, the two handles that the `Library` keeps (`include/process_sandbox/sandbox.h:529`, `:555`, `:611`), the
socket that the memory service has got (`src/libsandbox.cc:282`) and the page map's descriptor (`include/process_sandbox/sandbox.h:96`). -/
structure Made where
  tree : Dir
  child : Option Start.Out
  t : Table
  shm : Int
  cb : Int
  svc : Int
  pm : Int

/-- How the constructor ends: the host is aborted (`SANDBOX_INVARIANT`, `assert` or `DefaultPal::error`,
`include/process_sandbox/platform/shm_posix.h:205-209`, `:245`, `include/process_sandbox/platform/poller_epoll.h:40`), it exits
(`err(1, …)`, `include/process_sandbox/platform/socketpair_posix.h:239-242`), it writes to memory that is not there
(`src/libsandbox.cc:875`), an exception leaves the constructor (`std::thread`, `src/libsandbox.cc:267`), it waits for ever
(`include/process_sandbox/platform/child_process_vfork.h:84`), or the sandbox is made. -/
inductive Out where
  | aborts
  | exits
  | faults
  | throws
  | hangs
  | made (m : Made)

/-- A new shared-memory object, `include/process_sandbox/platform/shm_posix.h:123-132` with the fallback of `:71-102`: both need a
descriptor.  The loop that looks for a name that is not in use is taken to succeed. -/
def object (s : Sys) (lim : Nat) (t : Table) (o : Obj) : Int × Table :=
  let r : Int × Table := if s.memfd then create lim t o else (-1, t)
  if 0 ≤ r.1 then r else if s.posix then create lim r.2 o else (-1, r.2)

/-- `SocketPair::create`, `include/process_sandbox/platform/socketpair_posix.h:234-244`: two descriptors or none. -/
def pair (lim : Nat) (t : Table) (a b : Obj) : Option (Int × Int × Table) :=
  let x := create lim t a
  let y := create lim x.2 b
  if x.1 < 0 ∨ y.1 < 0 then none else some (x.1, y.1, y.2)

/-- `ensure_initialised`, `include/process_sandbox/sandbox.h:466-475`, with `Pagemap::init`, `:195-202`: the page map's descriptor.  Without a
mapping a debug build stops at the assertion; otherwise filling the heap's ranges writes to it (`src/libsandbox.cc:61-67`). -/
def pagemapOf (dbg : Bool) (s : Sys) (lim : Nat) (h : Host) (t : Table) : Except Out (Int × Table) :=
  match h.pagemap with
  | some p => .ok (p, t)
  | none =>
    let r := object s lim t ⟨h.next + 1, true⟩
    if r.1 < 0 ∨ s.pmSized = false then .error .aborts
    else if s.pmMapped then .ok r
    else if dbg then .error .aborts
    else .error .faults

/-- `memory_service_provider().add_range`, `src/libsandbox.cc:288-293`, `:265-269` and `:276-284`: the first use makes the poller
(`include/process_sandbox/platform/poller_epoll.h:21`, not checked) and its thread; then the socket is registered, which fails without a poller. -/
def serve (s : Sys) (lim : Nat) (h : Host) (t : Table) : Except Out Table :=
  if h.service then if s.registered then .ok t else .error .aborts
  else
    let r := create lim t ⟨h.next + 4, true⟩
    if s.thread = false then .error .throws
    else if r.1 < 0 ∨ s.registered = false then .error .aborts
    else .ok r.2

/-- `Library::Library`, `src/libsandbox.cc:865-932`; `dbg`: assertions are compiled in; `disk`: what there is of the default
exports.  Running out of the host's own heap memory is left out. -/
def make (dbg : Bool) (fuel : Nat) (e : Env) (disk : List Byte → Option Obj) (s : Sys) (h : Host) : Out :=
  -- line 866
  match object s e.lim h.t ⟨h.next, true⟩ with
  | (shm, t) =>
  if shm < 0 ∨ s.shmSized = false then .aborts
  else if dbg = true ∧ s.shmMapped = false then .aborts
  else
  -- lines 867-869
  match pagemapOf dbg s e.lim h t with
  | .error o => o
  | .ok (pm, t) =>
  -- line 870
  match Defaults.construct disk e.lim t with
  | (tree, t) =>
  -- line 875
  if s.shmMapped = false then .faults
  else
  -- line 880
  match pair e.lim t ⟨h.next + 2, true⟩ ⟨h.next + 3, true⟩ with
  | none => .exits
  | some (svc, rpc, t) =>
  -- lines 881-882
  match serve s e.lim h t with
  | .error o => o
  | .ok t =>
  -- line 885
  match pair e.lim t ⟨h.next + 5, true⟩ ⟨h.next + 6, true⟩ with
  | none => .exits
  | some (own, cb, t) =>
  -- lines 914-932
  if s.forked then
    match startChild fuel e t ⟨shm, pm, rpc, cb⟩ with
    | (.looping, _) => .hangs
    | (out, hs) => .made ⟨tree, some out, close (close t hs.cb) hs.rpc, hs.shm, own, svc, pm⟩
  else .made ⟨tree, none, close (close t cb) rpc, shm, own, svc, pm⟩

end Verif.Make
