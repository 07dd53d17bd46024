import Verif.Basic

/-!
# The poller of the memory service (model)

One thread waits for requests of all sandboxes with `epoll` (or `kqueue`).  The kernel's queue of ready descriptors is
part of the model, as documented for `epoll`: a descriptor is put at the end when something arrives for it, is reported
from the front, and, being level triggered, is put at the end again when it has been reported.
-/

namespace Verif.Poll

/-- A report: the descriptor and whether it is at its end (the results of `poll`,
`include/process_sandbox/platform/poller_epoll.h:76-77`). -/
structure Report where
  fd : Nat
  eof : Bool
  deriving Repr, DecidableEq

/-- The kernel's instance (`include/process_sandbox/platform/poller_epoll.h:21`). -/
structure St where
  /-- registered descriptors -/
  reg : Nat → Bool
  /-- waiting messages of a descriptor -/
  pending : Nat → Nat
  /-- has the other end been closed? -/
  hup : Nat → Bool
  /-- the queue of ready descriptors -/
  ready : List Nat
  /-- what `poll` has returned so far -/
  log : List Report

/-- A new instance (`include/process_sandbox/platform/poller_epoll.h:21`). -/
def St.init : St := ⟨fun _ => false, fun _ => 0, fun _ => false, [], []⟩

/-- Is there something to report (`EPOLLIN` or `EPOLLHUP`; `include/process_sandbox/platform/poller_epoll.h:36`, `:77`)? -/
def live (s : St) (f : Nat) : Bool := s.hup f || decide (0 < s.pending f)

/-- Change a function at one point (for the maps of the instance, `include/process_sandbox/platform/poller_epoll.h:21`). -/
def upd {α : Type} (g : Nat → α) (f : Nat) (v : α) : Nat → α := fun x => if x = f then v else g x

/-- Something has arrived for `f`: a registered descriptor is queued, if it is not queued already (the kernel's part of
`include/process_sandbox/platform/poller_epoll.h:66`). -/
def enqueue (s : St) (f : Nat) : St :=
  if s.reg f && !s.ready.contains f then { s with ready := s.ready ++ [f] } else s

/-- `add`, `include/process_sandbox/platform/poller_epoll.h:33-42`, called by `register_fd`
(`src/libsandbox.cc:280`); `none`: already registered, the host ends. -/
def add (s : St) (f : Nat) : Option St :=
  if s.reg f then none
  else
    let s := { s with reg := upd s.reg f true }
    some (if live s f then enqueue s f else s)

/-- `epoll_wait(ep, &event, 1, -1)`, `include/process_sandbox/platform/poller_epoll.h:66`: the first queued descriptor
that has something to report, and the queue afterwards; `none`: it waits.  Descriptors that no longer have anything
leave the queue. -/
def wait (s : St) : List Nat → Option (Nat × List Nat)
  | [] => none
  | f :: rest => if live s f then some (f, rest ++ [f]) else wait s rest

/-- The descriptor is no longer registered: `EPOLL_CTL_DEL`, `include/process_sandbox/platform/poller_epoll.h:82-87`, or
its last copy has been closed (`src/libsandbox.cc:120`). -/
def unregister (s : St) (f : Nat) : St :=
  { s with reg := upd s.reg f false
           pending := upd s.pending f 0
           hup := upd s.hup f false
           ready := s.ready.filter (· != f) }

/-- One turn of the loop, `src/libsandbox.cc:113-256`: wait for an event; at the end of a socket the entry goes and its
socket is closed; otherwise one message is received and answered.  `keep = false`: the message was not a request or the
answer could not be sent, and the entry is removed. -/
def serve (s : St) (keep : Bool) : Option St :=
  match wait s s.ready with
  | none => none
  | some (f, ready) =>
    let s := { s with ready := ready, log := s.log ++ [⟨f, s.hup f⟩] }
    if s.hup f then some (unregister s f)
    else
      let s := { s with pending := upd s.pending f (s.pending f - 1) }
      some (if keep then s else unregister s f)

/-- What happens next (`src/libsandbox.cc:113-256`, `:276-284`). -/
inductive Act where
  /-- a new sandbox registers its socket -/
  | add (f : Nat)
  /-- a message arrives -/
  | arrive (f : Nat)
  /-- the other end is closed -/
  | hangup (f : Nat)
  /-- the service thread takes one turn -/
  | serve (keep : Bool)
  deriving Repr, DecidableEq

/-- One step (`src/libsandbox.cc:113-256`, `:276-284`). -/
def step (s : St) : Act → Option St
  | .add f => add s f
  | .arrive f => some (enqueue { s with pending := upd s.pending f (s.pending f + 1) } f)
  | .hangup f => some (enqueue { s with hup := upd s.hup f true } f)
  | .serve keep => serve s keep

/-- A run (`src/libsandbox.cc:113-256`): all steps must be possible. -/
def run (s : St) : List Act → Option St
  | [] => some s
  | a :: as =>
    match step s a with
    | none => none
    | some s' => run s' as

/-! ### Interrupted waits -/

/-- What one `epoll_wait` or `kevent` gives (`include/process_sandbox/platform/poller_epoll.h:66`,
`include/process_sandbox/platform/poller_kqueue.h:61`). -/
inductive Got where
  /-- −1 with `errno` -/
  | error (errno : Nat)
  /-- no event -/
  | nothing
  | event (r : Report)
  deriving Repr, DecidableEq

/-- `EINTR` (`include/process_sandbox/platform/poller_epoll.h:67`). -/
def eintr : Nat := 4

/-- `EPollPoller::poll`, `include/process_sandbox/platform/poller_epoll.h:53-89`, against what the calls give one after
another: the report, or `none` for `false`, and what later calls will give; nothing if the list ends first (it waits). -/
def epollPoll : List Got → Option (Option Report × List Got)
  | [] => none
  | .error e :: rest => if e = eintr then epollPoll rest else some (none, rest)
  | .nothing :: rest => epollPoll rest
  | .event r :: rest => some (some r, rest)

/-- `KQueuePoller::poll`, `include/process_sandbox/platform/poller_kqueue.h:53-68`.  Without a time-out, `kevent` does
not return 0; if it did, `event` would be read without having been written. -/
def kqueuePoll : List Got → Option (Option Report × List Got)
  | [] => none
  | .error _ :: rest => some (none, rest)
  | .nothing :: rest => some (none, rest)
  | .event r :: rest => some (some r, rest)

/-- The loop of `run`, `src/libsandbox.cc:113` and `:257`, with `fuel` turns: the reports handled so far and whether the
host has ended with `err(1)`. -/
def loop (poll : List Got → Option (Option Report × List Got)) : Nat → List Got → List Report × Bool
  | 0, _ => ([], false)
  | fuel + 1, gs =>
    match poll gs with
    | none => ([], false)
    | some (none, _) => ([], true)
    | some (some r, rest) =>
      let x := loop poll fuel rest
      (r :: x.1, x.2)

end Verif.Poll
