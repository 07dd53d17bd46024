import Verif.Rpc.Model

/-!
# The memory-service thread and the destruction of sandboxes (model)

Any number of sandboxes are created and destroyed while one background thread serves the requests of all of
them.  Every statement of the thread that another thread can come between is a step of its own.
-/

namespace Verif.Lifetime

open Verif.Rpc (Req Cfg isPow2)

/-- A message in a request socket: a `HostServiceRequest` (`src/host_service_calls.h:51-62`), or something of
another length, which `nonblocking_receive` refuses (`include/process_sandbox/platform/socketpair_posix.h:120`). -/
inductive Msg where
  | short
  | req (q : Req)
  deriving Repr, DecidableEq

/-- Does serving the request look into the `Library` (through `s = &lib->memory_provider`)?
`src/libsandbox.cc:164-173` refuses a bad size before anything else, and otherwise `:181` or `:191` uses `s`;
`:210` uses it first thing; other kinds do not (`:162-248`). -/
def looks (c : Cfg) (q : Req) : Bool :=
  if q.kind = 0 then !(decide (q.a0.toNat < c.chunk) || !isPow2 q.a0)
  else decide (q.kind = 1)

/-- Where the service thread is, `src/libsandbox.cc:109-258`.  `fd` is its local variable, `lib` the pointer
from the table; `src` is the sandbox whose message it has received. -/
inductive Pc where
  /-- about to wait, line 113 -/
  | idle
  /-- has an event, lines 113-129 -/
  | polled (fd : Nat) (eof : Bool)
  /-- has found the entry and let go of the lock, lines 142-145 -/
  | found (fd lib : Nat)
  /-- has a request, lines 151-248 -/
  | got (fd lib src : Nat) (q : Req)
  /-- about to reply, line 251 -/
  | served (fd lib src : Nat)
  /-- has removed the entry and is about to kill the sandbox, lines 148 and 254 -/
  | failed (lib src : Nat)
  deriving Repr, DecidableEq

/-- An access of the thread to a `Library` object: which one, on behalf of whose message, and whether the object
had been destroyed (bookkeeping of this model for `src/libsandbox.cc:144-255`). -/
structure Access where
  lib : Nat
  src : Nat
  dead : Bool
  deriving Repr, DecidableEq

/-- The state.  Libraries are numbered in order of creation and numbers are not used again
(`src/libsandbox.cc:77-284`). -/
structure St where
  /-- how many libraries there have been -/
  next : Nat
  /-- whose child process runs, `src/libsandbox.cc:904-914` -/
  alive : Nat → Bool
  /-- whose destructor has finished, `src/libsandbox.cc:757-788` -/
  dead : Nat → Bool
  /-- the part of the host's descriptor table that holds the host's ends of request sockets,
  `src/libsandbox.cc:879-881` -/
  sock : Nat → Option Nat
  /-- `ranges`, `src/libsandbox.cc:101-104` -/
  ranges : List (Nat × Nat)
  /-- messages waiting in the socket of a sandbox -/
  queue : Nat → List Msg
  /-- does any process hold the sandbox's end of its socket? -/
  peer : Nat → Bool
  pc : Pc
  log : List Access

/-- At the start of the program (`src/libsandbox.cc:288-293`). -/
def St.init : St :=
  ⟨0, fun _ => false, fun _ => false, fun _ => none, [], fun _ => [], fun _ => false, .idle, []⟩

/-- Change a function at one point (for the maps of the state above, `src/libsandbox.cc:101-104`). -/
def upd {α : Type} (f : Nat → α) (i : Nat) (v : α) : Nat → α := fun j => if j = i then v else f j

/-- `ranges.find(fd)`, `src/libsandbox.cc:117`, `:136`. -/
def find (ranges : List (Nat × Nat)) (fd : Nat) : Option Nat := (ranges.find? (fun e => e.1 == fd)).map (·.2)

/-- `ranges.emplace`, `src/libsandbox.cc:282`: nothing happens if the key is there already. -/
def emplace (ranges : List (Nat × Nat)) (fd lib : Nat) : List (Nat × Nat) :=
  if (find ranges fd).isSome then ranges else (fd, lib) :: ranges

/-- `remove_fd`, `src/libsandbox.cc:115-122`: the entry owns the socket, so the descriptor is closed with it. -/
def remove (s : St) (fd : Nat) : St :=
  if (find s.ranges fd).isSome then
    { s with ranges := s.ranges.filter (fun e => e.1 != fd), sock := upd s.sock fd none }
  else s

/-- An access to `*lib` by the service thread (`src/libsandbox.cc:148`, `:157`, `:191`, `:210`, `:245`, `:254`). -/
def touch (s : St) (lib src : Nat) : St := { s with log := ⟨lib, src, s.dead lib⟩ :: s.log }

/-- What can happen next (`src/libsandbox.cc:109-258`, `:276-284`, `:757-788`). -/
inductive Ev where
  /-- a thread constructs a library; `fd` is the descriptor the kernel chooses for the host's end -/
  | create (fd : Nat)
  /-- the sandbox sends a message -/
  | send (i : Nat) (m : Msg)
  /-- the child process ends -/
  | exit (i : Nat)
  /-- the last copy of the sandbox's end is closed -/
  | hangup (i : Nat)
  /-- the owner destroys the library -/
  | destroy (i : Nat)
  /-- `epoll_wait` returns an event for `fd` -/
  | poll (fd : Nat)
  /-- the service thread goes on; `ok` is the result of the send, if that is what it does -/
  | service (ok : Bool)
  deriving Repr, DecidableEq

/-- The service thread's next step after an event, `src/libsandbox.cc:123-257`. -/
def service (c : Cfg) (s : St) (ok : Bool) : Option St :=
  match s.pc with
  | .idle => none
  | .polled fd true => some { remove s fd with pc := .idle }
  | .polled fd false =>
    match find s.ranges fd with
    | none => some { s with pc := .idle }
    | some lib => some { s with pc := .found fd lib }
  | .found fd lib =>
    -- `nonblocking_receive`, line 145: from whatever socket the descriptor is
    match s.sock fd with
    | none => some { remove s fd with pc := .failed lib lib }
    | some src =>
      match s.queue src with
      | [] => some { remove s fd with pc := .failed lib src }
      | .short :: rest => some { remove { s with queue := upd s.queue src rest } fd with pc := .failed lib src }
      | .req q :: rest => some { s with queue := upd s.queue src rest, pc := .got fd lib src q }
  | .got fd lib src q =>
    some { (if looks c q then touch s lib src else s) with pc := .served fd lib src }
  | .served fd lib src =>
    if ok then some { s with pc := .idle } else some { remove s fd with pc := .failed lib src }
  | .failed lib src => some { touch s lib src with pc := .idle }

/-- One step; `none` if the event cannot happen.
* `create`: `src/libsandbox.cc:879-914` with `add_range`, `:276-284`; the kernel gives a free number.
* `send`: `requestHostService`, `src/library_runner.cc:142-178`, or anything else a hostile child does.
* `destroy`: `~Library`, `src/libsandbox.cc:757-788`; it returns from `wait_for_child_exit` when the child has
  gone, and does not touch `ranges`.
* `poll`: `include/process_sandbox/platform/poller_epoll.h:53-89`: descriptors are registered as long as they are
  open; a hang-up is reported when no process holds the other end, even if messages are waiting. -/
def step (c : Cfg) (s : St) : Ev → Option St
  | .create fd =>
    if s.sock fd = none then
      some { s with next := s.next + 1, alive := upd s.alive s.next true, peer := upd s.peer s.next true,
                    sock := upd s.sock fd (some s.next), ranges := emplace s.ranges fd s.next }
    else none
  | .send i m => if s.alive i then some { s with queue := upd s.queue i (s.queue i ++ [m]) } else none
  | .exit i => if s.alive i then some { s with alive := upd s.alive i false } else none
  | .hangup i => if s.peer i && !s.alive i then some { s with peer := upd s.peer i false } else none
  | .destroy i =>
    if i < s.next ∧ s.alive i = false ∧ s.dead i = false then some { s with dead := upd s.dead i true } else none
  | .poll fd =>
    if s.pc = .idle then
      match s.sock fd with
      | none => none
      | some i =>
        if s.peer i = false then some { s with pc := .polled fd true }
        else if s.queue i ≠ [] then some { s with pc := .polled fd false }
        else none
    else none
  | .service ok => service c s ok

/-- A whole execution (every interleaving of the threads and processes concerned is a list of events; see the
lines cited at `step`, `src/libsandbox.cc:109-284`). -/
def run (c : Cfg) : St → List Ev → Option St
  | s, [] => some s
  | s, e :: es =>
    match step c s e with
    | none => none
    | some s' => run c s' es

end Verif.Lifetime
