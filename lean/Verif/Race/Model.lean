import Verif.Basic

/-!
# The heap of a sandbox under concurrent use (model)

The service thread and any number of host threads use one sandbox's range allocator and the page map at the same time.
Taking blocks from and giving blocks to the range allocator happens under the lock of the heap and is one step here; each
entry of the page map is read or written in a step of its own, in any interleaving.  The lock of the page map
(`include/process_sandbox/sandbox.h:104`) is left out, so there are more interleavings here than in the code.

Addresses and sizes are counted in chunks.
-/

namespace Verif.Race

/-- What an entry of the page map says (`include/process_sandbox/sandbox_meta_entry.h:33-44`,
`include/process_sandbox/sandbox.h:367-368`): it belongs to the range allocator, to the host's allocator, or it has the
sandbox's mark. -/
inductive Owner where
  | backend
  | host
  | box
  deriving Repr, DecidableEq

/-- Where a host thread is in `Backend::alloc_chunk` or `Backend::dealloc_range`,
`include/process_sandbox/sandbox.h:335-373`. -/
inductive HPc where
  | idle
  /-- about to take a block of `n` chunks, lines 338-342 -/
  | take (n : Nat)
  /-- has the block at `p` and has written `i` entries, line 349 -/
  | write (p n i : Nat)
  /-- has written `i` entries of the block that it gives back, line 369 -/
  | clear (p n i : Nat)
  deriving Repr, DecidableEq

/-- Where the service thread is in a request, `src/libsandbox.cc:162-248`. -/
inductive SPc where
  | idle
  /-- `AllocChunk`: about to take a block, lines 189-193 -/
  | take (n : Nat)
  /-- `AllocChunk`: has written `i` entries, lines 199-200 -/
  | write (p n i : Nat)
  /-- `DeallocChunk`: has read `i` entries and all had the sandbox's mark, lines 230-241 -/
  | check (p n i : Nat)
  /-- `DeallocChunk`: has written `i` entries, line 245 and `include/process_sandbox/sandbox.h:369` -/
  | clear (p n i : Nat)
  deriving Repr, DecidableEq

/-- What happens to blocks, in order (`src/libsandbox.cc:202`, `:245`, `include/process_sandbox/sandbox.h:354`, `:385`). -/
inductive Ev where
  /-- the host's allocator has a new block -/
  | hostGets (p n : Nat)
  /-- the host's allocator gives a block up -/
  | hostGives (p n : Nat)
  /-- the sandbox is given a block -/
  | boxGets (p n : Nat)
  /-- a release by the sandbox is accepted -/
  | boxGives (p n : Nat)
  deriving Repr, DecidableEq

/-- Is the chunk in the block (loop bounds at `include/process_sandbox/sandbox.h:184-188`, `src/libsandbox.cc:231`)? -/
def inBlock (p n c : Nat) : Bool := decide (p ≤ c) && decide (c < p + n)

/-- The state: the chunks in the range allocator (`include/process_sandbox/sandbox.h:250-255`), the page map
(`:68-82`), the threads and the events so far. -/
structure St where
  free : Nat → Bool
  owner : Nat → Owner
  hosts : List HPc
  svc : SPc
  log : List Ev

/-- Set the program counter of host thread `t` (`include/process_sandbox/sandbox.h:335-373`). -/
def St.at (s : St) (t : Nat) (p : HPc) : St := { s with hosts := s.hosts.set t p }

/-- `m.alloc_range` and `m.dealloc_range` seen from outside: the block leaves or enters the range allocator,
`include/process_sandbox/sandbox.h:341`, `:372`, `src/libsandbox.cc:192`. -/
def St.range (s : St) (p n : Nat) (b : Bool) : St :=
  { s with free := fun c => if inBlock p n c then b else s.free c }

/-- Write one entry of the page map, `include/process_sandbox/sandbox.h:187`. -/
def St.entry (s : St) (c : Nat) (o : Owner) : St := { s with owner := fun x => if x = c then o else s.owner x }

/-- Record an event (bookkeeping of this model; the events are at `src/libsandbox.cc:202`, `:245`,
`include/process_sandbox/sandbox.h:354`, `:385`). -/
def St.say (s : St) (e : Ev) : St := { s with log := s.log ++ [e] }

/-- Whether the range allocator may give out the block: all of it is in the allocator
(`include/process_sandbox/sandbox.h:341`, `src/libsandbox.cc:192`; snmalloc is trusted for this). -/
def St.mayTake (s : St) (p n : Nat) : Bool := (List.range n).all fun i => s.free (p + i)

/-- What happens next (`src/libsandbox.cc:162-248`, `include/process_sandbox/sandbox.h:335-388`). -/
inductive Act where
  /-- host thread `t` begins to allocate -/
  | hostAlloc (t n : Nat)
  /-- host thread `t` begins to give back a block -/
  | hostFree (t p n : Nat)
  /-- the sandbox asks for a block -/
  | boxAlloc (n : Nat)
  /-- the sandbox releases a block, which may be anything -/
  | boxFree (p n : Nat)
  /-- host thread `t` goes on; `p` is the block that the range allocator chooses, if it is asked for one -/
  | host (t : Nat) (p : Option Nat)
  /-- the service thread goes on -/
  | svc (p : Option Nat)
  deriving Repr, DecidableEq

/-- A host thread's next step, `include/process_sandbox/sandbox.h:335-373`. -/
def hostStep (s : St) (t : Nat) (p : Option Nat) : Option St :=
  match s.hosts[t]? with
  | some (.take n) =>
    match p with
    | none => some (s.at t .idle)
    | some p => if s.mayTake p n then some ((s.range p n false).at t (.write p n 0)) else none
  | some (.write p n i) =>
    if i < n then some ((s.entry (p + i) .host).at t (.write p n (i + 1)))
    else some ((s.say (.hostGets p n)).at t .idle)
  | some (.clear p n i) =>
    if i < n then some ((s.entry (p + i) .backend).at t (.clear p n (i + 1)))
    else some ((s.range p n true).at t .idle)
  | _ => none

/-- The service thread's next step, `src/libsandbox.cc:162-248`. -/
def svcStep (s : St) (p : Option Nat) : Option St :=
  match s.svc with
  | .idle => none
  | .take n =>
    match p with
    | none => some { s with svc := .idle }
    | some p => if s.mayTake p n then some { s.range p n false with svc := .write p n 0 } else none
  | .write p n i =>
    if i < n then some { s.entry (p + i) .box with svc := .write p n (i + 1) }
    else some { s.say (.boxGets p n) with svc := .idle }
  | .check p n i =>
    if i < n then
      if s.owner (p + i) = .box then some { s with svc := .check p n (i + 1) } else some { s with svc := .idle }
    else some { s.say (.boxGives p n) with svc := .clear p n 0 }
  | .clear p n i =>
    if i < n then some { s.entry (p + i) .backend with svc := .clear p n (i + 1) }
    else some { s.range p n true with svc := .idle }

/-- One step (`src/libsandbox.cc:162-248`, `include/process_sandbox/sandbox.h:335-388`).  Which blocks the host may give
back is said by the hypothesis of the theorems, not here. -/
def step (s : St) : Act → Option St
  | .hostAlloc t n => if s.hosts[t]? = some .idle then some (s.at t (.take n)) else none
  | .hostFree t p n => if s.hosts[t]? = some .idle then some ((s.say (.hostGives p n)).at t (.clear p n 0)) else none
  | .boxAlloc n => if s.svc = .idle then some { s with svc := .take n } else none
  | .boxFree p n => if s.svc = .idle then some { s with svc := .check p n 0 } else none
  | .host t p => hostStep s t p
  | .svc p => svcStep s p

/-- A run (`src/libsandbox.cc:162-248`): all steps must be possible. -/
def run (s : St) : List Act → Option St
  | [] => some s
  | a :: as =>
    match step s a with
    | none => none
    | some s' => run s' as

/-- A new heap of the chunks in `heap` with `k` idle host threads: everything is in the range allocator
(`src/libsandbox.cc:57-67`) and no entry has the sandbox's mark. -/
def St.init (heap : Nat → Bool) (k : Nat) : St := ⟨heap, fun _ => .backend, List.replicate k .idle, .idle, []⟩

end Verif.Race
