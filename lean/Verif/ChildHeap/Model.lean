import Verif.Rpc.Model

/-!
# The sandbox's side of the memory service (model)

How the allocator in the child asks the host for memory: the request function and the functions of the snmalloc
back end that use it.  The host's side is `Verif.Rpc.serve`.
-/

namespace Verif.ChildHeap

open Verif.Rpc Verif.Bounds

/-- How a function of the child ends: with a value, with the end of the process (`report_fatal_error` or a failed
`SANDBOX_INVARIANT`, `src/library_runner.cc:154-175`), or undefined. -/
inductive Out (α : Type) where
  | ok (a : α)
  | fatal
  | ub
  deriving Repr, DecidableEq

/-- What the child works with: the host's range allocator and the page map, which it can change only by requests
(`src/library_runner.cc:142-178`), and the slab records it has taken from its private `metadata_range`
(`src/child_malloc.h:88-89`). -/
structure St (σ : Type) where
  rng : σ
  pm : Pm
  records : List Word

/-- The results of `write` and `read` on the request socket, `src/library_runner.cc:152` and `:159`. -/
structure Link where
  wrote : Int
  got : Int
  deriving Repr, DecidableEq

/-- `requestHostService`, `src/library_runner.cc:142-178`; `sizeof(HostServiceRequest)` is 40 and
`sizeof(HostServiceResponse)` 16 (`src/host_service_calls.h:51-81`).  The lock (`:149-150`) is the subject of
`Verif.ChildHeap.Threads`.  A request that was not written whole does not reach the host. -/
def request {σ} (c : Cfg) (R : Range σ) (r : Region) (l : Link) (w : St σ) (kind a0 a1 a2 : Word) :
    Out Word × St σ :=
  if l.wrote ≠ 40 then (.fatal, w)
  else
    let o := serve c R r w.rng w.pm ⟨kind, a0, a1, a2, 0⟩
    let w' : St σ := { w with rng := o.2.1, pm := o.2.2 }
    if l.got ≠ 16 then (.fatal, w')
    else if o.1.error ≠ 0 then (.fatal, w')
    else (.ok o.1.ret, w')

/-- `SharedMemoryRange::alloc_range`, `src/library_runner.cc:195-200`.  It serves `alloc_meta_data`
(`src/library_runner.cc:277-283`) through snmalloc's small buddy allocator, which asks it for whole chunks. -/
def sharedAlloc {σ} (c : Cfg) (R : Range σ) (r : Region) (l : Link) (w : St σ) (size : Word) : Out Word × St σ :=
  request c R r l w 0 size 0 0

/-- `SharedMemoryRange::dealloc_range`, `src/library_runner.cc:205-209`. -/
def sharedDealloc {σ} (c : Cfg) (R : Range σ) (r : Region) (l : Link) (w : St σ) (base size : Word) :
    Out Unit × St σ :=
  match request c R r l w 1 base size 0 with
  | (.ok _, w') => (.ok (), w')
  | (.fatal, w') => (.fatal, w')
  | (.ub, w') => (.ub, w')

/-- `SnmallocGlobals::Backend::alloc_chunk`, `src/library_runner.cc:236-261`.  `slot` is what
`metadata_range.alloc_range` returns; its result is not compared with null, and constructing the record there is
undefined behaviour if it is.  The result is the chunk with its record, or the null pair. -/
def allocChunk {σ} (c : Cfg) (R : Range σ) (r : Region) (l : Link) (w : St σ) (slot : Option Word)
    (size ras : Word) : Out (Option (Word × Word)) × St σ :=
  match slot with
  | none => (.ub, w)
  | some ms =>
    match request c R r l { w with records := ms :: w.records } 0 size ms ras with
    | (.fatal, w') => (.fatal, w')
    | (.ub, w') => (.ub, w')
    | (.ok p, w') =>
      if p = 0 then (.ok none, { w' with records := w'.records.erase ms })
      else (.ok (some (p, ms)), w')

/-- `SnmallocGlobals::Backend::dealloc_chunk`, `src/library_runner.cc:263-275`: the record is given back first,
then the host is asked to take the chunk. -/
def deallocChunk {σ} (c : Cfg) (R : Range σ) (r : Region) (l : Link) (w : St σ) (ms start size : Word) :
    Out Unit × St σ :=
  match request c R r l { w with records := w.records.erase ms } 1 start size 0 with
  | (.ok _, w') => (.ok (), w')
  | (.fatal, w') => (.fatal, w')
  | (.ub, w') => (.ub, w')

/-! ## A sandbox that uses its allocator, among others -/

/-- A block of the sandbox: address, size, its record (none for memory of `SharedMemoryRange`) and the second word
of its page-map entry (`src/library_runner.cc:195-209`, `:236-275`). -/
structure Chunk where
  p : Nat
  n : Nat
  own : Option Word
  ras : Word
  deriving Repr, DecidableEq

/-- The sandbox, the blocks it holds, and the blocks the host's own allocator holds in the same heap
(`include/process_sandbox/sandbox.h:335-388`). -/
structure World (σ : Type) where
  st : St σ
  held : List Chunk
  live : List (Nat × Nat)

/-- What can happen.  The first four are the functions above, the next two the host's allocator
(`include/process_sandbox/sandbox.h:335-388`); `other` is anything that changes the page map besides: requests and
host operations for other sandboxes. -/
inductive Ev where
  | alloc (slot : Option Word) (size ras : Word)
  | free (ch : Chunk)
  | shared (size : Word)
  | hostAlloc (size : Nat) (slab ras : Word)
  | hostFree (p n : Nat)
  | other (pm : Pm)

/-- The link when both ends are alive: everything is written and read (`src/library_runner.cc:152-164`). -/
def Link.up : Link := ⟨40, 16⟩

/-- One event, with working sockets; `none` when the child ends or its behaviour is undefined.  Calls as at
`src/library_runner.cc:195-275` and `include/process_sandbox/sandbox.h:335-388`. -/
def step {σ} (c : Cfg) (R : Range σ) (r : Region) (w : World σ) : Ev → Option (World σ)
  | .alloc slot size ras =>
    match allocChunk c R r .up w.st slot size ras with
    | (.ok (some (p, ms)), st) => some { w with st := st, held := ⟨p.toNat, size.toNat, some ms, ras⟩ :: w.held }
    | (.ok none, st) => some { w with st := st }
    | _ => none
  | .free ch =>
    match (match ch.own with
      | some ms => deallocChunk c R r .up w.st ms (BitVec.ofNat 64 ch.p) (BitVec.ofNat 64 ch.n)
      | none => sharedDealloc c R r .up w.st (BitVec.ofNat 64 ch.p) (BitVec.ofNat 64 ch.n)) with
    | (.ok (), st) => some { w with st := st, held := w.held.erase ch }
    | _ => none
  | .shared size =>
    match sharedAlloc c R r .up w.st size with
    | (.ok p, st) => some { w with st := st, held := ⟨p.toNat, size.toNat, none, 0⟩ :: w.held }
    | _ => none
  | .hostAlloc size slab ras =>
    match hostAlloc c R w.st.rng w.st.pm size slab ras with
    | (some p, s, pm) => some { w with st := { w.st with rng := s, pm := pm }, live := (p, size) :: w.live }
    | (none, s, pm) => some { w with st := { w.st with rng := s, pm := pm } }
  | .hostFree p n =>
    let o := hostFree c R w.st.rng w.st.pm p n
    some { w with st := { w.st with rng := o.1, pm := o.2 }, live := w.live.erase (p, n) }
  | .other pm => some { w with st := { w.st with pm := pm } }

/-- A sequence of events; `none` when the child has ended on the way (`src/library_runner.cc:142-275`). -/
def run {σ} (c : Cfg) (R : Range σ) (r : Region) (w : World σ) : List Ev → Option (World σ)
  | [] => some w
  | e :: es =>
    match step c R r w e with
    | some w' => run c R r w' es
    | none => none

end Verif.ChildHeap
