import Verif.Bounds.Model

/-!
# The memory service (model)

The thread that serves chunk requests of all sandboxes, the shared page map, and the two operations
the host's own in-sandbox allocator performs on them.
-/

namespace Verif.Rpc

open Verif.Bounds

/-- A page-map entry, `include/process_sandbox/sandbox_meta_entry.h:13-16`: the two words of
snmalloc's `FrontendMetaEntry`. -/
structure Entry where
  /-- `meta` -/
  word : Word
  /-- `remote_and_sizeclass` -/
  ras : Word
  deriving Repr, DecidableEq

/-- `SANDBOX_BIT`, `include/process_sandbox/sandbox_meta_entry.h:21`. -/
def sandboxBit : Word := 1#64 <<< (3 : Nat)

/-- `is_sandbox_owned`, `include/process_sandbox/sandbox_meta_entry.h:33-36`. -/
def Entry.sandboxOwned (e : Entry) : Bool := decide (e.word &&& sandboxBit = sandboxBit)

/-- `claim_for_sandbox`, `include/process_sandbox/sandbox_meta_entry.h:41-44`. -/
def Entry.claimForSandbox (e : Entry) : Entry := { e with word := e.word ||| sandboxBit }

/-- The page map, `include/process_sandbox/sandbox.h:68-82`: `snmalloc::FlatPagemap` over the whole
address space, indexed by address divided by the chunk size. -/
abbrev Pm := Nat → Entry

/-- Overwrite one entry (`pm.set`, `include/process_sandbox/sandbox.h:187`). -/
def Pm.set (pm : Pm) (i : Nat) (e : Entry) : Pm := fun j => if j = i then e else pm j

/-- The constants and encodings of snmalloc the code relies on (snmalloc is not part of the
repository).
* `bits`: `MIN_CHUNK_BITS`, so that `MIN_CHUNK_SIZE` is `2 ^ bits`
  (`src/libsandbox.cc:169`, `:223`, `:231`);
* `hdr`: `sizeof(SharedMemoryRegion)`; `remoteSize`: `sizeof(RemoteAllocator)`
  (`src/libsandbox.cc:157`);
* `remoteOf`: the message-queue address encoded in `remote_and_sizeclass` (`get_remote`,
  `src/libsandbox.cc:155`), `0` for null;
* `objSize`: `sizeclass_full_to_size(get_sizeclass())` (`src/libsandbox.cc:154-158`);
* `backendEntry`: a default entry after `claim_for_backend`
  (`include/process_sandbox/sandbox.h:367-368`). -/
structure Cfg where
  bits : Nat
  hdr : Word
  remoteSize : Word
  remoteOf : Word → Word
  objSize : Word → Nat
  backendEntry : Entry

/-- `MIN_CHUNK_SIZE`, a power of two (used at `src/libsandbox.cc:169`, `:223`, `:231`). -/
def Cfg.chunk (c : Cfg) : Nat := 2 ^ c.bits

/-- `LargeBuddyRange::alloc_range` and `dealloc_range` (snmalloc), as used at `src/libsandbox.cc:192`
and `include/process_sandbox/sandbox.h:341`, `:371`.  `σ` is the state of the range.  snmalloc keeps
its free lists inside the page-map entries of free chunks
(`include/process_sandbox/sandbox.h:250-255`), so both may change the page map.  Sizes and addresses
are in bytes; `none` is `nullptr`. -/
structure Range (σ : Type) where
  alloc : σ → Pm → Nat → Option Nat × σ × Pm
  dealloc : σ → Pm → Nat → Nat → σ × Pm

/-- `Pagemap::set_metaentry`, `include/process_sandbox/sandbox.h:180-189`: `for (a = p; a < p + size;
a += MIN_CHUNK_SIZE) pm.set(a, t)`.  Addresses are natural numbers here; the sum `p + size` does not
wrap in the code because callers pass blocks inside a mapping whose end is a 64-bit address. -/
def setMeta (c : Cfg) (pm : Pm) (a stop : Nat) (t : Entry) : Pm :=
  if a < stop then setMeta c (pm.set (a / c.chunk) t) (a + c.chunk) stop t else pm
termination_by stop - a
decreasing_by
  have : 0 < c.chunk := Nat.two_pow_pos _
  omega

/-- The ownership loop of `DeallocChunk`, `src/libsandbox.cc:230-241`: `true` when every chunk in
`[a, stop)` is sandbox-owned. -/
def allOwned (c : Cfg) (pm : Pm) (a stop : Nat) : Bool :=
  if a < stop then
    if (pm (a / c.chunk)).sandboxOwned then allOwned c pm (a + c.chunk) stop else false
  else true
termination_by stop - a
decreasing_by
  have : 0 < c.chunk := Nat.two_pow_pos _
  omega

/-- `snmalloc::bits::is_pow2`, used at `src/libsandbox.cc:170` and `:222`: no two bits set (true
for 0). -/
def isPow2 (x : Word) : Bool := decide (x &&& (x - 1) = 0)

/-- `is_metaentry_valid`, `src/libsandbox.cc:152-159`.  Only the second word of the entry matters. -/
def metaValid (c : Cfg) (r : Region) (size : Word) (e : Entry) : Bool :=
  (decide (c.remoteOf e.ras = 0) || contains c.hdr r (c.remoteOf e.ras) c.remoteSize) &&
    decide (c.objSize e.ras ≤ size.toNat)

/-- `HostServiceRequest`, `src/host_service_calls.h:51-62`; `kind` is the raw word received. -/
structure Req where
  kind : Word
  a0 : Word
  a1 : Word
  a2 : Word
  a3 : Word
  deriving Repr, DecidableEq

/-- `HostServiceResponse`, `src/host_service_calls.h:69-81`. -/
structure Resp where
  error : Word
  ret : Word
  deriving Repr, DecidableEq

/-- `Backend::dealloc_range`, `include/process_sandbox/sandbox.h:362-373`. -/
def deallocRange {σ} (c : Cfg) (R : Range σ) (s : σ) (pm : Pm) (p size : Nat) : σ × Pm :=
  R.dealloc s (setMeta c pm p (p + size) c.backendEntry) p size

/-- The `AllocChunk` case, `src/libsandbox.cc:164-204`. -/
def serveAlloc {σ} (c : Cfg) (R : Range σ) (r : Region) (s : σ) (pm : Pm) (q : Req) :
    Resp × σ × Pm :=
  if q.a0.toNat < c.chunk ∨ isPow2 q.a0 = false then (⟨3, 0⟩, s, pm)
  else if metaValid c r q.a0 ⟨q.a1, q.a2⟩ = false then (⟨1, 0⟩, s, pm)
  else
    match R.alloc s pm q.a0.toNat with
    | (none, s', pm') => (⟨2, 0⟩, s', pm')
    | (some p, s', pm') =>
      (⟨0, BitVec.ofNat 64 p⟩, s',
        setMeta c pm' p (p + q.a0.toNat) (Entry.claimForSandbox ⟨q.a1, q.a2⟩))

/-- The `DeallocChunk` case, `src/libsandbox.cc:205-247`.  `pointer_align_down(p, C) != p` says that
`p` is not a multiple of the power of two `C`. -/
def serveDealloc {σ} (c : Cfg) (R : Range σ) (r : Region) (s : σ) (pm : Pm) (q : Req) :
    Resp × σ × Pm :=
  if contains c.hdr r q.a0 q.a1 = false then (⟨1, 0⟩, s, pm)
  else if ¬ (isPow2 q.a1 = true ∧ c.chunk ≤ q.a1.toNat) then (⟨2, 0⟩, s, pm)
  else if q.a0.toNat % c.chunk ≠ 0 then (⟨3, 0⟩, s, pm)
  else if allOwned c pm q.a0.toNat (q.a0.toNat + q.a1.toNat) = false then (⟨4, 0⟩, s, pm)
  else (⟨0, 0⟩, deallocRange c R s pm q.a0.toNat q.a1.toNat)

/-- The `switch` of the service loop, `src/libsandbox.cc:151-248`; `AllocChunk` is 0 and
`DeallocChunk` is 1 (`src/host_service_calls.h:25-45`).  The reply starts as `{0, 0}` and an unknown
kind falls through. -/
def serve {σ} (c : Cfg) (R : Range σ) (r : Region) (s : σ) (pm : Pm) (q : Req) : Resp × σ × Pm :=
  if q.kind = 0 then serveAlloc c R r s pm q
  else if q.kind = 1 then serveDealloc c R r s pm q
  else (⟨0, 0⟩, s, pm)

/-- `Backend::alloc_chunk`, `include/process_sandbox/sandbox.h:335-355`: the host's in-sandbox
allocator takes a chunk.  `slab` is the address of the `new SlabMetadata()`; the result is the address
of the chunk. -/
def hostAlloc {σ} (c : Cfg) (R : Range σ) (s : σ) (pm : Pm) (size : Nat) (slab ras : Word) :
    Option Nat × σ × Pm :=
  match R.alloc s pm size with
  | (none, s', pm') => (none, s', pm')
  | (some p, s', pm') => (some p, s', setMeta c pm' p (p + size) ⟨slab, ras⟩)

/-- `Backend::dealloc_chunk`, `include/process_sandbox/sandbox.h:378-388` (without the `delete` of
the slab record, see `Verif.Teardown`). -/
def hostFree {σ} (c : Cfg) (R : Range σ) (s : σ) (pm : Pm) (p size : Nat) : σ × Pm :=
  deallocRange c R s pm p size

/-- A sandbox's shared mapping: address and size (`src/libsandbox.cc:866-869`). -/
structure Mapping where
  base : Word
  size : Word
  deriving Repr, DecidableEq

/-- The heap of a mapping: everything after the header, `src/libsandbox.cc:867-869`. -/
def Mapping.region (c : Cfg) (m : Mapping) : Region := Region.ofMapping c.hdr m.base m.size

/-- The state shared by all sandboxes: the page map and one range allocator each
(`include/process_sandbox/sandbox.h:68-82`, `:250-255`). -/
structure Sys (σ : Type) where
  pm : Pm
  ranges : Nat → σ

/-- One operation on the shared state.  Locks (`include/process_sandbox/sandbox.h:91`, `:260`) make
updates of the page map and of a range atomic; an operation is treated as a whole here. -/
inductive Op where
  /-- sandbox `i` sends a request -/
  | rpc (i : Nat) (q : Req)
  /-- the host allocates a chunk in sandbox `i` -/
  | hostAlloc (i : Nat) (size : Nat) (slab ras : Word)
  /-- the host frees a chunk of sandbox `i` -/
  | hostFree (i : Nat) (p size : Nat)
  deriving Repr, DecidableEq

/-- Result of an operation: the address of a chunk handed out, if any (`reply.ret` with error 0,
`src/libsandbox.cc:202`; or the chunk of `include/process_sandbox/sandbox.h:354`). -/
abbrev Given := Option Nat

/-- Write back the range of sandbox `i` (bookkeeping of this model; the ranges are members of the
libraries, `include/process_sandbox/sandbox.h:250-255`). -/
def Sys.put {σ} (st : Sys σ) (i : Nat) (s : σ) (pm : Pm) : Sys σ :=
  ⟨pm, fun j => if j = i then s else st.ranges j⟩

/-- One step of the shared state: requests as served at `src/libsandbox.cc:151-248`, and the host's
own operations at `include/process_sandbox/sandbox.h:335-388`. -/
def step {σ} (c : Cfg) (R : Range σ) (maps : Nat → Mapping) (st : Sys σ) : Op → Given × Sys σ
  | .rpc i q =>
    let o := serve c R ((maps i).region c) (st.ranges i) st.pm q
    (if q.kind = 0 ∧ o.1.error = 0 then some o.1.ret.toNat else none, st.put i o.2.1 o.2.2)
  | .hostAlloc i size slab ras =>
    let o := hostAlloc c R (st.ranges i) st.pm size slab ras
    (o.1, st.put i o.2.1 o.2.2)
  | .hostFree i p size =>
    let o := hostFree c R (st.ranges i) st.pm p size
    (none, st.put i o.1 o.2)

/-- All steps of a list of operations, with what each handed out (the service loop,
`src/libsandbox.cc:109-258`, interleaved with the host). -/
def runOps {σ} (c : Cfg) (R : Range σ) (maps : Nat → Mapping) (st : Sys σ) :
    List Op → List Given × Sys σ
  | [] => ([], st)
  | op :: ops =>
    let o := step c R maps st op
    let o' := runOps c R maps o.2 ops
    (o.1 :: o'.1, o'.2)

/-! ## The service loop -/

/-- What the loop observes in one iteration (`src/libsandbox.cc:111-150`, `:251`).
* `add`: `add_range` registered socket `fd` for library `i` (`src/libsandbox.cc:276-284`);
* `eof`: the poller reports that `fd` was closed;
* `ready`: the poller reports `fd` readable; `msg` is what `nonblocking_receive` gives (`none` for
  failure), `sendOk` what `nonblocking_send` returns. -/
inductive Poll where
  | add (fd : Int) (i : Nat)
  | eof (fd : Int)
  | ready (fd : Int) (msg : Option Req) (sendOk : Bool)
  deriving Repr, DecidableEq

/-- What happens to a sandbox in the service loop, `src/libsandbox.cc:145-255`. -/
inductive Ev where
  | received (i : Nat) (q : Req)
  | replied (i : Nat) (r : Resp)
  /-- `lib->terminate()` -/
  | killed (i : Nat)
  deriving Repr, DecidableEq

/-- The `ranges` map of `MemoryServiceProvider`, `src/libsandbox.cc:102-105`, and the shared state. -/
structure Svc (σ : Type) where
  fds : List (Int × Nat)
  sys : Sys σ

/-- `ranges.find(fd)`, `src/libsandbox.cc:133`. -/
def findFd (fds : List (Int × Nat)) (fd : Int) : Option Nat :=
  (fds.find? (fun e => e.1 == fd)).map (·.2)

/-- `remove_fd`, `src/libsandbox.cc:115-122`. -/
def removeFd (fds : List (Int × Nat)) (fd : Int) : List (Int × Nat) :=
  fds.filter (fun e => !(e.1 == fd))

/-- One iteration of the loop, `src/libsandbox.cc:113-256` (and `add_range`,
`src/libsandbox.cc:276-284`; `emplace` keeps an existing element). -/
def svcStep {σ} (c : Cfg) (R : Range σ) (maps : Nat → Mapping) (s : Svc σ) :
    Poll → List Ev × Svc σ
  | .add fd i =>
    ([], if (findFd s.fds fd).isSome then s else { s with fds := (fd, i) :: s.fds })
  | .eof fd => ([], { s with fds := removeFd s.fds fd })
  | .ready fd msg sendOk =>
    match findFd s.fds fd with
    | none => ([], s)
    | some i =>
      match msg with
      | none => ([.killed i], { s with fds := removeFd s.fds fd })
      | some q =>
        let o := serve c R ((maps i).region c) (s.sys.ranges i) s.sys.pm q
        let sys' := s.sys.put i o.2.1 o.2.2
        if sendOk then ([.received i q, .replied i o.1], { s with sys := sys' })
        else ([.received i q, .killed i], ⟨removeFd s.fds fd, sys'⟩)

/-- The loop, `src/libsandbox.cc:109-258`, over a finite run. -/
def svcRun {σ} (c : Cfg) (R : Range σ) (maps : Nat → Mapping) (s : Svc σ) :
    List Poll → List Ev × Svc σ
  | [] => ([], s)
  | p :: ps =>
    let o := svcStep c R maps s p
    let o' := svcRun c R maps o.2 ps
    (o.1 ++ o'.1, o'.2)

end Verif.Rpc
