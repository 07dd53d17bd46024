import Verif.Basic

/-!
# Slab records of several threads of the sandbox (model)

Every thread of the sandbox has an allocator of its own, but all of them take their slab records from one
`metadata_range`, which has no lock.  Requests to the host are made one at a time (`Verif.ChildHeap.Threads`) and are
single steps here; an operation on `metadata_range` is two steps: it reads the state of the range, and later it writes
the new state.
-/

namespace Verif.Records

/-- An allocator used by one thread at a time: snmalloc's `SmallBuddyRange` of `src/child_malloc.h:88-89`, for blocks of
the size of a slab record, and the host's range of chunks (`src/library_runner.cc:195-209`).  `none` is the null pointer. -/
structure Rng (σ : Type) where
  alloc : σ → Option Word × σ
  free : σ → Word → σ

/-- Where a thread is in `alloc_chunk` or `dealloc_chunk`, `src/library_runner.cc:236-275`. -/
inductive Pc (σ : Type) where
  | idle
  /-- in `metadata_range.alloc_range`, lines 240-242; has read `s` -/
  | allocIn (s : σ)
  /-- before the request `AllocChunk`, line 244 -/
  | allocReq (ms : Word)
  /-- the host had no chunk; before `dealloc_range`, line 251 -/
  | back (ms : Word)
  /-- in that `dealloc_range`, lines 251-253; has read `s` -/
  | backIn (ms : Word) (s : σ)
  /-- in `metadata_range.dealloc_range` of `dealloc_chunk`, lines 270-272; has read `s` -/
  | freeIn (c ms : Word) (s : σ)
  /-- before the request `DeallocChunk`, line 273 -/
  | freeReq (c : Word)
  /-- a record was constructed at the null pointer, line 240 -/
  | ub
  deriving Repr, DecidableEq

/-- The state (`src/library_runner.cc:236-275`): the range of the records, the host's chunks, where the threads are, the
page map (chunk to record, written by the host), and the chunks in use with the records their threads were given. -/
structure St (σ τ : Type) where
  rng : σ
  host : τ
  pc : Nat → Pc σ
  map : Word → Option Word
  used : Word → Option Word

/-- A step of thread `t` (`src/library_runner.cc:236-275`). -/
inductive Act where
  /-- `alloc_chunk` is called and enters `alloc_range`, line 241 -/
  | allocEnter (t : Nat)
  /-- `alloc_range` ends, line 242 -/
  | allocLeave (t : Nat)
  /-- the request `AllocChunk`, lines 244-248, and the test of line 249 -/
  | allocReq (t : Nat)
  /-- `dealloc_range` after a failure begins, line 251 -/
  | backEnter (t : Nat)
  /-- it ends and the null pair is returned, line 254 -/
  | backLeave (t : Nat)
  /-- `dealloc_chunk` is called for a chunk in use and enters `dealloc_range`, line 270 -/
  | freeEnter (t : Nat) (c : Word)
  /-- `dealloc_range` ends, line 272 -/
  | freeLeave (t : Nat)
  /-- the request `DeallocChunk`, lines 273-274 -/
  | freeReq (t : Nat)
  deriving Repr, DecidableEq

/-- Change one place of a function (bookkeeping for `src/library_runner.cc:236-275`). -/
def upd {α β : Type} [DecidableEq α] (f : α → β) (a : α) (b : β) : α → β := fun x => if x = a then b else f x

/-- One step, `src/library_runner.cc:236-275`; `none`: the thread is elsewhere. -/
def step {σ τ} (R : Rng σ) (H : Rng τ) (s : St σ τ) : Act → Option (St σ τ)
  | .allocEnter t =>
    match s.pc t with
    | .idle => some { s with pc := upd s.pc t (.allocIn s.rng) }
    | _ => none
  | .allocLeave t =>
    match s.pc t with
    | .allocIn r =>
      match R.alloc r with
      | (some ms, r') => some { s with rng := r', pc := upd s.pc t (.allocReq ms) }
      | (none, r') => some { s with rng := r', pc := upd s.pc t .ub }
    | _ => none
  | .allocReq t =>
    match s.pc t with
    | .allocReq ms =>
      match H.alloc s.host with
      | (some c, h') =>
        some { s with host := h', pc := upd s.pc t .idle, map := upd s.map c (some ms), used := upd s.used c (some ms) }
      | (none, h') => some { s with host := h', pc := upd s.pc t (.back ms) }
    | _ => none
  | .backEnter t =>
    match s.pc t with
    | .back ms => some { s with pc := upd s.pc t (.backIn ms s.rng) }
    | _ => none
  | .backLeave t =>
    match s.pc t with
    | .backIn ms r => some { s with rng := R.free r ms, pc := upd s.pc t .idle }
    | _ => none
  | .freeEnter t c =>
    match s.pc t, s.used c with
    | .idle, some ms => some { s with pc := upd s.pc t (.freeIn c ms s.rng), used := upd s.used c none }
    | _, _ => none
  | .freeLeave t =>
    match s.pc t with
    | .freeIn c ms r => some { s with rng := R.free r ms, pc := upd s.pc t (.freeReq c) }
    | _ => none
  | .freeReq t =>
    match s.pc t with
    | .freeReq c => some { s with host := H.free s.host c, pc := upd s.pc t .idle, map := upd s.map c none }
    | _ => none

/-- A run (`src/library_runner.cc:236-275`): all steps must be possible. -/
def run {σ τ} (R : Rng σ) (H : Rng τ) (s : St σ τ) : List Act → Option (St σ τ)
  | [] => some s
  | a :: as =>
    match step R H s a with
    | some s' => run R H s' as
    | none => none

/-- The start: no thread is inside and no chunk is in use (`src/library_runner.cc:236-275`). -/
def start {σ τ} (r : σ) (h : τ) : St σ τ := ⟨r, h, fun _ => .idle, fun _ => none, fun _ => none⟩

end Verif.Records
