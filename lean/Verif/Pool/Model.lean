import Verif.Records.Model

/-!
# The allocators of several threads of the sandbox (model)

Every thread of the sandbox that allocates memory needs an allocator, an object in memory that is shared with the host.
It takes one from the pool, or, if the pool is empty, `alloc_meta_data` makes room for a new one in `allocator_range`, a
buddy allocator on top of chunks that the host gives.  The pool has a lock; `allocator_range` has none.  A request to the
host is one step here (`Verif.ChildHeap.Threads`); an operation on `allocator_range` is several: it reads the state of the
range, if need be asks the host for a chunk, and then writes the new state.
-/

namespace Verif.Pool
open Verif.Records (upd)

/-- An allocator used by one thread at a time, for blocks of one size, on top of chunks: snmalloc's `SmallBuddyRange` of
`src/library_runner.cc:215`.  `take` gives a block of what it has (`none`: there is nothing left), `fill` a block after
the host has given a chunk. -/
structure Rng (σ : Type) where
  take : σ → Option (Word × σ)
  fill : σ → Word → Word × σ

/-- Where a thread is, `src/library_runner.cc:277-283`. -/
inductive Pc (σ : Type) where
  /-- it has no allocator -/
  | bare
  /-- in `allocator_range.alloc_range`, line 282; has read `s` -/
  | inside (s : σ)
  /-- still in it, after the request of `src/library_runner.cc:195-200`, which gave a chunk -/
  | asked (s : σ) (c : Word)
  /-- it has an allocator -/
  | has (a : Word)
  deriving Repr, DecidableEq

/-- The state: `allocator_range` (`src/library_runner.cc:215`), the host's chunks, the pool of allocators that no thread
uses (`src/child_malloc.h:151-160`), the threads, the chunks that the sandbox uses for other purposes
(`src/library_runner.cc:236-275`), and whether the process has ended (`src/library_runner.cc:166-176`). -/
structure St (σ τ : Type) where
  rng : σ
  host : τ
  pool : List Word
  pc : Nat → Pc σ
  others : Word → Bool
  ended : Bool

/-- What happens next (`src/library_runner.cc:277-283`, `:236-275`). -/
inductive Act where
  /-- thread `t` wants an allocator: from the pool, or else it calls `alloc_meta_data` -/
  | acquire (t : Nat)
  /-- thread `t` goes on in `alloc_range` -/
  | go (t : Nat)
  /-- thread `t` ends, and its allocator returns to the pool -/
  | release (t : Nat)
  /-- some thread gets a chunk for another purpose, `src/library_runner.cc:236-261` -/
  | chunk
  /-- some thread gives such a chunk back, `src/library_runner.cc:263-275` -/
  | unchunk (c : Word)
  deriving Repr, DecidableEq

/-- One step, `src/library_runner.cc:195-215`, `:236-283`; `none`: not possible.  If the host has no chunk left it answers
with an error, which ends the process (`src/library_runner.cc:166-176`). -/
def step {σ τ} (R : Rng σ) (H : Records.Rng τ) (s : St σ τ) (a : Act) : Option (St σ τ) :=
  if s.ended then none else
  match a with
  | .acquire t =>
    match s.pc t, s.pool with
    | .bare, x :: xs => some { s with pool := xs, pc := upd s.pc t (.has x) }
    | .bare, [] => some { s with pc := upd s.pc t (.inside s.rng) }
    | _, _ => none
  | .go t =>
    match s.pc t with
    | .inside r =>
      match R.take r with
      | some (x, r') => some { s with rng := r', pc := upd s.pc t (.has x) }
      | none =>
        match H.alloc s.host with
        | (some c, h') => some { s with host := h', pc := upd s.pc t (.asked r c) }
        | (none, h') => some { s with host := h', ended := true }
    | .asked r c => some { s with rng := (R.fill r c).2, pc := upd s.pc t (.has (R.fill r c).1) }
    | _ => none
  | .release t =>
    match s.pc t with
    | .has x => some { s with pool := x :: s.pool, pc := upd s.pc t .bare }
    | _ => none
  | .chunk =>
    match H.alloc s.host with
    | (some c, h') => some { s with host := h', others := upd s.others c true }
    | (none, h') => some { s with host := h', ended := true }
  | .unchunk c =>
    if s.others c then some { s with host := H.free s.host c, others := upd s.others c false } else none

/-- A run (`src/library_runner.cc:195-283`): all steps must be possible. -/
def run {σ τ} (R : Rng σ) (H : Records.Rng τ) (s : St σ τ) : List Act → Option (St σ τ)
  | [] => some s
  | a :: as =>
    match step R H s a with
    | some s' => run R H s' as
    | none => none

/-- The start: no thread has an allocator, and the pool is empty (`src/library_runner.cc:215`, `src/child_malloc.h:151-160`). -/
def start {σ τ} (r : σ) (h : τ) : St σ τ := ⟨r, h, [], fun _ => .bare, fun _ => false, false⟩

end Verif.Pool
