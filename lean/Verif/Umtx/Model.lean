import Verif.Basic

/-!
# The one-bit semaphore of FreeBSD (model)

Any number of threads, of any number of processes, wait for and wake one semaphore.  Each step performs
one atomic access to the word or one step of the kernel.

The kernel's side is not in the repository.  What is assumed of it (`_umtx_op(2)`, the `SEM2` operations):
waiting checks the count and, if it is zero, sets the mark "has waiters" and puts the thread in the queue,
in one step; waking clears the mark if exactly one thread is in the queue, and then takes one thread out of
the queue; between these two steps of a waker no other thread begins to wait or to wake (the queue is
"busy"), but threads may leave the queue because their time is over or a signal arrived, and programs may
access the word.  A thread that leaves the queue in that way leaves the mark as it is.
-/

namespace Verif.Umtx

/-- The word `count`, `include/process_sandbox/platform/onebitsem_umtx.h:20-27`: the value (`USEM_COUNT`,
the low 31 bits) and the mark "has waiters" (`USEM_HAS_WAITERS`, the top bit).  The value is a natural
number: to overflow into the mark it would take 2^31 signals without a wait, and the second one aborts. -/
structure Count where
  value : Nat
  waiters : Bool
  deriving Repr, DecidableEq

/-- Program counter of a thread that uses the semaphore,
`include/process_sandbox/platform/onebitsem_umtx.h:43-98`. -/
inductive Pc where
  | idle
  /-- `sem.count.load()` of the first `try_lock`, line 59 -/
  | load1
  /-- `compare_exchange_strong` of the first `try_lock`, lines 63-67 -/
  | cas1 (f : Count)
  /-- `_umtx_op(UMTX_OP_SEM2_WAIT)`, lines 89-94 -/
  | enter
  /-- in the queue of the kernel -/
  | asleep
  /-- `sem.count.load()` of the second `try_lock`, line 59 -/
  | load2
  /-- `compare_exchange_strong` of the second `try_lock`, lines 63-67 -/
  | cas2 (f : Count)
  /-- `wait` has returned -/
  | waited (ok : Bool)
  /-- `sem.count.fetch_add(1)`, line 45 -/
  | add
  /-- `_umtx_op(UMTX_OP_SEM2_WAKE)`, line 52, before it looks at the queue -/
  | signal
  /-- `_umtx_op(UMTX_OP_SEM2_WAKE)`, about to take a thread out of the queue -/
  | pick
  /-- `wake` has returned -/
  | woke
  deriving Repr, DecidableEq

/-- State: the word, `include/process_sandbox/platform/onebitsem_umtx.h:27`; the threads; whether an
invariant or assertion has failed (lines 46-49 and 62). -/
structure St where
  word : Count
  threads : List Pc
  aborted : Bool
  deriving Repr, DecidableEq

/-- What a thread does next, `include/process_sandbox/platform/onebitsem_umtx.h:43-98`. -/
inductive Act where
  /-- thread `i` calls `wait` -/
  | startWait (i : Nat)
  /-- thread `i` calls `wake` -/
  | startWake (i : Nat)
  /-- thread `i` takes its next step -/
  | go (i : Nat)
  /-- thread `i`, in the kernel, takes the thread `j` out of the queue -/
  | pick (i : Nat) (j : Nat)
  /-- thread `i`, in the kernel, finds the queue empty -/
  | pickNone (i : Nat)
  /-- the sleep of thread `i` ends by timeout -/
  | timeout (i : Nat)
  /-- the sleep of thread `i` is interrupted by a signal (`EINTR`), line 96 -/
  | interrupt (i : Nat)
  deriving Repr, DecidableEq

/-- Set the program counter of thread `i` (`include/process_sandbox/platform/onebitsem_umtx.h:43-98`). -/
def St.at (s : St) (i : Nat) (p : Pc) : St := { s with threads := s.threads.set i p }

/-- Whether a waker is inside the kernel (`include/process_sandbox/platform/onebitsem_umtx.h:52`): the queue
is busy. -/
def St.busy (s : St) : Bool := s.threads.contains .pick

/-- Clear the mark if exactly one thread is in the queue
(`include/process_sandbox/platform/onebitsem_umtx.h:52`, in the kernel). -/
def St.unmark (s : St) : Count :=
  if s.threads.count .asleep = 1 then { s.word with waiters := false } else s.word

/-- One step, `include/process_sandbox/platform/onebitsem_umtx.h:43-98`.  `dbg`: assertions are compiled in.
`none`: not enabled.  `_umtx_op` fails only with `EINTR` or `ETIMEDOUT` (a valid address, and a time that is
not negative). -/
def step (dbg : Bool) (s : St) : Act → Option St
  | .startWait i => if s.threads[i]? = some .idle then some (s.at i .load1) else none
  | .startWake i => if s.threads[i]? = some .idle then some (s.at i .add) else none
  | .go i =>
    if s.aborted then none else
    match s.threads[i]? with
    | some .load1 =>
      if s.word.value > 0 then
        if dbg ∧ s.word.value ≠ 1 then some { s with aborted := true } else some (s.at i (.cas1 s.word))
      else some (s.at i .enter)
    | some (.cas1 f) =>
      if s.word = f then some ({ s with word := ⟨f.value - 1, f.waiters⟩ }.at i (.waited true))
      else some (s.at i .enter)
    | some .enter =>
      if s.busy then none
      else if s.word.value = 0 then some ({ s with word := ⟨0, true⟩ }.at i .asleep)
      else some (s.at i .load2)
    | some .load2 =>
      if s.word.value > 0 then
        if dbg ∧ s.word.value ≠ 1 then some { s with aborted := true } else some (s.at i (.cas2 s.word))
      else some (s.at i (.waited false))
    | some (.cas2 f) =>
      if s.word = f then some ({ s with word := ⟨f.value - 1, f.waiters⟩ }.at i (.waited true))
      else some (s.at i (.waited false))
    | some .add =>
      if s.word.value = 0 then
        some ({ s with word := ⟨1, s.word.waiters⟩ }.at i (if s.word.waiters then .signal else .woke))
      else some { s with word := ⟨s.word.value + 1, s.word.waiters⟩, aborted := true }
    | some .signal =>
      if s.busy then none
      else if s.threads.count .asleep = 0 then some (s.at i .woke)
      else some ({ s with word := s.unmark }.at i .pick)
    | some (.waited _) => some (s.at i .idle)
    | some .woke => some (s.at i .idle)
    | _ => none
  | .pick i j =>
    if s.aborted then none
    else if s.threads[i]? = some .pick ∧ s.threads[j]? = some .asleep then
      some ((s.at i .woke).at j .load2)
    else none
  | .pickNone i =>
    if s.aborted then none
    else if s.threads[i]? = some .pick ∧ s.threads.count .asleep = 0 then some (s.at i .woke)
    else none
  | .timeout i => if s.threads[i]? = some .asleep then some (s.at i .load2) else none
  | .interrupt i => if s.threads[i]? = some .asleep then some (s.at i .enter) else none

/-- A run (`include/process_sandbox/platform/onebitsem_umtx.h:43-98`): all actions must be enabled. -/
def run (dbg : Bool) (s : St) : List Act → Option St
  | [] => some s
  | a :: as =>
    match step dbg s a with
    | none => none
    | some s' => run dbg s' as

/-- A semaphore with `n` threads that do not use it yet; the header's semaphores start clear
(`include/process_sandbox/shared_memory_region.h:61-65`,
`include/process_sandbox/platform/onebitsem_umtx.h:38-42`). -/
def init (n : Nat) : St := ⟨⟨0, false⟩, List.replicate n .idle, false⟩

end Verif.Umtx
