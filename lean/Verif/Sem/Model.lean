import Verif.Basic

/-!
# The one-bit semaphore (model)

Any number of threads, of any number of processes, wait for and wake one semaphore.  Each step performs
one atomic access to the flag or one system call.
-/

namespace Verif.Sem

/-- Program counter of a thread that uses the semaphore,
`include/process_sandbox/platform/onebitsem_futex.h:39-76`. -/
inductive Pc where
  | idle
  /-- `flag.load()` of the first `try_lock`, line 51 -/
  | load1
  /-- `compare_exchange_strong` of the first `try_lock`, lines 55-56 -/
  | cas1 (f : Nat)
  /-- `futex_op(FUTEX_WAIT, 0, &timeout)`, line 72 -/
  | enter
  /-- asleep in the kernel -/
  | asleep
  /-- `flag.load()` of the second `try_lock`, line 51 -/
  | load2
  /-- `compare_exchange_strong` of the second `try_lock`, lines 55-56 -/
  | cas2 (f : Nat)
  /-- `wait` has returned -/
  | waited (ok : Bool)
  /-- `flag.fetch_add(1)`, line 41 -/
  | add
  /-- `futex_op(FUTEX_WAKE, 1)`, line 46 -/
  | signal
  /-- `wake` has returned -/
  | woke
  deriving Repr, DecidableEq

/-- State: the flag, `include/process_sandbox/platform/onebitsem_futex.h:25`; the threads; whether an
invariant or assertion has failed (lines 42-45 and 54). -/
structure St where
  flag : Nat
  threads : List Pc
  aborted : Bool
  deriving Repr, DecidableEq

/-- What a thread does next, `include/process_sandbox/platform/onebitsem_futex.h:39-76`. -/
inductive Act where
  /-- thread `i` calls `wait` -/
  | startWait (i : Nat)
  /-- thread `i` calls `wake` -/
  | startWake (i : Nat)
  /-- thread `i` takes its next step -/
  | go (i : Nat)
  /-- thread `i` performs `FUTEX_WAKE` and the kernel picks the sleeping thread `j` -/
  | signal (i : Nat) (j : Nat)
  /-- thread `i` performs `FUTEX_WAKE` and nobody sleeps -/
  | signalNone (i : Nat)
  /-- the sleep of thread `i` ends by timeout (or for no reason) -/
  | timeout (i : Nat)
  /-- the sleep of thread `i` is interrupted by a signal (`EINTR`), line 73 -/
  | interrupt (i : Nat)
  deriving Repr, DecidableEq

/-- Set the program counter of thread `i` (`include/process_sandbox/platform/onebitsem_futex.h:39-76`). -/
def St.at (s : St) (i : Nat) (p : Pc) : St := { s with threads := s.threads.set i p }

/-- One step, `include/process_sandbox/platform/onebitsem_futex.h:39-76`.  `dbg`: assertions are compiled
in.  `none`: not enabled.  The flag is a natural number: `int` overflow needs 2^31 signals without a
wait, and the first signal of a set flag aborts.  `FUTEX_WAIT` compares and sleeps atomically, as the
kernel guarantees; the failures other than `EINTR`, `EAGAIN` and `ETIMEDOUT` do not occur for a valid
address. -/
def step (dbg : Bool) (s : St) : Act → Option St
  | .startWait i => if s.threads[i]? = some .idle then some (s.at i .load1) else none
  | .startWake i => if s.threads[i]? = some .idle then some (s.at i .add) else none
  | .go i =>
    if s.aborted then none else
    match s.threads[i]? with
    | some .load1 =>
      if s.flag > 0 then
        if dbg ∧ s.flag ≠ 1 then some { s with aborted := true } else some (s.at i (.cas1 s.flag))
      else some (s.at i .enter)
    | some (.cas1 f) =>
      if s.flag = f then some ({ s with flag := f - 1 }.at i (.waited true))
      else some (s.at i .enter)
    | some .enter => if s.flag = 0 then some (s.at i .asleep) else some (s.at i .load2)
    | some .load2 =>
      if s.flag > 0 then
        if dbg ∧ s.flag ≠ 1 then some { s with aborted := true } else some (s.at i (.cas2 s.flag))
      else some (s.at i (.waited false))
    | some (.cas2 f) =>
      if s.flag = f then some ({ s with flag := f - 1 }.at i (.waited true))
      else some (s.at i (.waited false))
    | some .add =>
      if s.flag = 0 then some ({ s with flag := s.flag + 1 }.at i .signal)
      else some { s with flag := s.flag + 1, aborted := true }
    | some (.waited _) => some (s.at i .idle)
    | some .woke => some (s.at i .idle)
    | _ => none
  | .signal i j =>
    if s.aborted then none
    else if s.threads[i]? = some .signal ∧ s.threads[j]? = some .asleep then
      some ((s.at i .woke).at j .load2)
    else none
  | .signalNone i =>
    if s.aborted then none
    else if s.threads[i]? = some .signal ∧ ∀ p ∈ s.threads, p ≠ .asleep then some (s.at i .woke)
    else none
  | .timeout i => if s.threads[i]? = some .asleep then some (s.at i .load2) else none
  | .interrupt i => if s.threads[i]? = some .asleep then some (s.at i .enter) else none

/-- A run (`include/process_sandbox/platform/onebitsem_futex.h:39-76`): all actions must be enabled. -/
def run (dbg : Bool) (s : St) : List Act → Option St
  | [] => some s
  | a :: as =>
    match step dbg s a with
    | none => none
    | some s' => run dbg s' as

/-- A semaphore with `n` threads that do not use it yet; the header's semaphores start clear
(`include/process_sandbox/shared_memory_region.h:61-65`). -/
def init (n : Nat) : St := ⟨0, List.replicate n .idle, false⟩

end Verif.Sem
