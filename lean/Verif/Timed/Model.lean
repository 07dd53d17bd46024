/-!
# How long the host waits (model)

A call waits for the semaphore for a tenth of a second at a time and then looks whether the sandbox is still there.  The
thread of the host that waits receives signals, for which the program of the host has handlers.  Nobody sets the
semaphore: what happens then is in `Verif.Sem` and `Verif.Umtx`.  Times are in milliseconds.
-/

namespace Verif.Timed

/-- A sleep in the kernel that begins at `t` and may last `n`: it ends at the first signal (`sig`), and then it is said to be
interrupted (`EINTR`), or at `t + n`.  What `futex_op(FUTEX_WAIT, 0, &timeout)` and
`_umtx_op(&sem, UMTX_OP_SEM2_WAIT, …)` do, `include/process_sandbox/platform/onebitsem_futex.h:72`,
`include/process_sandbox/platform/onebitsem_umtx.h:89-94`, while the semaphore is not set. -/
def sleep (sig : Nat → Bool) (t : Nat) : Nat → Nat × Bool
  | 0 => (t, false)
  | n + 1 => if sig (t + 1) then (t + 1, true) else sleep sig (t + 1) n

/-- `FutexOneBitSem::wait`, `include/process_sandbox/platform/onebitsem_futex.h:48-76`, on a semaphore that is not
set, from time `t`: when it returns `false`; `none`: it has not returned after `calls` system calls.  A call that was
interrupted is made again with the same timeout, `:65-73`. -/
def futexWait (sig : Nat → Bool) (timeout : Nat) : (calls : Nat) → Nat → Option Nat
  | 0, _ => none
  | calls + 1, t =>
    match sleep sig t timeout with
    | (e, true) => futexWait sig timeout calls e
    | (e, false) => some e

/-- `UMtxOneBitSem::wait`, `include/process_sandbox/platform/onebitsem_umtx.h:56-99`, likewise.  The call is made again
with the time that remains, which the kernel stores in `timeout.remainder`, `:95`. -/
def umtxWait (sig : Nat → Bool) : (calls : Nat) → (timeout : Nat) → Nat → Option Nat
  | 0, _, _ => none
  | calls + 1, timeout, t =>
    match sleep sig t timeout with
    | (e, true) => umtxWait sig calls (t + timeout - e) e
    | (e, false) => some e

/-- The timeout of `send`, `src/libsandbox.cc:971`. -/
def sendTimeout : Nat := 100

/-- `while (!shared_mem->token.parent.wait(100)) { if (has_child_exited()) throw … }`, `src/libsandbox.cc:971-977`: when
the exception is thrown; `none`: not after `turns` turns, or the wait has not returned.  `exited` is what
`has_child_exited`, `:992-995`, answers at a time. -/
def callerTold (wait : Nat → Option Nat) (exited : Nat → Bool) : (turns : Nat) → Nat → Option Nat
  | 0, _ => none
  | turns + 1, t =>
    match wait t with
    | none => none
    | some e => if exited e then some e else callerTold wait exited turns e

end Verif.Timed
