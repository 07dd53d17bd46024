import Verif.Token.Model

/-!
# Signal handlers of the sandboxed library (model)

The filter lets the library install signal handlers and set timers.  A handler may make system calls; those that the
filter traps are emulated by a callback.  The calls of `Verif.Token` are taken together with a signal that arrives at any
point of the sandbox's code, and whose handler runs, with callbacks if it likes, before that code goes on.
-/

namespace Verif.Signals

open Verif.Token

/-- The two processes, and the places at which the sandbox was interrupted, the last one first, each with the number of
callbacks that were suspended then (`src/library_runner.cc:307-475`). -/
structure SSt where
  st : St
  frames : List (CPc × Nat)
  deriving Repr, DecidableEq

/-- What can happen: a step of `Verif.Token` (`src/libsandbox.cc:934-1018`, `src/library_runner.cc:307-475`), the arrival
of a signal that has a handler (`include/process_sandbox/platform/sandbox_seccomp-bpf.h:110-112` allows installing one and
returning from it, and `include/process_sandbox/platform/sandbox_seccomp-bpf.h:130-131` timers; no signal is blocked while
a call is emulated, `src/library_runner.cc:1057-1065`), and the return of the handler. -/
inductive SAct where
  | base (a : Act)
  | signal
  | sigret
  deriving Repr, DecidableEq

/-- Where the sandbox is when a handler starts, having been at the given place: in library code.  The depth of the run
loop around it is kept as for any function (`src/library_runner.cc:307-348`); it is not used before the handler returns. -/
def entry : CPc → Option CPc
  | .run e => some (.run e)
  | .ld => some (.run none)
  | .k2 _ e | .k3 _ e _ | .k4 _ e _ | .rcv _ e => some (.run e)
  | .r0 n | .r1 n | .r2 n | .r3 n _ | .r4 n | .r5 n | .r6 n => some (.run (some n))
  | .exited | .aborted => none

/-- Is the code that runs the body of the newest handler (and not a function called by the host while the handler waits
for a callback)?  It is, if as many callbacks are suspended as when it began (`src/library_runner.cc:446-475`). -/
def inBody (s : SSt) : Bool :=
  match s.frames, s.st.cp with
  | (_, n) :: _, .run _ => s.st.cs.length == n
  | _, _ => false

/-- One step (`src/libsandbox.cc:934-1018`, `src/library_runner.cc:307-475`).  A handler ends by returning to the place
that was interrupted, where the code goes on as if nothing had happened: interrupted waits and receives begin again
(`include/process_sandbox/platform/onebitsem_futex.h:69-72`, `include/process_sandbox/platform/socketpair_posix.h:102-105`).
One thread; that the emulation takes memory for its arguments is left out. -/
def sstep (dbg : Bool) (s : SSt) : SAct → Option (SSt × List Ev)
  | .base a =>
    if a = .ret ∧ inBody s = true then none
    else match step dbg s.st a with
      | none => none
      | some (st, es) => some ({ s with st := st }, es)
  | .signal =>
    if s.st.dead then none
    else match entry s.st.cp with
      | none => none
      | some c => some (⟨{ s.st with cp := c }, (s.st.cp, s.st.cs.length) :: s.frames⟩, [])
  | .sigret =>
    match s.frames with
    | [] => none
    | (c, _) :: fs => if inBody s = true ∧ s.st.dead = false then some (⟨{ s.st with cp := c }, fs⟩, []) else none

/-- A run: all actions must be possible (`src/libsandbox.cc:934-1018`, `src/library_runner.cc:307-475`). -/
def srun (dbg : Bool) (s : SSt) : List SAct → Option (SSt × List Ev)
  | [] => some (s, [])
  | a :: as =>
    match sstep dbg s a with
    | none => none
    | some (s', es) =>
      match srun dbg s' as with
      | none => none
      | some (s'', es') => some (s'', es ++ es')

/-- A fresh sandbox (`src/libsandbox.cc:865-932`). -/
def start : SSt := ⟨init, []⟩

end Verif.Signals
