import Verif.ChildHeap.Model

/-!
# Memory requests and signals (model)

A thread of the sandbox asks the host for memory with `requestHostService`.  Signals may interrupt it, and their handlers may
need memory, too: the emulation of a system call copies its arguments to the shared heap.
-/

namespace Verif.SigMem

open Verif.Rpc

/-- Where code is in `requestHostService`, `src/library_runner.cc:142-178`: outside, holding the lock (after `:150`), having
written (after `:152`), in a `read` that a signal has ended with `EINTR` (`:159`), having read. -/
inductive Pc where
  | idle
  | locked (q : Req)
  | sent (q : Req)
  | intr (q : Req)
  | got (q : Req) (r : Resp)
  deriving Repr, DecidableEq

/-- The thread: the code that runs and the code that it has interrupted, the newest first; the lock
(`src/library_runner.cc:149`), the two directions of the socket, the host's state, what the thread was told for
which request, and whether the process has ended (`src/library_runner.cc:160-164`). -/
structure St (σ : Type) where
  pc : Pc
  below : List Pc
  lock : Bool
  toHost : List Req
  fromHost : List Resp
  host : σ
  log : List (Req × Resp)
  dead : Bool

/-- What can happen (`src/library_runner.cc:142-178`). -/
inductive Act where
  /-- the code that runs calls with request `q` and takes the lock, `src/library_runner.cc:149-151` -/
  | enter (q : Req)
  /-- `write`, `src/library_runner.cc:152` -/
  | write
  /-- the host answers, `src/libsandbox.cc:145-251` -/
  | serve
  /-- `read`, `src/library_runner.cc:159` -/
  | read
  /-- the function returns and the lock is released, `src/library_runner.cc:150`, `:177` -/
  | leave
  /-- a signal arrives; the handler was installed with or without `SA_RESTART`
  (`include/process_sandbox/platform/sandbox_seccomp-bpf.h:110`) -/
  | signal (restart : Bool)
  /-- the handler returns, `include/process_sandbox/platform/sandbox_seccomp-bpf.h:112` -/
  | sigret
  deriving Repr, DecidableEq

/-- Where the interrupted code finds itself (`src/library_runner.cc:159`): a `read` that waits ends with `EINTR`, unless the
handler says that it is to begin again.  (If an answer is there the `read` has not been waiting.)  The `write` of 40 bytes
never waits. -/
def interrupted {σ} (s : St σ) (restart : Bool) : Pc :=
  match s.pc, s.fromHost with
  | .sent q, [] => if restart then .sent q else .intr q
  | p, _ => p

/-- One step; `none` when it is not possible (`src/library_runner.cc:142-178`). `answer` is the host's service function.
A thread that finds the lock taken waits (`:150`), also if the lock is its own; a `read` of other than 16 bytes ends the
process (`:160-164`). -/
def step {σ} (answer : σ → Req → Resp × σ) (s : St σ) (a : Act) : Option (St σ) :=
  if s.dead then none
  else match a with
  | .enter q => if s.pc = .idle ∧ s.lock = false then some { s with pc := .locked q, lock := true } else none
  | .write =>
    match s.pc with
    | .locked q => some { s with pc := .sent q, toHost := s.toHost ++ [q] }
    | _ => none
  | .serve =>
    match s.toHost with
    | [] => none
    | q :: qs =>
      some { s with toHost := qs, fromHost := s.fromHost ++ [(answer s.host q).1], host := (answer s.host q).2 }
  | .read =>
    match s.pc, s.fromHost with
    | .sent q, r :: rs => some { s with pc := .got q r, fromHost := rs, log := s.log ++ [(q, r)] }
    | .intr _, _ => some { s with dead := true }
    | _, _ => none
  | .leave =>
    match s.pc with
    | .got _ _ => some { s with pc := .idle, lock := false }
    | _ => none
  | .signal restart => some { s with pc := .idle, below := interrupted s restart :: s.below }
  | .sigret =>
    match s.pc, s.below with
    | .idle, p :: ps => some { s with pc := p, below := ps }
    | _, _ => none

/-- A run; `none` when a step was not possible (`src/library_runner.cc:142-178`). -/
def run {σ} (answer : σ → Req → Resp × σ) (s : St σ) : List Act → Option (St σ)
  | [] => some s
  | a :: as =>
    match step answer s a with
    | some s' => run answer s' as
    | none => none

/-- The beginning (`src/library_runner.cc:149`: the lock is free). -/
def start {σ} (h : σ) : St σ := ⟨.idle, [], false, [], [], h, [], false⟩

end Verif.SigMem
