import Verif.ChildHeap.Model

/-!
# Memory requests of several threads of the sandbox (model)

`requestHostService` can be called by any thread of the sandbox.  All use one socket; a lock is held from before the
request is written until after the answer is read.
-/

namespace Verif.ChildHeap.Threads

open Verif.Rpc

/-- Where a thread is in `requestHostService`, `src/library_runner.cc:142-178`: outside, holding the lock (after
`:150`), having written (after `:152`), having read (after `:159`). -/
inductive Pc where
  | idle
  | locked (q : Req)
  | sent (q : Req)
  | got (q : Req) (r : Resp)
  deriving Repr, DecidableEq

/-- The threads, the lock (`src/library_runner.cc:149`), the two directions of the socket, and the host's state
`s`.  `log` records what each thread was told, for which request, in the order of reading. -/
structure St (σ : Type) where
  pc : Nat → Pc
  lock : Bool
  toHost : List Req
  fromHost : List Resp
  host : σ
  log : List (Nat × Req × Resp)

/-- A step: by a thread in `requestHostService` (`src/library_runner.cc:142-178`), or by the host's service thread. -/
inductive Act where
  /-- thread `t` calls with request `q` and takes the lock, `src/library_runner.cc:149-151` -/
  | enter (t : Nat) (q : Req)
  /-- `write`, `src/library_runner.cc:152` -/
  | write (t : Nat)
  /-- the host answers the first waiting request, `src/libsandbox.cc:145-251` -/
  | serve
  /-- `read`, `src/library_runner.cc:159` -/
  | read (t : Nat)
  /-- the function returns and the lock is released, `src/library_runner.cc:150`, `:177` -/
  | leave (t : Nat)
  deriving Repr, DecidableEq

/-- Change where thread `t` is (bookkeeping; `src/library_runner.cc:142-178`). -/
def St.goto {σ} (s : St σ) (t : Nat) (p : Pc) : Nat → Pc := fun u => if u = t then p else s.pc u

/-- One step; `none` when it is not possible.  `answer` is the host's service function (`Verif.Rpc.serve`). Messages
stay whole and in order, as on a `SOCK_SEQPACKET` or stream socket with requests of fixed size.  A thread that finds
the lock taken waits (`src/library_runner.cc:150`), one that finds no answer waits (`:159`). -/
def step {σ} (answer : σ → Req → Resp × σ) (s : St σ) : Act → Option (St σ)
  | .enter t q =>
    if s.pc t = .idle ∧ s.lock = false then some { s with pc := s.goto t (.locked q), lock := true } else none
  | .write t =>
    match s.pc t with
    | .locked q => some { s with pc := s.goto t (.sent q), toHost := s.toHost ++ [q] }
    | _ => none
  | .serve =>
    match s.toHost with
    | [] => none
    | q :: qs =>
      some { s with toHost := qs, fromHost := s.fromHost ++ [(answer s.host q).1], host := (answer s.host q).2 }
  | .read t =>
    match s.pc t, s.fromHost with
    | .sent q, r :: rs => some { s with pc := s.goto t (.got q r), fromHost := rs, log := s.log ++ [(t, q, r)] }
    | _, _ => none
  | .leave t =>
    match s.pc t with
    | .got _ _ => some { s with pc := s.goto t .idle, lock := false }
    | _ => none

/-- A run; `none` when a step was not possible (`src/library_runner.cc:142-178`). -/
def run {σ} (answer : σ → Req → Resp × σ) (s : St σ) : List Act → Option (St σ)
  | [] => some s
  | a :: as =>
    match step answer s a with
    | some s' => run answer s' as
    | none => none

/-- The start: no thread is inside and nothing is under way (`src/library_runner.cc:149`). -/
def start {σ} (host : σ) : St σ := ⟨fun _ => .idle, false, [], [], host, []⟩

end Verif.ChildHeap.Threads
