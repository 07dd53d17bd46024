import Verif.Token.Model

/-!
# The call protocol with several threads on each side (model)

`Verif.Token` has one thread in the host and one in the sandbox.  Here any number of host threads may call into the same
sandbox, and the sandbox may have started threads of its own that make callbacks.  Neither `Library::send`
(`src/libsandbox.cc:934-992`) nor `callback` (`src/library_runner.cc:446-475`) takes a lock, so the steps of all threads
interleave.  Each thread runs the code of `Verif.Token`; the header, the callback socket and the semaphores are shared.
-/

namespace Verif.Threads
open Verif.Token

/-- A thread of the host: its suspended calls and its place in the code (`src/libsandbox.cc:934-1018`). -/
structure Host where
  ps : List (From × Nat)
  pp : PPc
  deriving Repr, DecidableEq

/-- A thread of the sandbox: its suspended callbacks and its place in the code (`src/library_runner.cc:307-475`). -/
structure Kid where
  cs : List (Nat × Option Int)
  cp : CPc
  deriving Repr, DecidableEq

/-- The state: what the two processes share (see `Token.St`, `include/process_sandbox/shared_memory_region.h:31-83`) and
all threads.  Thread 0 of the sandbox is the one that runs the loop of `main` (`src/library_runner.cc:1113-1118`). -/
structure MSt where
  sh : Sh
  reqs : List Nat
  reps : List (Nat × Nat)
  next : Nat
  dead : Bool
  hosts : List Host
  kids : List Kid
  deriving Repr, DecidableEq

/-- A host thread that is outside the protocol (`src/libsandbox.cc:934`). -/
def Host.rest : Host := ⟨[], .user⟩

/-- A thread started by the sandboxed library that is not in a callback (`src/library_runner.cc:446`). -/
def Kid.rest : Kid := ⟨[], .run none⟩

/-- What a host thread sees (`src/libsandbox.cc:934-1018` uses nothing else); the sandbox's part is a dummy. -/
def MSt.hostView (m : MSt) (h : Host) : St :=
  ⟨m.sh, m.reqs, m.reps, m.next, m.dead, h.ps, h.pp, [], .run none⟩

/-- What a thread of the sandbox sees (`src/library_runner.cc:307-475` uses nothing else); the host's part is a dummy. -/
def MSt.kidView (m : MSt) (k : Kid) : St :=
  ⟨m.sh, m.reqs, m.reps, m.next, m.dead, [], .user, k.cs, k.cp⟩

/-- The state after host thread `i` has taken a step (`src/libsandbox.cc:934-1018`). -/
def MSt.hostBack (m : MSt) (i : Nat) (s : St) : MSt :=
  ⟨s.sh, s.reqs, s.reps, s.next, s.dead, m.hosts.set i ⟨s.ps, s.pp⟩, m.kids⟩

/-- The state after thread `j` of the sandbox has taken a step (`src/library_runner.cc:307-475`). -/
def MSt.kidBack (m : MSt) (j : Nat) (s : St) : MSt :=
  ⟨s.sh, s.reqs, s.reps, s.next, s.dead, m.hosts, m.kids.set j ⟨s.cs, s.cp⟩⟩

/-- The actions of a host thread (`src/libsandbox.cc:934-1018`). -/
def isHost : Act → Bool
  | .parent | .call _ | .finish _ | .destroy | .timeout => true
  | _ => false

/-- The actions of a thread of the sandbox that runs the code of the repository (`src/library_runner.cc:307-475`). -/
def isKid : Act → Bool
  | .child | .ask | .ret | .childTimeout => true
  | _ => false

/-- What happens next: a thread of one side takes a step (`src/libsandbox.cc:934-1018`, `src/library_runner.cc:307-475`). -/
inductive MAct where
  | host (i : Nat) (a : Act)
  | kid (j : Nat) (a : Act)
  deriving Repr, DecidableEq

/-- One step (`src/libsandbox.cc:934-1018`, `src/library_runner.cc:307-475`).  A thread that the library started does not
return into the loop of `main`: for it, `ret` exists only inside a function that it runs for the host in its own loop
(`src/library_runner.cc:463`). -/
def mstep (dbg : Bool) (m : MSt) : MAct → Option (MSt × List Ev)
  | .host i a =>
    match m.hosts[i]? with
    | none => none
    | some h =>
      if isHost a then
        match step dbg (m.hostView h) a with
        | none => none
        | some (s, es) => some (m.hostBack i s, es)
      else none
  | .kid j a =>
    match m.kids[j]? with
    | none => none
    | some k =>
      if isKid a && !(decide (j ≠ 0) && decide (a = .ret) && decide (k.cp = .run none)) then
        match step dbg (m.kidView k) a with
        | none => none
        | some (s, es) => some (m.kidBack j s, es)
      else none

/-- A fresh sandbox, `h` other host threads, and `k` threads that the library will use (`src/libsandbox.cc:865-932`). -/
def minit (h k : Nat) : MSt :=
  ⟨init.sh, [], [], 0, false, List.replicate (h + 1) Host.rest, Kid.rest :: List.replicate k Kid.rest⟩

/-- A run: all actions must be enabled (`src/libsandbox.cc:934-1018`, `src/library_runner.cc:307-475`). -/
def mrun (dbg : Bool) (m : MSt) : List MAct → Option (MSt × List Ev)
  | [] => some (m, [])
  | a :: as =>
    match mstep dbg m a with
    | none => none
    | some (m', es) =>
      match mrun dbg m' as with
      | none => none
      | some (m'', es') => some (m'', es ++ es')

end Verif.Threads
