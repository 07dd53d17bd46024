import Verif.Basic

/-!
# The call protocol (model)

Two processes, the host (parent) and the sandbox (child), pass control to and fro through the header
of the shared region.  Each step of the model performs at most one access to the shared region or to
the callback socket, except where noted, so that all interleavings of the two processes are covered.
-/

namespace Verif.Token

/-- The part of the shared header used by the protocol,
`include/process_sandbox/shared_memory_region.h:31-83`.  `child` and `parent` are the values of the two
one-bit semaphores.  `msg` stands for the pair `function_index`, `msg_buffer`: `none` if the buffer is
null, otherwise a number that identifies the call. -/
structure Sh where
  child : Nat
  parent : Nat
  depth : Int
  executing : Bool
  loaded : Bool
  shouldExit : Bool
  msg : Option Nat
  deriving Repr, DecidableEq

/-- Where a callback was handled: in the loading loop of a first call (`src/libsandbox.cc:940-955`,
with the call that is waiting), or in the main loop of a call (`src/libsandbox.cc:970-991`, with the
saved callback depth). -/
inductive From where
  | load (x : Nat)
  | send (d : Int)
  deriving Repr, DecidableEq

/-- Program counter of the host: `Library::send`, `src/libsandbox.cc:934-992`, and
`Library::wait_for_child_exit`, `src/libsandbox.cc:1006-1018`. -/
inductive PPc where
  /-- code outside the protocol: the caller, or (if a frame is on the stack) a callback handler -/
  | user
  /-- `while (!is_child_loaded)`, line 940 -/
  | s0 (x : Nat)
  /-- `callback_depth > 0`, line 942 -/
  | l1 (x : Nat)
  /-- `parent.wait(INT_MAX)`, line 944 -/
  | l2 (x : Nat)
  /-- `callback_dispatcher->handle`, line 945 -/
  | l3 (x : Nat)
  /-- `callback_depth--`, line 946 -/
  | l4 (x : Nat)
  /-- `is_child_executing = true`, line 947 -/
  | l5 (x : Nat)
  /-- `child.wake()`, line 948 -/
  | l6 (x : Nat)
  /-- `callback_depth.load()`, line 956 -/
  | a1 (x : Nat)
  /-- `function_index = idx; msg_buffer = ptr`, lines 957-958 -/
  | a2 (x : Nat) (d : Int)
  /-- `assert(!is_child_executing)`, line 959 -/
  | a3 (d : Int)
  /-- `is_child_executing = true`, line 960 -/
  | a4 (d : Int)
  /-- `child.wake()`, line 961 -/
  | a5 (d : Int)
  /-- `while (!parent.wait(100))`, lines 971-977 -/
  | w (d : Int)
  /-- `callback_depth.load() > callback_depth`, line 983 -/
  | c1 (d : Int)
  /-- `callback_dispatcher->handle`, line 985 -/
  | h1 (d : Int)
  /-- `callback_depth--`, line 986 -/
  | h3 (d : Int)
  /-- `is_child_executing = true`, line 987 -/
  | h4 (d : Int)
  /-- `child.wake()`, line 988 -/
  | h5 (d : Int)
  /-- `should_exit = true`, line 1013 -/
  | d1
  /-- `assert(!is_child_executing)`, line 1014 -/
  | d2
  /-- `is_child_executing = true`, line 1015 -/
  | d3
  /-- `child.wake()`, line 1016 -/
  | d4
  /-- `wait_for_exit`, line 1017 -/
  | gone
  /-- the process was aborted by an assertion or invariant -/
  | aborted
  deriving Repr, DecidableEq

/-- Program counter of the sandbox: `runloop`, `src/library_runner.cc:307-348`, and `callback`,
`src/library_runner.cc:446-475`.  `e` tells in which run loop the calling function runs (`none`: the
loader). -/
inductive CPc where
  /-- code of the sandboxed library, or (`none`) the loader -/
  | run (e : Option Int)
  /-- `is_child_loaded = true`, line 1116 -/
  | ld
  /-- `++callback_depth`, line 460 -/
  | k2 (id : Nat) (e : Option Int)
  /-- `is_child_executing = false`, line 461 -/
  | k3 (id : Nat) (e : Option Int) (n : Int)
  /-- `parent.wake()`, line 462 -/
  | k4 (id : Nat) (e : Option Int) (n : Int)
  /-- `should_exit`, line 316 -/
  | r0 (n : Int)
  /-- `child.wait(INT_MAX)`, line 320 -/
  | r1 (n : Int)
  /-- read `is_child_executing`, `function_index`, `msg_buffer` and clear it, lines 321-326 -/
  | r2 (n : Int)
  /-- `if (buf != nullptr)`, line 329 -/
  | r3 (n : Int) (buf : Option Nat)
  /-- `new_depth = callback_depth`, line 337 -/
  | r4 (n : Int)
  /-- `is_child_executing = false`, line 344 -/
  | r5 (n : Int)
  /-- `parent.wake()`, line 345 -/
  | r6 (n : Int)
  /-- `blocking_receive(response, in_fd)`, line 466 -/
  | rcv (id : Nat) (e : Option Int)
  | exited
  | aborted
  deriving Repr, DecidableEq

/-- State of the system: the shared header; the two directions of the callback socket (requests, and
replies tagged with the request they answer); a counter that numbers requests; whether the sandbox
process is dead; suspended calls of the host with the request each is handling; suspended callbacks of
the sandbox (`src/libsandbox.cc:934-992`, `src/library_runner.cc:307-475`). -/
structure St where
  sh : Sh
  reqs : List Nat
  reps : List (Nat × Nat)
  next : Nat
  dead : Bool
  ps : List (From × Nat)
  pp : PPc
  cs : List (Nat × Option Int)
  cp : CPc
  deriving Repr, DecidableEq

/-- Observable events, in program order of the lines cited at `PPc` and `CPc`
(`src/libsandbox.cc:934-992`, `src/library_runner.cc:307-475`). -/
inductive Ev where
  /-- the sandbox has finished loading -/
  | loaded
  /-- the host makes call `x` -/
  | enter (x : Nat)
  /-- the sandbox starts the function of call `x` -/
  | begin (x : Nat)
  /-- the function returns -/
  | done
  /-- the call returns to its caller in the host -/
  | leave
  /-- the sandbox makes callback `id` -/
  | ask (id : Nat)
  /-- the host starts handling callback `id` -/
  | serve (id : Nat)
  /-- the host answers callback `id` with `v` -/
  | answer (id : Nat) (v : Nat)
  /-- callback `id` returns in the sandbox with the reply `v` made for request `id'` -/
  | got (id id' v : Nat)
  /-- a call raises `std::runtime_error`, line 975 -/
  | raised
  deriving Repr, DecidableEq

/-- What can happen next (all interleavings of `src/libsandbox.cc:934-1018` and
`src/library_runner.cc:307-475`). -/
inductive Act where
  /-- the host takes its next step -/
  | parent
  /-- host code outside the protocol makes a call -/
  | call (x : Nat)
  /-- a callback handler returns `v` -/
  | finish (v : Nat)
  /-- the caller destroys the sandbox -/
  | destroy
  /-- the timed wait of the host gives up after 100 ms -/
  | timeout
  /-- the sandbox takes its next step -/
  | child
  /-- the sandboxed library (or the loader) makes a callback -/
  | ask
  /-- the function running in the sandbox returns (or the loader finishes) -/
  | ret
  /-- the sandbox's wait returns without success -/
  | childTimeout
  /-- the sandbox process dies -/
  | crash
  /-- a hostile sandbox overwrites the header -/
  | write (sh : Sh)
  /-- a hostile sandbox sends a callback request of its own accord -/
  | inject (id : Nat)
  deriving Repr, DecidableEq

/-- `OneBitSem::wake` on the child's semaphore, `include/process_sandbox/platform/onebitsem_futex.h:39-47`:
aborts if it was set. -/
def wakeChild (s : St) (pp : PPc) : St :=
  if s.sh.child = 0 then { s with sh := { s.sh with child := 1 }, pp := pp }
  else { s with pp := .aborted }

/-- `OneBitSem::wake` on the parent's semaphore,
`include/process_sandbox/platform/onebitsem_futex.h:39-47`. -/
def wakeParent (s : St) (cp : CPc) : St :=
  if s.sh.parent = 0 then { s with sh := { s.sh with parent := 1 }, cp := cp }
  else { s with cp := .aborted }

/-- Receive the next callback request, `CallbackDispatcher::handle`, `src/libsandbox.cc:661-670`; the
handler then runs as user code. If there is no request, `handle` returns at once. -/
def startHandler (s : St) (f : From) (skip : PPc) : St × List Ev :=
  match s.reqs with
  | [] => ({ s with pp := skip }, [])
  | id :: rs => ({ s with reqs := rs, ps := (f, id) :: s.ps, pp := .user }, [.serve id])

/-- The host's next step, `src/libsandbox.cc:934-1018`.  `dbg` tells whether assertions are compiled
in.  `none`: blocked or in code outside the protocol.  A wait that blocks is modelled as a step that is
enabled when the semaphore is set (see `Verif.Sem`); the loading loop's wait of `INT_MAX` ms is taken
never to time out. -/
def parentStep (dbg : Bool) (s : St) : Option (St × List Ev) :=
  match s.pp with
  | .user => none
  | .s0 x => some ({ s with pp := if s.sh.loaded then .a1 x else .l1 x }, [])
  | .l1 x => some ({ s with pp := if s.sh.depth > 0 then .l2 x else .s0 x }, [])
  | .l2 x =>
    if s.sh.parent = 0 then none
    else if dbg ∧ s.sh.parent ≠ 1 then some ({ s with pp := .aborted }, [])
    else some ({ s with sh := { s.sh with parent := s.sh.parent - 1 }, pp := .l3 x }, [])
  | .l3 x => some (startHandler s (.load x) (.l4 x))
  | .l4 x => some ({ s with sh := { s.sh with depth := s.sh.depth - 1 }, pp := .l5 x }, [])
  | .l5 x => some ({ s with sh := { s.sh with executing := true }, pp := .l6 x }, [])
  | .l6 x => some (wakeChild s (.s0 x), [])
  | .a1 x => some ({ s with pp := .a2 x s.sh.depth }, [])
  | .a2 x d => some ({ s with sh := { s.sh with msg := some x }, pp := .a3 d }, [.enter x])
  | .a3 d => some ({ s with pp := if dbg ∧ s.sh.executing then .aborted else .a4 d }, [])
  | .a4 d => some ({ s with sh := { s.sh with executing := true }, pp := .a5 d }, [])
  | .a5 d => some (wakeChild s (.w d), [])
  | .w d =>
    if s.sh.parent = 0 then none
    else if dbg ∧ s.sh.parent ≠ 1 then some ({ s with pp := .aborted }, [])
    else some ({ s with sh := { s.sh with parent := s.sh.parent - 1 }, pp := .c1 d }, [])
  | .c1 d =>
    if s.sh.depth > d then some ({ s with pp := .h1 d }, []) else some ({ s with pp := .user }, [.leave])
  | .h1 d => some (startHandler s (.send d) (.h3 d))
  | .h3 d => some ({ s with sh := { s.sh with depth := s.sh.depth - 1 }, pp := .h4 d }, [])
  | .h4 d => some ({ s with sh := { s.sh with executing := true }, pp := .h5 d }, [])
  | .h5 d => some (wakeChild s (.w d), [])
  | .d1 => some ({ s with sh := { s.sh with shouldExit := true }, pp := .d2 }, [])
  | .d2 => some ({ s with pp := if dbg ∧ s.sh.executing then .aborted else .d3 }, [])
  | .d3 => some ({ s with sh := { s.sh with executing := true }, pp := .d4 }, [])
  | .d4 => some (wakeChild s .gone, [])
  | .gone => none
  | .aborted => none

/-- The sandbox's next step, `src/library_runner.cc:307-475`, for a sandbox that runs the code of the
repository.  `none`: blocked, ended, or in library code. -/
def childStep (dbg : Bool) (s : St) : Option (St × List Ev) :=
  match s.cp with
  | .run _ => none
  | .ld => some ({ s with sh := { s.sh with loaded := true }, cp := .r0 0 }, [.loaded])
  | .k2 id e =>
    some ({ s with sh := { s.sh with depth := s.sh.depth + 1 }, cp := .k3 id e (s.sh.depth + 1) }, [])
  | .k3 id e n => some ({ s with sh := { s.sh with executing := false }, cp := .k4 id e n }, [])
  | .k4 id e n => some (wakeParent { s with cs := (id, e) :: s.cs } (.r0 n), [])
  | .r0 n => some ({ s with cp := if s.sh.shouldExit then .exited else .r1 n }, [])
  | .r1 n =>
    if s.sh.child = 0 then none
    else if dbg ∧ s.sh.child ≠ 1 then some ({ s with cp := .aborted }, [])
    else some ({ s with sh := { s.sh with child := s.sh.child - 1 }, cp := .r2 n }, [])
  | .r2 n =>
    if dbg ∧ ¬ s.sh.executing then some ({ s with cp := .aborted }, [])
    else some ({ s with sh := { s.sh with msg := none }, cp := .r3 n s.sh.msg }, [])
  | .r3 n (some x) => some ({ s with cp := .run (some n) }, [.begin x])
  | .r3 n none => some ({ s with cp := .r4 n }, [])
  | .r4 n =>
    if s.sh.depth = n then some ({ s with cp := .r5 n }, [])
    else match s.cs with
      | (id, e) :: cs => some ({ s with cs := cs, cp := .rcv id e }, [])
      | [] => some ({ s with cp := .exited }, [])
  | .r5 n => some ({ s with sh := { s.sh with executing := false }, cp := .r6 n }, [])
  | .r6 n => some (wakeParent s (.r0 n), [])
  | .rcv id e =>
    match s.reps with
    | [] => none
    | (id', v) :: rs => some ({ s with reps := rs, cp := .run e }, [.got id id' v])
  | .exited => none
  | .aborted => none

/-- One step of the system (`src/libsandbox.cc:934-1018`, `src/library_runner.cc:307-475`).
* A call that raises unwinds all suspended calls (`src/libsandbox.cc:975`): handlers are taken not to
  catch the exception.
* `ret` of the loader: `is_child_executing = false`, `src/library_runner.cc:1115`.
* A dead sandbox takes no steps. -/
def step (dbg : Bool) (s : St) : Act → Option (St × List Ev)
  | .parent => parentStep dbg s
  | .call x => if s.pp = .user then some ({ s with pp := .s0 x }, []) else none
  | .finish v =>
    match s.pp, s.ps with
    | .user, (f, id) :: ps =>
      some ({ s with
        reps := s.reps ++ [(id, v)]
        ps := ps
        pp := match f with
          | .load x => .l4 x
          | .send d => .h3 d }, [.answer id v])
    | _, _ => none
  | .destroy =>
    if s.pp = .user ∧ s.ps = [] then some ({ s with pp := if s.dead then .gone else .d1 }, []) else none
  | .timeout =>
    match s.pp with
    | .w _ => if s.dead then some ({ s with ps := [], pp := .user }, [.raised]) else some (s, [])
    | _ => none
  | .child => if s.dead then none else childStep dbg s
  | .ask =>
    match s.cp with
    | .run e =>
      if s.dead then none
      else some ({ s with reqs := s.reqs ++ [s.next], next := s.next + 1, cp := .k2 s.next e },
        [.ask s.next])
    | _ => none
  | .ret =>
    match s.cp with
    | .run none =>
      if s.dead then none else some ({ s with sh := { s.sh with executing := false }, cp := .ld }, [])
    | .run (some n) => if s.dead then none else some ({ s with cp := .r4 n }, [.done])
    | _ => none
  | .childTimeout =>
    match s.cp with
    | .r1 n => if s.dead then none else some ({ s with cp := .r0 n }, [])
    | _ => none
  | .crash => some ({ s with dead := true }, [])
  | .write sh => if s.dead then none else some ({ s with sh := sh }, [])
  | .inject id => if s.dead then none else some ({ s with reqs := s.reqs ++ [id] }, [])

/-- A fresh sandbox (`src/libsandbox.cc:865-932`; initial values at
`include/process_sandbox/shared_memory_region.h:31-83`). -/
def init : St where
  sh := ⟨0, 0, 0, false, false, false, none⟩
  reqs := []
  reps := []
  next := 0
  dead := false
  ps := []
  pp := .user
  cs := []
  cp := .run none

/-- A run: all actions must be enabled (`src/libsandbox.cc:934-1018`,
`src/library_runner.cc:307-475`). -/
def run (dbg : Bool) (s : St) : List Act → Option (St × List Ev)
  | [] => some (s, [])
  | a :: as =>
    match step dbg s a with
    | none => none
    | some (s', es) =>
      match run dbg s' as with
      | none => none
      | some (s'', es') => some (s'', es ++ es')

end Verif.Token
