import Verif.Child.Model

/-!
# Several children of one host on FreeBSD (model)

As `Verif.Family`, for the handle with a process descriptor, `include/process_sandbox/platform/child_process_pdfork.h:20-127`.  A
process is named by a descriptor of the host, and its end is learnt from a kernel queue, which is a descriptor too; the
numbers of descriptors are used again.  One thread.
-/

namespace Verif.BsdFamily
open Verif.Child (ExitStatus KAns Result)

/-- What a descriptor of the host stands for (`include/process_sandbox/platform/child_process_pdfork.h:32-37`): the process of
sandbox `i`; a kernel queue that waits for the end of the process of a sandbox, or for nothing; something else. -/
inductive Obj where
  | proc (i : Nat)
  | queue (watch : Option Nat)
  | other
  deriving Repr, DecidableEq

/-- The members of the handle, `include/process_sandbox/platform/child_process_pdfork.h:32-42`. -/
structure Hdl where
  kq : Int
  pd : Int
  status : ExitStatus
  deriving Repr, DecidableEq

/-- What can be seen of the host (`include/process_sandbox/platform/child_process_pdfork.h:44-126`). -/
inductive Event where
  /-- a query about sandbox `i` gave `e` -/
  | said (i : Nat) (e : ExitStatus)
  /-- sandbox `i` was to be terminated or destroyed, and that killed the process of sandbox `who` -/
  | killed (i who : Nat)
  deriving Repr, DecidableEq

/-- The state: the descriptors of the host; the handles of the sandboxes, `none` for one that is destroyed
(`include/process_sandbox/sandbox.h:529`); the process of each sandbox (`none`: there is none; `some none`: it runs; otherwise its
status word); whether the host has ended by `err(1, ...)`
(`include/process_sandbox/platform/child_process_pdfork.h:57-60`, `:96-99`); what was seen, last first. -/
structure St where
  fds : Int → Option Obj := fun _ => none
  handles : List (Option Hdl) := []
  life : Nat → Option (Option Nat) := fun _ => none
  over : Bool := false
  log : List Event := []

/-- What happens next (`include/process_sandbox/platform/child_process_pdfork.h:76-126`, `src/libsandbox.cc:757-759`, `:993-1018`).
`k`: how often the call is interrupted. -/
inductive Act where
  /-- a sandbox is made; `pd`: the descriptor that `pdfork` gives, `none` if it fails; `g`: what the variable for it held before;
  `q`: what `kqueue` gives -/
  | make (pd : Option Int) (g : Int) (q : Option Int)
  /-- the host program opens something -/
  | opens (f : Int)
  /-- the host program closes a descriptor -/
  | closes (f : Int)
  /-- the process of a sandbox ends -/
  | ends (p st : Nat)
  /-- `exit_status` (`block` false) or `wait_for_exit` for sandbox `i` -/
  | query (i k : Nat) (block : Bool)
  /-- `Library::terminate` -/
  | term (i k : Nat)
  /-- the destructor of `Library`, at the moment when the wait in it comes to its end -/
  | destroy (i k : Nat)
  deriving Repr, DecidableEq

/-- `f` with another value at `x` (used for the tables of the state, `include/process_sandbox/platform/child_process_pdfork.h:32-42`). -/
def upd {α β : Type} [DecidableEq α] (f : α → β) (x : α) (v : β) : α → β := fun y => if y = x then v else f y

/-- `kevent(2)` on a queue, called at `include/process_sandbox/platform/child_process_pdfork.h:55`: an end that the queue waits for is
reported once.  `none`: it blocks. -/
def kevent (s : St) (q : Int) (block : Bool) : Option (KAns × St) :=
  match s.fds q with
  | some (.queue w) =>
    match w.bind s.life with
    | some (some st) => some (.events 1 st, { s with fds := upd s.fds q (some (.queue none)) })
    | _ => if block then none else some (.events 0 0, s)
  | _ => some (.failed, s)

/-- A query about sandbox `i`, `include/process_sandbox/platform/child_process_pdfork.h:44-66`, with the kernel's answer: the result
(`none` if the host ends) and the state after it. -/
def ask (s : St) (i k : Nat) (block : Bool) : Option (Option ExitStatus × St) :=
  match s.handles[i]? with
  | some (some h) =>
    if h.status.hasExited then some (some h.status, s)
    else
      match kevent s h.kq block with
      | none => none
      | some (a, s') =>
        match Child.pdWait h.status (List.replicate k .eintr ++ [a]) with
        | (.status e, st, _) => some (some e, { s' with handles := s'.handles.set i (some { h with status := st }) })
        | (_, _, _) => some (none, { s' with over := true })
  | _ => none

/-- `close(2)`, called by `Handle` (`include/process_sandbox/platform/platform.h:65-72`): closing the descriptor of a process takes
it from every queue, and kills the process if it runs (`pdfork(2)`, `kqueue(2)`). -/
def close (s : St) (f : Int) : St :=
  match s.fds f with
  | some (.proc p) => { s with
      fds := fun y => if y = f then none else
        match s.fds y with
        | some (.queue w) => some (.queue (if w = some p then none else w))
        | o => o,
      life := if s.life p = some none then upd s.life p (some (some 9)) else s.life }
  | some _ => { s with fds := upd s.fds f none }
  | none => s

/-- The process that a signal sent through descriptor `f` reaches, if it runs: `pdkill` at
`include/process_sandbox/platform/child_process_pdfork.h:123`, and the closing of the descriptor. -/
def reached (s : St) (f : Int) : Option Nat :=
  match s.fds f with
  | some (.proc p) => if s.life p = some none then some p else none
  | _ => none

/-- What is seen of it (`include/process_sandbox/platform/child_process_pdfork.h:121-124`). -/
def noted (i : Nat) : Option Nat → List Event
  | some p => [.killed i p]
  | none => []

/-- The end of the constructor: the queue, and the process in it
(`include/process_sandbox/platform/child_process_pdfork.h:92-99`). -/
def register (s : St) (v : Int) (q : Option Int) : Option St :=
  match q with
  | none => some { s with over := true }
  | some q =>
    if q < 0 ∨ (s.fds q).isSome then none
    else
      match s.fds v with
      | some (.proc p) => some { s with
          fds := upd s.fds q (some (.queue (some p))), handles := s.handles ++ [some ⟨q, v, ⟨false, 0⟩⟩] }
      | _ => some { s with over := true }

/-- One step (`include/process_sandbox/platform/child_process_pdfork.h:44-126`, `src/libsandbox.cc:757-759`, `:993-1018`); `none`: not
possible.  If `pdfork` fails, the variable keeps the value that it had (`:82-85`); that reading it is undefined is left out.  The
assertion at `:91` is left out too: where it fails the host ends, as it does without.  What `terminate` does to the process is
left to `ends`. -/
def step (s : St) (a : Act) : Option St :=
  if s.over then none else
  match a with
  | .make (some pd) _ q =>
    if pd < 0 ∨ (s.fds pd).isSome then none
    else register { s with
      fds := upd s.fds pd (some (.proc s.handles.length)), life := upd s.life s.handles.length (some none) } pd q
  | .make none g q => register s g q
  | .opens f => if f < 0 ∨ (s.fds f).isSome then none else some { s with fds := upd s.fds f (some .other) }
  | .closes f => some (close s f)
  | .ends p st => if s.life p = some none then some { s with life := upd s.life p (some (some st)) } else none
  | .query i k block =>
    match ask s i k block with
    | some (some e, s') => some { s' with log := .said i e :: s'.log }
    | some (none, s') => some s'
    | none => none
  | .term i k =>
    match ask s i k false with
    | some (some e, s') =>
      if e.hasExited then some s'
      else
        match s'.handles[i]? with
        | some (some h) => some { s' with log := noted i (reached s' h.pd) ++ s'.log }
        | _ => none
    | some (none, s') => some s'
    | none => none
  | .destroy i k =>
    match ask s i k true with
    | some (some _, s') =>
      match s'.handles[i]? with
      | some (some h) =>
        let s1 := close (close s' h.pd) h.kq
        some { s1 with handles := s1.handles.set i none, log := noted i (reached s' h.pd) ++ s1.log }
      | _ => none
    | some (none, s') => some s'
    | none => none

/-- A run (`include/process_sandbox/platform/child_process_pdfork.h:44-126`): all steps must be possible. -/
def run (s : St) : List Act → Option St
  | [] => some s
  | a :: as =>
    match step s a with
    | some s' => run s' as
    | none => none

end Verif.BsdFamily
