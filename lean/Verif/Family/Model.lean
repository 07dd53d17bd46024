import Verif.Child.Model

/-!
# Several children of one host (model)

`Verif.Child` looks at one handle and takes the answers of the system as they come.  Here a host has any number of
sandboxes, and children of its own besides; the kernel keeps the table of the children, so what one handle asks decides what
the others can learn.  Process numbers are used again.  One thread; several threads at one handle are `Verif.Reap`.  This is
the handle with a process number, `include/process_sandbox/platform/child_process_vfork.h:22-129`.
-/

namespace Verif.Family
open Verif.Child (ExitStatus Ans Proc Result)

/-- A child that nobody has waited for: its number, the sandbox it belongs to (`none`: the host made it itself), and the
status word if it has ended (`include/process_sandbox/platform/child_process_vfork.h:61-64`). -/
structure Kid where
  pid : Nat
  who : Option Nat
  fate : Option Nat
  deriving Repr, DecidableEq

/-- What can be seen of the host (`include/process_sandbox/platform/child_process_vfork.h:66-69`, `:109-128`). -/
inductive Event where
  /-- a query about sandbox `i` gave `e` -/
  | said (i : Nat) (e : ExitStatus)
  /-- sandbox `i` was to be terminated, and the signal went to a child that belongs to `who` -/
  | killed (i : Nat) (who : Option Nat)
  /-- the signal went to a process that is not a child -/
  | stranger (i : Nat)
  /-- the signal went to every process that the host may signal -/
  | everyone (i : Nat)
  deriving Repr, DecidableEq

/-- The state: the children, the handles of the sandboxes (`include/process_sandbox/platform/child_process_vfork.h:22-41`),
how the process of each sandbox ended, whether the host has ended by `err(1, ...)`
(`include/process_sandbox/platform/child_process_vfork.h:66-69`), and what was seen, last first. -/
structure St where
  kids : List Kid := []
  procs : List Proc := []
  fates : Nat → Option Nat := fun _ => none
  over : Bool := false
  log : List Event := []

/-- What happens next (`include/process_sandbox/platform/child_process_vfork.h:82-128`, `src/libsandbox.cc:993-1018`).  `k`: how
often the call is interrupted; `c`: the child that the kernel reports if it has the choice. -/
inductive Act where
  /-- a sandbox is made; `none`: `vfork` fails -/
  | make (p : Option Nat)
  /-- the host makes a child of its own -/
  | fork (p : Nat)
  /-- a child ends -/
  | ends (p st : Nat)
  /-- the host program itself waits for a child -/
  | reap (p : Nat)
  /-- `exit_status` (`block` false) or `wait_for_exit` for sandbox `i` -/
  | query (i k c : Nat) (block : Bool)
  /-- `Library::terminate` -/
  | term (i k c : Nat)
  deriving Repr, DecidableEq

/-- `waitpid(2)`, called at `include/process_sandbox/platform/child_process_vfork.h:63`, for a process number or, if that is
-1, any child: the answer and what becomes of the children; `none`: it blocks, or `c` is not what the kernel could
report. -/
def answer (kids : List Kid) (pid : Int) (block : Bool) (c : Nat) : Option (Ans × List Kid) :=
  if 0 < pid then
    match kids.find? (fun x => (x.pid : Int) = pid) with
    | none => some (.failed, kids)
    | some x =>
      match x.fate with
      | some st => some (.ok pid st, kids.filter (fun y => (y.pid : Int) ≠ pid))
      | none => if block then none else some (.ok 0 0, kids)
  else if kids = [] then some (.failed, kids)
  else
    match kids.find? (fun x => x.pid = c ∧ x.fate.isSome) with
    | some x => some (.ok c (x.fate.getD 0), kids.filter (fun y => y.pid ≠ c))
    | none => if block ∨ kids.any (fun x => x.fate.isSome) then none else some (.ok 0 0, kids)

/-- A query about sandbox `i`, `include/process_sandbox/platform/child_process_vfork.h:52-75`, with the kernel's answer: the
result (`none` if the host ends) and the state after it. -/
def ask (s : St) (i k c : Nat) (block : Bool) : Option (Option ExitStatus × St) :=
  match s.procs[i]? with
  | none => none
  | some p =>
    if p.status.hasExited then some (some p.status, s)
    else
      match answer s.kids p.pid block c with
      | none => none
      | some (a, kids) =>
        match Child.waitpid p (List.replicate k .eintr ++ [a]) with
        | (.status e, p', _) => some (some e, { s with kids := kids, procs := s.procs.set i p' })
        | (_, _, _) => some (none, { s with kids := kids, over := true })

/-- The signal of `terminate`, `include/process_sandbox/platform/child_process_vfork.h:125-128`. -/
def signal (s : St) (i : Nat) (p : Proc) : Event :=
  if 0 < Child.terminate p then
    match s.kids.find? (fun x => (x.pid : Int) = Child.terminate p) with
    | some x => .killed i x.who
    | none => .stranger i
  else .everyone i

/-- One step (`include/process_sandbox/platform/child_process_vfork.h:52-128`, `src/libsandbox.cc:993-1018`); `none`: not possible.
A new child gets a number that no child of the host has.  What the signal does is left to `ends`. -/
def step (s : St) (a : Act) : Option St :=
  if s.over then none else
  match a with
  | .make none => some { s with procs := s.procs ++ [Child.start (-1)] }
  | .make (some p) =>
    if p = 0 ∨ s.kids.any (fun x => x.pid = p) then none
    else some { s with procs := s.procs ++ [Child.start p], kids := ⟨p, some s.procs.length, none⟩ :: s.kids }
  | .fork p =>
    if p = 0 ∨ s.kids.any (fun x => x.pid = p) then none else some { s with kids := ⟨p, none, none⟩ :: s.kids }
  | .ends p st =>
    match s.kids.find? (fun x => x.pid = p) with
    | some ⟨_, who, none⟩ => some { s with
        kids := s.kids.map (fun x => if x.pid = p then { x with fate := some st } else x),
        fates := fun i => if who = some i then some st else s.fates i }
    | _ => none
  | .reap p =>
    match s.kids.find? (fun x => x.pid = p) with
    | some ⟨_, _, some _⟩ => some { s with kids := s.kids.filter (fun x => x.pid ≠ p) }
    | _ => none
  | .query i k c block =>
    match ask s i k c block with
    | some (some e, s') => some { s' with log := .said i e :: s'.log }
    | some (none, s') => some s'
    | none => none
  | .term i k c =>
    match ask s i k c false with
    | some (some e, s') =>
      if e.hasExited then some s'
      else
        match s'.procs[i]? with
        | some p => some { s' with log := signal s' i p :: s'.log }
        | none => none
    | some (none, s') => some s'
    | none => none

/-- A run (`include/process_sandbox/platform/child_process_vfork.h:52-128`): all steps must be possible. -/
def run (s : St) : List Act → Option St
  | [] => some s
  | a :: as =>
    match step s a with
    | some s' => run s' as
    | none => none

end Verif.Family
