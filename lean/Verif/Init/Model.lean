import Verif.Basic

/-!
# Creation of the page map by the first sandbox (model)

Every `Library` makes sure that the page map exists before it uses it.  Libraries can be created by several threads.
-/

namespace Verif.Init

/-- Where a thread is in `ensure_initialised` (`include/process_sandbox/sandbox.h:466-475`) and in the constructor that
calls it (`src/libsandbox.cc:55-67`): before the test, after a test that found the flag clear, after setting the flag, past the function. -/
inductive Pc where
  | start
  | claimed
  | marked
  | ready
  deriving Repr, DecidableEq

/-- The flag (`include/process_sandbox/sandbox.h:468`), the page map in use (`none` before the first; they are numbered;
`:96`), how many have been made, where each thread is, and the page map that each use found, latest first. -/
structure St where
  flag : Bool
  map : Option Nat
  made : Nat
  pc : Nat → Pc
  uses : List (Nat × Option Nat)

/-- A step of thread `t`; the flag is atomic, so each is one access (`include/process_sandbox/sandbox.h:466-475`):
the test, setting the flag, `Pagemap::init` (taken as one step), and a use of the page map
(`src/libsandbox.cc:60-66` and everything after). -/
inductive Act where
  | test (t : Nat)
  | mark (t : Nat)
  | init (t : Nat)
  | use (t : Nat)
  deriving Repr, DecidableEq

/-- Change where thread `t` is (bookkeeping for `include/process_sandbox/sandbox.h:466-475`). -/
def St.goto (s : St) (t : Nat) (p : Pc) : Nat → Pc := fun u => if u = t then p else s.pc u

/-- One step; `none` when thread `t` is not there.  `include/process_sandbox/sandbox.h:466-475`; `Pagemap::init`,
`:195-202`, replaces the page map that there was: the assignment to `pagemap_mem` unmaps it. -/
def step (s : St) : Act → Option St
  | .test t =>
    if s.pc t = .start then some { s with pc := s.goto t (if s.flag then .ready else .claimed) } else none
  | .mark t => if s.pc t = .claimed then some { s with flag := true, pc := s.goto t .marked } else none
  | .init t =>
    if s.pc t = .marked then some { s with map := some s.made, made := s.made + 1, pc := s.goto t .ready } else none
  | .use t => if s.pc t = .ready then some { s with uses := (t, s.map) :: s.uses } else none

/-- A run; `none` when a step was not possible (`include/process_sandbox/sandbox.h:466-475`). -/
def run (s : St) : List Act → Option St
  | [] => some s
  | a :: as =>
    match step s a with
    | some s' => run s' as
    | none => none

/-- The start of the program (`include/process_sandbox/sandbox.h:468`, `:96`). -/
def start : St := ⟨false, none, 0, fun _ => .start, []⟩

end Verif.Init
