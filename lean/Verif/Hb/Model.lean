import Verif.Token.Model

/-!
# What each side of a call has seen of the other (model)

The header has ordinary members (`function_index`, `msg_buffer`), and calls and callbacks pass ordinary data (frames,
buffers) through the shared region.  C++ promises that one process sees what the other has written only if the write
happens before the read, that is, if atomic operations with the right memory order are between them.  The runs of
`Verif.Token` are taken together with vector clocks, which follow the atomic operations.
-/

namespace Verif.Hb

open Verif.Token

/-- How many steps of the host and of the sandbox happen before a point, that point included
(the memory orders are at `include/process_sandbox/platform/onebitsem_futex.h:41` and `:55-56`). -/
structure VC where
  host : Nat
  child : Nat
  deriving Repr, DecidableEq

/-- What an acquire operation makes of a clock (`include/process_sandbox/platform/onebitsem_futex.h:55-56`). -/
def VC.join (a b : VC) : VC := ⟨max a.host b.host, max a.child b.child⟩

/-- The clocks of the two processes, and those that were stored with the last signal of each semaphore and with
`is_child_loaded` (`include/process_sandbox/shared_memory_region.h:58-76`). -/
structure Clocks where
  host : VC
  child : VC
  semParent : VC
  semChild : VC
  loaded : VC
  deriving Repr, DecidableEq

/-- Before the sandbox is started, everything is ordered (`src/libsandbox.cc:865-932`). -/
def zero : Clocks := ⟨⟨0, 0⟩, ⟨0, 0⟩, ⟨0, 0⟩, ⟨0, 0⟩, ⟨0, 0⟩⟩

/-- What a step (from state `s`) does to the clocks.
* Each step of a process counts.
* `wake` adds to the flag with `memory_order_release`, `include/process_sandbox/platform/onebitsem_futex.h:41`
  (`include/process_sandbox/platform/onebitsem_umtx.h:45`): the flag takes the clock of the process, if `release` holds.
  What earlier signals stored is forgotten, which C++ would keep.
* A `wait` that succeeds has exchanged the flag with `memory_order_acquire`, `include/process_sandbox/platform/onebitsem_futex.h:55-56`
  (`include/process_sandbox/platform/onebitsem_umtx.h:62-67`): the process takes the clock of the flag.
* `is_child_loaded` is an atomic with the default order, `include/process_sandbox/shared_memory_region.h:71`: storing it
  (`src/library_runner.cc:1116`) releases and reading `true` (`src/libsandbox.cc:940`) acquires.  What the other atomic
  members synchronise is left out. -/
def advance (release : Bool) (s : St) (a : Act) (k : Clocks) : Clocks :=
  match a with
  | .parent =>
    let h : VC := { k.host with host := k.host.host + 1 }
    match s.pp with
    | .l6 _ | .a5 _ | .h5 _ | .d4 => { k with host := h, semChild := if release then h else ⟨0, 0⟩ }
    | .l2 _ | .w _ => { k with host := h.join k.semParent }
    | .s0 _ => { k with host := if s.sh.loaded then h.join k.loaded else h }
    | _ => { k with host := h }
  | .call _ | .finish _ | .destroy | .timeout => { k with host := { k.host with host := k.host.host + 1 } }
  | .child =>
    let c : VC := { k.child with child := k.child.child + 1 }
    match s.cp with
    | .k4 _ _ _ | .r6 _ => { k with child := c, semParent := if release then c else ⟨0, 0⟩ }
    | .r1 _ => { k with child := c.join k.semChild }
    | .ld => { k with child := c, loaded := c }
    | _ => { k with child := c }
  | .ask | .ret | .childTimeout => { k with child := { k.child with child := k.child.child + 1 } }
  | .crash | .write _ | .inject _ => k

/-- A step that can be seen, with the clock of its process: it has events, or uses the ordinary members of the header
(`src/libsandbox.cc:957-958`, an event of its own, and `src/library_runner.cc:324-326`). -/
structure Stamp where
  byHost : Bool
  clock : VC
  evs : List Ev
  deriving Repr, DecidableEq

/-- Is it a step of the host? (`src/libsandbox.cc:934-1018`) -/
def isHost : Act → Bool
  | .parent | .call _ | .finish _ | .destroy | .timeout => true
  | _ => false

/-- Does the sandbox read and clear the members in this step? (`src/library_runner.cc:324-326`) -/
def readsMsg (s : St) (a : Act) : Bool :=
  match a, s.cp with
  | .child, .r2 _ => true
  | _, _ => false

/-- The mark that a step leaves, `k` being the clocks after it (`src/libsandbox.cc:934-1018`,
`src/library_runner.cc:307-475`). -/
def stamp (s : St) (a : Act) (es : List Ev) (k : Clocks) : List Stamp :=
  if es ≠ [] ∨ readsMsg s a = true then [⟨isHost a, if isHost a then k.host else k.child, es⟩] else []

/-- A run with clocks (`src/libsandbox.cc:934-1018`, `src/library_runner.cc:307-475`). -/
def run (release : Bool) (dbg : Bool) (s : St) (k : Clocks) : List Act → Option (St × Clocks × List Stamp)
  | [] => some (s, k, [])
  | a :: as =>
    match step dbg s a with
    | none => none
    | some (s', es) =>
      let k' := advance release s a k
      match run release dbg s' k' as with
      | none => none
      | some (s'', k'', st) => some (s'', k'', stamp s a es k' ++ st)

end Verif.Hb
