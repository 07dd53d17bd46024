import Verif.Call.Model

/-!
# A program that uses a hostile library (model)

The sandbox is arbitrary here: it answers anything, at any time it changes anything in the heap, which is all that it shares
with the host, and a call may throw.  The question is how far this reaches into the host's program.
-/

namespace Verif.Whole.Hostile

open Verif.Call (Frame World Sandbox Result callOp)

/-- The host's program: from what its calls have come to and its memory, the memory that it leaves and the next call, with
the arguments (the user of `include/process_sandbox/cxxsandbox.h:99-119`).  It may catch exceptions. -/
abbrev Client := List Result → Mem → Mem × Option (Nat × List Byte)

/-- What the allocator and the sandbox do during a call, and what the sandbox does to the memory at every step from then
on (`include/process_sandbox/cxxsandbox.h:99-119`: the heap is shared). -/
structure Attack where
  alloc : Word → Option Word
  sandbox : Sandbox
  env : Nat → Mem → Mem

/-- The calls that the program makes and what they come to, and the world then: `Function::operator()` each time,
`include/process_sandbox/cxxsandbox.h:99-119`.  `frames` is the frame of each function of the host's structure.  It is
over when the program ends. -/
def play (frames : Nat → Frame) (Q : Client) : List Attack → List Result → World →
    List (Nat × List Byte) × List Result × World
  | [], rs, w => ([], rs, w)
  | a :: as, rs, w =>
    match (Q rs w.mem).2 with
    | none => ([], rs, w)
    | some (idx, args) =>
      let r := callOp a.alloc a.sandbox idx (frames idx) args { w with mem := (Q rs w.mem).1, env := a.env }
      let out := play frames Q as (rs ++ [r.1]) r.2
      ((idx, args) :: out.1, out.2)

end Verif.Whole.Hostile
