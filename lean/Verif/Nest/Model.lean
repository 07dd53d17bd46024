import Verif.Basic

/-!
# Calls into the sandbox and callbacks out of it, nested (model)

A function called in the sandbox may call back; the host's handler may call into the sandbox again, and so on.  All these calls go
through one function number, one message pointer and one depth counter in shared memory.  The semaphores hand control from one side
to the other (the Token area); here a side that wakes the other stops until it is woken, which is what an honest sandbox gives.
-/

namespace Verif.Nest

/-- What an exported function does once it has its arguments: return, call back with a value and go on with the answer, or end
the process (`include/process_sandbox/cxxsandbox.h:174-186`, `src/library_runner.cc:988-1004`).
Simplified: arguments and results are numbers, and what a function computes in between is in the continuation. -/
inductive Prog where
  | ret (v : Nat)
  | callback (k : Nat) (arg : Nat) (next : Nat → Prog)
  | exit

/-- What a handler in the host does: finish with an answer, or call into the sandbox and go on with the result
(`include/process_sandbox/sandbox.h:625-640`, `include/process_sandbox/cxxsandbox.h:99-119`). -/
inductive Host where
  | done (v : Nat)
  | call (idx : Nat) (args : List Nat) (next : Nat → Host)

/-- The exported functions by number (`include/process_sandbox/cxxsandbox.h:218`) and the handlers
(`src/libsandbox.cc:661-682`); a call with a number that is not exported is undefined. -/
structure World where
  fns : Nat → Option (List Nat → Prog)
  handlers : Nat → Nat → Host

/-- A call frame.  `include/process_sandbox/cxxsandbox.h:25-38`. -/
structure Frame where
  ret : Nat
  args : List Nat
  deriving Repr, DecidableEq

/-- Shared memory: `callback_depth` (`include/process_sandbox/shared_memory_region.h:82`; an `int` there, unbounded here),
`function_index` (`:39`), `msg_buffer` (`:44`; 0 is null) and the frames that are allocated, by address. -/
structure Shared where
  depth : Nat
  idx : Nat
  buf : Nat
  frames : List (Nat × Frame)
  deriving Repr, DecidableEq

/-- How a call ends: with a value, with an exception in the host (`src/libsandbox.cc:972`,
`include/process_sandbox/cxxsandbox.h:104`), undefined, or with both sides waiting (`src/library_runner.cc:320`). -/
inductive Out where
  | value (v : Nat)
  | threw
  | ub
  | stuck
  deriving Repr, DecidableEq

/-- The frame at an address (`include/process_sandbox/cxxsandbox.h:177`). -/
def Shared.frame? (s : Shared) (a : Nat) : Option Frame := s.frames.lookup a

/-- Store the result in the frame at an address (`include/process_sandbox/cxxsandbox.h:180`). -/
def Shared.setRet (s : Shared) (a v : Nat) : Shared :=
  { s with frames := s.frames.map fun p => if p.1 = a then (p.1, { p.2 with ret := v }) else p }

/-- Free the frame at an address (`include/process_sandbox/cxxsandbox.h:112`). -/
def Shared.free (s : Shared) (a : Nat) : Shared := { s with frames := s.frames.filter (·.1 ≠ a) }

variable (pick : List Nat → Option Nat) (w : World)

mutual

/-- The call operator of a proxy and `send`, `include/process_sandbox/cxxsandbox.h:99-119`,
`src/libsandbox.cc:954-990`: a frame is allocated (at an address the allocator `pick`s), the arguments are stored, the number and
the frame are announced, and the child runs until it wakes the parent with nothing to handle.  The result is read
and the frame freed.  `fuel` bounds the depth of the recursion; `none` when it is used up. -/
def hostCall : Nat → Shared → Nat → List Nat → Option (Out × Shared)
  | 0, _, _, _ => none
  | fuel + 1, s, idx, args =>
    match pick (s.frames.map (·.1)) with
    | none => some (.threw, s)
    | some a =>
      match loopTurn fuel { s with idx := idx, buf := a, frames := (a, ⟨0, args⟩) :: s.frames } s.depth with
      | none => none
      | some (.value again, s') =>
        if again = 1 then
          match s'.frame? a with
          | none => some (.ub, s')
          | some f => some (.value f.ret, s'.free a)
        else some (.stuck, s')
      | some (o, s') => some (o, s')

/-- One turn of the child's run loop at some depth, once it was woken, `src/library_runner.cc:324-346`: the number and the message are
read, the message is set to null, the function is called if there was a message; the value is 1 if the parent is woken and the loop
goes on, 0 if the loop ends. -/
def loopTurn : Nat → Shared → Nat → Option (Out × Shared)
  | 0, _, _ => none
  | fuel + 1, s, depth =>
    let idx := s.idx
    let buf := s.buf
    let s := { s with buf := 0 }
    if buf = 0 then some (.value (if s.depth = depth then 1 else 0), s)
    else
      match w.fns idx, s.frame? buf with
      | some f, some frame =>
        match childRun fuel s (f frame.args) with
        | none => none
        | some (.value v, s') =>
          some (.value (if s'.depth = depth then 1 else 0), s'.setRet buf v)
        | some (o, s') => some (o, s')
      | _, _ => some (.ub, s)

/-- A function in the sandbox.  A callback, `src/library_runner.cc:446-475`, goes one deeper, wakes the parent and enters a
run loop at the new depth; the parent, `src/libsandbox.cc:980-987`, handles it, goes back one and wakes the child, whose loop then
has one turn. -/
def childRun : Nat → Shared → Prog → Option (Out × Shared)
  | 0, _, _ => none
  | fuel + 1, s, p =>
    match p with
    | .ret v => some (.value v, s)
    | .exit => some (.threw, s)
    | .callback k arg next =>
      let depth := s.depth + 1
      match hostRun fuel { s with depth := depth } (w.handlers k arg) with
      | none => none
      | some (.value v, s1) =>
        match loopTurn fuel { s1 with depth := s1.depth - 1 } depth with
        | none => none
        | some (.value again, s2) =>
          if again = 1 then some (.stuck, s2) else childRun fuel s2 (next v)
        | some (o, s2) => some (o, s2)
      | some (o, s1) => some (o, s1)

/-- A handler in the host (`src/libsandbox.cc:661-682`), which may call into the sandbox
(`include/process_sandbox/cxxsandbox.h:99-119`). -/
def hostRun : Nat → Shared → Host → Option (Out × Shared)
  | 0, _, _ => none
  | fuel + 1, s, h =>
    match h with
    | .done v => some (.value v, s)
    | .call idx args next =>
      match hostCall fuel s idx args with
      | none => none
      | some (.value v, s') => hostRun fuel s' (next v)
      | some (o, s') => some (o, s')

end

end Verif.Nest
