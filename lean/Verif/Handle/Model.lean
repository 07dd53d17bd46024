import Verif.Fd.Table

/-!
# Owned descriptors: `platform::Handle` (model)
-/

namespace Verif.Handle

open Verif.Fd

/-- The descriptor table and the live `Handle` objects (by name) with their `fd` fields
(`include/process_sandbox/platform/platform.h:34-44`). -/
structure St where
  t : Table
  v : Nat → Option Int

/-- Change one object. (`include/process_sandbox/platform/platform.h:44`) -/
def St.setv (s : St) (i : Nat) (x : Option Int) : St :=
  { s with v := fun j => if j = i then x else s.v j }

/-- The operations, with the object and the plain numbers they are given:
`sys` a system call that returns a new descriptor for `o`; `dflt` the default constructor (line 74),
`ctor` the constructor from a number (line 80), `moveCtor` (lines 93-96), `moveAssign` (lines 98-103),
`assign` assignment of a number or `reset` (lines 105-109, 65-72), `take` (lines 126-131) and
`destroy` (lines 136-139), all of `include/process_sandbox/platform/platform.h:65-139`. -/
inductive Op where
  | sys (o : Obj)
  | dflt (i : Nat)
  | ctor (i : Nat) (x : Int)
  | moveCtor (i j : Nat)
  | moveAssign (i j : Nat)
  | assign (i : Nat) (x : Int)
  | take (i : Nat)
  | destroy (i : Nat)
  deriving Repr, DecidableEq

/-- `Handle::reset`, `include/process_sandbox/platform/platform.h:65-72`: close the descriptor if the
field is not negative (`is_valid`, lines 57-64, without its debug-build check), then store
the new number.  Also returns the arguments of the calls of `close`. -/
def reset (s : St) (i : Nat) (old new : Int) : St × List Int :=
  if 0 ≤ old then (({ s with t := close s.t old } : St).setv i (some new), [old])
  else (s.setv i (some new), [])

/-- One operation: the new state, the number returned to the program (by `sys` and `take`) and the
arguments of `close`.  An operation on an object that does not exist does nothing
(the rule in the specification excludes it). `include/process_sandbox/platform/platform.h:65-139`. -/
def step (lim : Nat) (s : St) : Op → St × Option Int × List Int
  | .sys o =>
    let r := create lim s.t o
    ({ s with t := r.2 }, some r.1, [])
  | .dflt i => (s.setv i (some (-1)), none, [])
  | .ctor i x => (s.setv i (some x), none, [])
  | .moveCtor i j =>
    match s.v j with
    | some y => ((s.setv i (some y)).setv j (some (-1)), none, [])
    | none => (s, none, [])
  | .moveAssign i j =>
    match s.v i, s.v j with
    | some x, some y =>
      let r := reset s i x y
      (r.1.setv j (some (-1)), none, r.2)
    | _, _ => (s, none, [])
  | .assign i x =>
    match s.v i with
    | some y => let r := reset s i y x; (r.1, none, r.2)
    | none => (s, none, [])
  | .take i =>
    match s.v i with
    | some y => (s.setv i (some (-1)), some y, [])
    | none => (s, none, [])
  | .destroy i =>
    match s.v i with
    | some y => let r := reset s i y (-1); (r.1.setv i none, none, r.2)
    | none => (s, none, [])

end Verif.Handle
