import Verif.Throw.Model
import Verif.Token.Spec

/-!
# Handlers that throw (specification)
-/

namespace Verif.Throw.Spec

open Verif.Token (St)
open Verif.Token.Spec (Item)

/-- An exception takes `k` handlers off the control stack, and with each the function in the sandbox that made the callback. -/
def unwind : Nat → List Item → Option (List Item)
  | 0, st => some st
  | k + 1, .serving _ :: .running :: st => unwind k st
  | _, _ => none

/-- Which events are allowed on which stack. -/
def push (st : List Item) : Ev → Option (List Item)
  | .prim e => Token.Spec.push st e
  | .threw k => unwind k st

/-- The stack after a sequence of events; `none` if control was not passed like a call stack with exceptions. -/
def replay (st : List Item) : List Ev → Option (List Item)
  | [] => some st
  | e :: es =>
    match push st e with
    | none => none
    | some st' => replay st' es

/-- The handler that is running serves the innermost callback that the sandbox waits in.  It does not if it has caught an exception
of a handler further in. -/
def Innermost (s : St) : Prop := s.cs.head?.map (·.1) = s.ps.head?.map (·.2)

instance (s : St) : Decidable (Innermost s) := by unfold Innermost; infer_instance

/-- The actions of a host and a sandbox that co-operate (as for runs without exceptions), where handlers may throw once the sandbox has
loaded, and only the handler of the innermost callback returns an answer. -/
def Proper (s : St) : Act → Prop
  | .prim (.finish v) => Token.Spec.Coop s (.finish v) ∧ Innermost s
  | .prim a => Token.Spec.Coop s a
  | .raise _ => s.sh.loaded = true

instance (s : St) : DecidablePred (Proper s) := fun a => by
  cases a with
  | prim a => cases a <;> unfold Proper <;> infer_instance
  | raise k => unfold Proper; infer_instance

/-- All actions of a run are proper. -/
def ProperRun (dbg : Bool) (s : St) : List Act → Prop
  | [] => True
  | a :: as => Proper s a ∧ ∀ s' es, step dbg s a = some (s', es) → ProperRun dbg s' as

/-- How many callbacks have been abandoned by exceptions. -/
def abandoned : List Ev → Nat
  | [] => 0
  | .threw k :: es => k + abandoned es
  | _ :: es => abandoned es

/-- Steps of the protocol, returns of functions and handlers, and exceptions. -/
def work : List Act → Nat
  | [] => 0
  | .prim a :: as => Token.Spec.work [a] + work as
  | .raise _ :: as => work as + 1

/-- Choices made outside the protocol: new calls and callbacks, destruction of the sandbox, and waits of the sandbox that end without
success. -/
def choices : List Act → Nat
  | [] => 0
  | .prim a :: as => Token.Spec.choices [a] + choices as
  | .raise _ :: as => choices as

end Verif.Throw.Spec
