import Verif.Token.Model

/-!
# Handlers that throw (model)

The handlers of callbacks are code of the user and may throw.  `CallbackDispatcher::handle` and `Library::send` catch nothing, so an
exception leaves them, and the calls around them, until some code of the user catches it: a handler further out, or the outermost caller.
The protocol itself is that of the Token area; here it gets one more action.
-/

namespace Verif.Throw

open Verif.Token (St PPc CPc From)

/-- What can happen next: an action of the protocol (`src/libsandbox.cc:934-1018`, `src/library_runner.cc:307-475`), or the handler that
is running throws and the exception is caught `k` handlers further out (`src/libsandbox.cc:675`, `:945`, `:985`). -/
inductive Act where
  | prim (a : Token.Act)
  | raise (k : Nat)
  deriving Repr, DecidableEq

/-- Observable events: those of the protocol, and an exception that ends `k` handlers and the calls they were handled in
(`src/libsandbox.cc:934-992`). -/
inductive Ev where
  | prim (e : Token.Ev)
  | threw (k : Nat)
  deriving Repr, DecidableEq

/-- One step.  An exception leaves `handle` before the answer is sent (`src/libsandbox.cc:675-680`), and `send` before the depth is
decremented and the sandbox is woken (`:945-948`, `:985-988`); nothing in shared memory changes.  The code that catches it runs next.
Simplified: what handlers and callers do with the exception is not modelled beyond where it is caught. -/
def step (dbg : Bool) (s : St) : Act → Option (St × List Ev)
  | .prim a => (Token.step dbg s a).map fun r => (r.1, r.2.map .prim)
  | .raise k =>
    if s.pp = .user ∧ 0 < k ∧ k ≤ s.ps.length then some ({ s with ps := s.ps.drop k }, [.threw k]) else none

/-- A run: all actions must be enabled (`src/libsandbox.cc:934-1018`, `src/library_runner.cc:307-475`). -/
def run (dbg : Bool) (s : St) : List Act → Option (St × List Ev)
  | [] => some (s, [])
  | a :: as =>
    match step dbg s a with
    | none => none
    | some (s', es) =>
      match run dbg s' as with
      | none => none
      | some (s'', es') => some (s'', es ++ es')

end Verif.Throw
