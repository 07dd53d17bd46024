import Verif.Family.Model

/-!
# Several children of one host (specification)
-/

namespace Verif.Family
open Verif.Child (ExitStatus wexitstatus)

/-- `vfork` never fails, and the host program waits for no sandbox. -/
def Careful (s : St) : Act → Prop
  | .make p => p ≠ none
  | .reap p => ∀ x ∈ s.kids, x.pid = p → x.who = none
  | _ => True

/-- A run of careful steps. -/
def CarefulRun (s : St) : List Act → Prop
  | [] => True
  | a :: as => Careful s a ∧ ∀ s', step s a = some s' → CarefulRun s' as

/-- What a query about a process that ended so, or has not ended, should say. -/
def truth : Option Nat → ExitStatus
  | some st => ⟨true, wexitstatus st⟩
  | none => ⟨false, 0⟩

end Verif.Family
