import Verif.BsdFamily.Model

/-!
# Several children of one host on FreeBSD (specification)
-/

namespace Verif.BsdFamily
open Verif.Child (ExitStatus)

/-- `pdfork` never fails, and the host program closes only what it has opened itself. -/
def Careful (s : St) : Act → Prop
  | .make pd _ _ => pd ≠ none
  | .closes f => s.fds f = some .other
  | _ => True

/-- A run of careful steps. -/
def CarefulRun (s : St) : List Act → Prop
  | [] => True
  | a :: as => Careful s a ∧ ∀ s', step s a = some s' → CarefulRun s' as

/-- A state that a careful host can come to. -/
def Reached (s : St) : Prop := ∃ as, CarefulRun {} as ∧ run {} as = some s

/-- What a query about a process that ended so, or has not ended, should say. -/
def truth : Option Nat → ExitStatus
  | some st => ⟨true, st / 256⟩
  | none => ⟨false, 0⟩

end Verif.BsdFamily
