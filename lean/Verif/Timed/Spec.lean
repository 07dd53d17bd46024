import Verif.Timed.Model

/-!
# How long the host waits (specification)
-/

namespace Verif.Timed

/-- No signal arrives after `a` and up to `b`. -/
def Quiet (sig : Nat → Bool) (a b : Nat) : Prop := ∀ s, a < s → s ≤ b → sig s = false

/-- The sandbox ends at `d`. -/
def EndsAt (exited : Nat → Bool) (d : Nat) : Prop := ∀ e, exited e = true ↔ d ≤ e

end Verif.Timed
