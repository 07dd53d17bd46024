import Verif.Hb.Model
import Verif.Token.Spec

/-!
# What each side of a call has seen of the other (specification)
-/

namespace Verif.Hb

/-- `x` happens before `y`: the clock of `y` includes the step `x`. -/
def Before (x y : Stamp) : Prop :=
  if x.byHost then x.clock.host ≤ y.clock.host else x.clock.child ≤ y.clock.child

end Verif.Hb
