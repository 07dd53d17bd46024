import Verif.Basic

/-!
# Bounds checks (specification)

Stated over natural numbers, without reference to the model's functions.
-/

namespace Verif.Bounds.Spec

/-- Byte `a` belongs to the block of `n` bytes at `p` (no wrap-around: as numbers). -/
def InBlock (p n a : Nat) : Prop := p ≤ a ∧ a < p + n

/-- Every byte of the block of `n` bytes at `p` lies in `[lo, hi)`. -/
def BlockWithin (lo hi p n : Nat) : Prop := ∀ a, InBlock p n a → lo ≤ a ∧ a < hi

end Verif.Bounds.Spec
