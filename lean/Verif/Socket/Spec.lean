import Verif.Socket.Model

/-!
# Messages with descriptors: what is wanted
-/

namespace Verif.Socket

open Verif.Fd

/-- The number of open descriptors below the limit. -/
def opened (lim : Nat) (t : Table) : Nat := ((List.range lim).filter fun i => (t i).isSome).length

/-- No descriptor that was open has changed. -/
def Keeps (t t' : Table) : Prop := ∀ i, t i ≠ none → t' i = t i

/-- The table has exactly one more descriptor: number `n`, for `o`. -/
def Plus (t t' : Table) (n : Nat) (o : Obj) : Prop := t n = none ∧ t' = fun i => if i = n then some o else t i

end Verif.Socket
