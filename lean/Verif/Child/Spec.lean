import Verif.Child.Model

/-!
# The child process handle (specification)
-/

namespace Verif.Child.Spec

/-- How a process ends. -/
inductive Fate where
  /-- `exit(code)` -/
  | exit (code : Fin 256)
  /-- killed by a signal, perhaps with a core dump -/
  | signal (sig : Nat) (core : Bool)
  deriving Repr, DecidableEq

/-- The status word by which Linux reports it (`wait(2)`; signals are numbered 1 to 64). -/
def encode : Fate → Nat
  | .exit c => c.val * 256
  | .signal sig core => sig + if core then 128 else 0

/-- A status word for which the macros of `wait(2)` say that the process ended: `WIFEXITED`. -/
def exited (s : Nat) : Bool := s % 128 == 0

/-- All signal numbers are between 1 and 64. -/
def Fate.valid : Fate → Prop
  | .exit _ => True
  | .signal sig _ => 1 ≤ sig ∧ sig ≤ 64

end Verif.Child.Spec
