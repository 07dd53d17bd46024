import Verif.Reach.Spec
import Verif.Resize.Model

/-!
# The size of the shared memory (specification)
-/

namespace Verif.Resize.Spec

open Verif.Fd (Obj Table)
open Verif.Reach (Src)
open Verif.Reach.Spec (origin)

/-- Calls that change the size of the object of a descriptor (`ftruncate(2)`, `fallocate(2)`), which must be open for
writing; `den` says what the descriptors stand for. -/
def Resizes (den : Src → Option Obj) (c : Seccomp.Call) (held : List Src) (o : Nat) : Prop :=
  (c.nr = 77 ∨ c.nr = 285) ∧ ∃ s ∈ held, den (origin s) = some ⟨o, true⟩

/-- `den` gives the descriptors of the start the objects in the table `t`. -/
def Starts (den : Src → Option Obj) (t : Table) : Prop := ∀ n, den (.start n) = t n

/-- Only descriptors of the start, and what the sandbox may have the kernel look up by name, stand for the object `o`: no file
exported to the sandbox, nothing that lies beneath an exported directory, nothing that a handler returns, and nothing that
the sandbox makes is the object. -/
def Unexported (den : Src → Option Obj) (o : Nat) : Prop :=
  ∀ s w, den s = some ⟨o, w⟩ → (∃ n, s = .start n) ∨ ∃ nr, s = .named nr

/-- The sandbox makes no call of `io_uring`. -/
def NoUring (evs : List Reach.Ev) : Prop := ∀ call, Reach.Ev.call call ∈ evs → call.nr ≠ 425 ∧ call.nr ≠ 426

end Verif.Resize.Spec
