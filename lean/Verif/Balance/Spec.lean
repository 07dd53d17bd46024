import Verif.Balance.Model
import Verif.Socket.Spec

/-!
# The host's descriptors while it handles messages (specification)
-/

namespace Verif.Balance.Spec

open Verif.Fd
open Verif.PathSyscall (HostOp Kernel)

/-- The calls that make a descriptor. -/
def Makes : HostOp → Prop
  | .openat2 .. => True
  | .dup _ => True
  | _ => False

/-- The kernel gives a new descriptor a number that is free below the limit, if `t` is the table at the start of the
message. -/
def Fresh (lim : Nat) (obj : Obj) (t : Table) (k : Kernel) : Prop :=
  ∀ log op, Makes op → 0 ≤ (k log op).1 →
    (k log op).1.toNat < lim ∧ replay obj t log (k log op).1.toNat = none

/-- A packet that can be received without loss: at most one descriptor is attached, and if there is one, the packet has
the bytes of a request (the others are `Verif.Socket.short_message_leaks` and `two_descriptors_leak`). -/
def Decent (p : Socket.Packet) : Prop := p.fds = [] ∨ (p.fds.length = 1 ∧ 24 ≤ p.data.length)

/-- The number of the callback that a packet asks for: the first eight bytes, in the order of the machine. -/
def asksFor (p : Socket.Packet) : Nat := EndToEnd.ofLe (p.data.take 8)

end Verif.Balance.Spec
