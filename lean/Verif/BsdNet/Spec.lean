import Verif.NetEnd.Spec
import Verif.FreeBsd.Spec

/-!
# What a network call of a program in a sandbox on FreeBSD means (specification)

In terms of the host's configuration calls and the functions that it can choose (`Verif.NetEnd.Chosen`).
-/

namespace Verif.BsdNet

open Verif.Net (Op Callee SockArgs)
open Verif.Syscall (Answer CInt)

/-- What the program should find: without a function, that the system has no such call (`ENOSYS`, 78); otherwise what the
function returns. -/
def answer (call : Callee → SockArgs → Int × Int) (a : SockArgs) : Option Callee → Answer
  | none => .error 78
  | some f => EndToEnd.intAnswer (call f a)

/-- The system calls by number and arguments, section 2 of the manual: the operation, the socket, the address and its
length. -/
def asksNet (c : FreeBsd.Call) : Option (Op × CInt × Word × CInt) :=
  match c.args with
  | s :: a :: l :: _ =>
    if c.nr = 104 then some (.bind, s.setWidth 32, a, l.setWidth 32)
    else if c.nr = 98 then some (.connect, s.setWidth 32, a, l.setWidth 32)
    else none
  | _ => none

/-- The program makes the call `c`: where the signal tells the number with which the kernel was entered, directly or through
`syscall` or `__syscall`; on older systems directly. -/
def Makes (i : FreeBsd.Info) (r : FreeBsd.Regs) (c : FreeBsd.Call) : Prop :=
  (∃ code, i.syscall = some code ∧ c = FreeBsd.asks code r) ∨
    (i.syscall = none ∧ c = ⟨r.rax.setWidth 32, [r.rdi, r.rsi, r.rdx, r.r10, r.r8, r.r9]⟩)

end Verif.BsdNet
