import Verif.FreeBsd.Model
import Verif.Syscall.Spec

/-!
# Emulation of system calls trapped by Capsicum (specification)

The system-call convention of FreeBSD on x86-64 (`syscall(2)`) and the argument lists of the calls (section 2 of
the manual).
-/

namespace Verif.FreeBsd

open Verif.Syscall (CInt Request Answer)

/-- What a program asked for: the call and its arguments. -/
structure Call where
  nr : CInt
  args : List Word
  deriving Repr, DecidableEq

/-- The program entered the kernel with number `code` and these registers.  `syscall` (0) and `__syscall` (198) take
the number of the call as their first argument. -/
def asks (code : CInt) (r : Regs) : Call :=
  if code = 0 ∨ code = 198 then ⟨r.rdi.setWidth 32, [r.rsi, r.rdx, r.r10, r.r8, r.r9]⟩
  else ⟨code, [r.rdi, r.rsi, r.rdx, r.r10, r.r8, r.r9]⟩

/-- The request that a call should become: `open(path, flags, mode)`, `freebsd11_stat(path, buf)`,
`access(path, mode)`, `openat(dirfd, path, flags, mode)`, `bind(s, addr, len)` and `connect(s, addr, len)`.  The mode of a
new file has 16 bits (`mode_t`). -/
def wanted (c : Call) : Option Request :=
  match c.args with
  | a :: b :: x :: d :: _ =>
    if c.nr = 5 then some ⟨0, [.cstr a, .int (b.setWidth 32), .int ((x.setWidth 16).setWidth 32)], -1⟩
    else if c.nr = 188 then some ⟨1, [.cstr a, .out b], -1⟩
    else if c.nr = 33 then some ⟨2, [.cstr a, .int (b.setWidth 32)], -1⟩
    else if c.nr = 499 then
      some ⟨3, [.int (a.setWidth 32), .cstr b, .int (x.setWidth 32), .int ((d.setWidth 16).setWidth 32)], a.setWidth 32⟩
    else if c.nr = 104 then some ⟨4, [.int (a.setWidth 32), .raw b, .int (x.setWidth 32)], a.setWidth 32⟩
    else if c.nr = 98 then some ⟨5, [.int (a.setWidth 32), .raw b, .int (x.setWidth 32)], a.setWidth 32⟩
    else none
  | _ => none

/-- How the C library reads the registers after a system call: with the carry flag, `rax` is the error. -/
def libc (r : Regs) : Int × Option Nat :=
  if r.rflags.getLsbD 0 then (-1, some r.rax.toNat) else (r.rax.toInt, none)

/-- Nothing but the result register and the carry flag differs. -/
def OnlyResult (r r' : Regs) : Prop :=
  r'.rdi = r.rdi ∧ r'.rsi = r.rsi ∧ r'.rdx = r.rdx ∧ r'.r10 = r.r10 ∧ r'.r8 = r.r8 ∧ r'.r9 = r.r9 ∧
    r'.rip = r.rip ∧ ∀ k, k ≠ 0 → r'.rflags.getLsbD k = r.rflags.getLsbD k

/-- The kernel was entered with `code`, and says so in `si_syscall` or, on older systems, in `rax`. -/
def Entered (i : Info) (r : Regs) (code : CInt) : Prop :=
  i.syscall = some code ∨ (i.syscall = none ∧ r.rax.setWidth 32 = code)

end Verif.FreeBsd
