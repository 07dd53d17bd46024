import Verif.Syscall.Model

/-!
# Emulation of system calls trapped by Capsicum (model)

The signal handler of the child is the one of `Verif.Syscall`; what differs on FreeBSD is the frame: where the
number and the arguments come from and how the result is put back.

Assumed of the kernel (`cap_enter(4)`, `procctl(2)`): a system call that is not allowed has already failed when the
signal arrives, with the carry flag set, the error in `rax` and the program counter after the call; if `siginfo_t`
has `si_syscall`, it holds the number with which the kernel was entered; if it does not, `rax` holds that number.
-/

namespace Verif.FreeBsd

open Verif.Syscall (CInt Arg Request Reply Env Done helper toInt «open» stat access bindOrConnect)

/-- The registers of the interrupted program that the handler touches
(`include/process_sandbox/platform/syscall_context_freebsd.h:106-113`, `:147-150`, `:177`), and the program
counter. -/
structure Regs where
  rax : Word
  rdi : Word
  rsi : Word
  rdx : Word
  r10 : Word
  r8 : Word
  r9 : Word
  rip : Word
  rflags : Word
  deriving Repr, DecidableEq

/-- What the signal tells (`include/process_sandbox/platform/syscall_context_freebsd.h:24`): the code, and
`si_syscall` on systems that have it (`:44-49`). -/
structure Info where
  code : Int
  syscall : Option CInt
  deriving Repr, DecidableEq

/-- `TRAP_CAP` of `<sys/signal.h>`, `include/process_sandbox/platform/syscall_context_freebsd.h:186`. -/
def trapCap : Int := 5

/-- `is_syscall`, `include/process_sandbox/platform/syscall_context_freebsd.h:37-50`; `SYS_syscall` is 0 and
`SYS___syscall` is 198. -/
def isSyscall (i : Info) : Bool := i.syscall == some 0 || i.syscall == some 198

/-- `syscallArgRegs`, `include/process_sandbox/platform/syscall_context_freebsd.h:106-113`. -/
def argRegs (r : Regs) : List Word := [r.rdi, r.rsi, r.rdx, r.r10, r.r8, r.r9]

/-- `get_arg`, `include/process_sandbox/platform/syscall_context_freebsd.h:118-137`, before the cast; `at` throws
if there is no such register. -/
def getArg (i : Info) (r : Regs) (n : Nat) : Outcome Word :=
  match (argRegs r)[n + if isSyscall i then 1 else 0]? with
  | some w => .ok w
  | none => .throws

/-- `set_success_return`, `include/process_sandbox/platform/syscall_context_freebsd.h:145-151`. -/
def setSuccess (r : Regs) (x : CInt) : Regs :=
  { r with
    rflags := r.rflags &&& ~~~1#64
    rax := x.signExtend 64 }

/-- `set_error_return`, `include/process_sandbox/platform/syscall_context_freebsd.h:159-165`. -/
def setError (r : Regs) (e : CInt) : Regs :=
  { r with
    rflags := r.rflags ||| 1#64
    rax := e.signExtend 64 }

/-- `get_syscall_number`, `include/process_sandbox/platform/syscall_context_freebsd.h:172-179`. -/
def number (i : Info) (r : Regs) : CInt :=
  match i.syscall with
  | some n => if isSyscall i then toInt r.rdi else n
  | none => toInt r.rax

/-- `callback_openat` without its Linux part, `src/library_runner.cc:792-805`.  A path that is not null is read: if
there is no readable string, that is undefined behaviour. -/
def openat (v : Env) (dirfd : CInt) (path : Word) (flags mode : CInt) : Outcome Done :=
  if path = 0 then .ok ⟨BitVec.ofInt 32 (-EINVAL), []⟩
  else
    match v.str path with
    | none => .ub
    | some s =>
      if s.head? = some 47 then .ok («open» v path flags mode)
      else .ok (helper v ⟨3, [.int dirfd, .cstr path, .int flags, .int mode], dirfd⟩)

/-- How many arguments each entry of the tuple `callbacks` takes, `src/library_runner.cc:832-837`. -/
def arity : Nat → Nat
  | 0 => 3
  | 1 => 2
  | 2 => 2
  | 3 => 4
  | _ => 3

/-- `extract_args`, `src/library_runner.cc:815-825`: the arguments from the last to the first. -/
def extractArgs (i : Info) (r : Regs) : Nat → Outcome (List Word)
  | 0 => .ok []
  | n + 1 =>
    match getArg i r n with
    | .ok w =>
      match extractArgs i r n with
      | .ok l => .ok (l ++ [w])
      | o => o
    | .abort => .abort
    | .throws => .throws
    | .ub => .ub

/-- The cast of a register to `mode_t` (`include/process_sandbox/platform/syscall_context_freebsd.h:125-128`), which has 16 bits
on FreeBSD. -/
def toMode (w : Word) : CInt := (w.setWidth 16).setWidth 32

/-- Calling entry `n` of the tuple `callbacks`, `src/library_runner.cc:832-837` and `:861`. -/
def callEntry (v : Env) (n : Nat) (args : List Word) : Outcome Done :=
  match n, args with
  | 0, [a, b, c] => .ok («open» v a (toInt b) (toMode c))
  | 1, [a, b] => .ok (stat v a b)
  | 2, [a, b] => .ok (access v a (toInt b))
  | 3, [a, b, c, d] => openat v (toInt a) b (toInt c) (toMode d)
  | 4, [a, b, c] => .ok (bindOrConnect v 4 (toInt a) b (toInt c))
  | 5, [a, b, c] => .ok (bindOrConnect v 5 (toInt a) b (toInt c))
  | _, _ => .ub

/-- `SyscallNumbers`, `include/process_sandbox/platform/syscall_context_freebsd.h:59-68`, with the numbers of
`<sys/syscall.h>`. -/
def syscallNumbers : List CInt := [5, 188, 33, 499, 104, 98]

/-- `syscall_callback<Number>`, `src/library_runner.cc:844-880`, for `n = Number + 1` entries.  The function is
`noexcept`: an exception ends the child. -/
def dispatch (v : Env) (i : Info) (r : Regs) : Nat → Outcome (Regs × List Request)
  | 0 => .ok (r, [])
  | n + 1 =>
    if syscallNumbers[n]? = some (number i r) then
      match extractArgs i r (arity n) with
      | .ok args =>
        match callEntry v n args with
        | .ok d =>
          if d.result.slt 0 then
            if d.result = BitVec.intMin 32 then .ub else .ok (setError r (-d.result), d.asked)
          else .ok (setSuccess r d.result, d.asked)
        | .abort => .abort
        | .throws => .throws
        | .ub => .ub
      | .abort => .abort
      | .throws => .abort
      | .ub => .ub
    else dispatch v i r n

/-- The signal handler `emulate`, `src/library_runner.cc:887-894`, with `is_sandbox_policy_violation`
(`include/process_sandbox/platform/syscall_context_freebsd.h:184-187`). -/
def emulate (v : Env) (i : Info) (r : Regs) : Outcome (Regs × List Request) :=
  if i.code = trapCap then dispatch v i r 6 else .ok (r, [])

end Verif.FreeBsd
