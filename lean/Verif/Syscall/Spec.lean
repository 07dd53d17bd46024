import Verif.Syscall.Model

/-!
# Emulation of trapped system calls (specification)

The system-call convention of x86-64 Linux (`syscall(2)`) and the argument lists of the calls (section 2 of the
manual), written without reference to how the child dispatches.
-/

namespace Verif.Syscall

/-- The arguments of a system call in order, `syscall(2)`. -/
def abi (r : Regs) : List Word := [r.rdi, r.rsi, r.rdx, r.r10, r.r8, r.r9]

/-- The request that a call with the given number and arguments should become when it is passed to the host:
`open(path, flags, mode)`, `stat(path, buf)`, `access(path, mode)`, `openat(dirfd, path, flags, mode)`,
`bind(s, addr, len)` and `connect(s, addr, len)`.  `openat` and the socket calls send their descriptor along. -/
def wanted (nr : Int) : List Word → Option Request
  | a :: b :: c :: d :: _ =>
    if nr = 2 then some ⟨0, [.cstr a, .int (b.setWidth 32), .int (c.setWidth 32)], -1⟩
    else if nr = 4 then some ⟨1, [.cstr a, .out b], -1⟩
    else if nr = 21 then some ⟨2, [.cstr a, .int (b.setWidth 32)], -1⟩
    else if nr = 257 then
      some ⟨3, [.int (a.setWidth 32), .cstr b, .int (c.setWidth 32), .int (d.setWidth 32)], a.setWidth 32⟩
    else if nr = 49 then some ⟨4, [.int (a.setWidth 32), .raw b, .int (c.setWidth 32)], a.setWidth 32⟩
    else if nr = 42 then some ⟨5, [.int (a.setWidth 32), .raw b, .int (c.setWidth 32)], a.setWidth 32⟩
    else none
  | _ => none

/-- What the host answers, in its own terms: a number, a descriptor, or an error. -/
inductive Answer where
  | value (v : Nat)
  | descriptor (f : Nat)
  | error (e : Nat)
  deriving Repr, DecidableEq

/-- The answers that can be told apart: numbers and descriptors that fit an `int`, and the error numbers of
Linux. -/
def Answer.Proper : Answer → Prop
  | .value v => v < 2 ^ 31
  | .descriptor f => f < 2 ^ 31
  | .error e => 0 < e ∧ e < 4096

/-- How an answer arrives: errors are negative; with a descriptor the number is arbitrary, since a descriptor
has another number in the host. -/
def Arrives : Answer → Reply → Prop
  | .value v, r => r.fd = none ∧ r.response = BitVec.ofNat 64 v
  | .descriptor f, r => r.fd = some (BitVec.ofNat 32 f)
  | .error e, r => r.fd = none ∧ r.response = BitVec.ofInt 64 (-(e : Int))

/-- What a program finds: the result and, if the call failed, the error number. -/
def found : Answer → Int × Option Nat
  | .value v => (v, none)
  | .descriptor f => (f, none)
  | .error e => (-1, some e)

/-- How the C library reads the result register after a system call: the last 4095 values are errors. -/
def libc (rax : Word) : Int × Option Nat :=
  if -4096 < rax.toInt ∧ rax.toInt < 0 then (-1, some (-rax.toInt).toNat) else (rax.toInt, none)

/-- How a program reads what a wrapper returns: the result and `errno`. -/
def told (p : CInt × Option CInt) : Int × Option Nat := (p.1.toInt, p.2.map BitVec.toNat)

/-- The directory in which the system lists the descriptors of process `pid`, `proc(5)`. -/
def fdDir (pid : Nat) : List Byte := (s!"/proc/{pid}/fd/").toUTF8.data.toList

/-- The number that a sequence of digits stands for, most significant first. -/
def decimal : List Byte → Nat
  | [] => 0
  | d :: ds => (d.toNat - 48) * 10 ^ ds.length + decimal ds

/-- The path `s` names descriptor `n` of process `pid`: the directory is followed by the digits of `n`, and those by
something that is not a digit, if by anything. -/
def NamesOwn (pid n : Nat) (s : List Byte) : Prop :=
  ∃ ds rest, s = fdDir pid ++ ds ++ rest ∧ ds ≠ [] ∧ (∀ d ∈ ds, 48 ≤ d ∧ d ≤ 57) ∧
    (∀ d, rest.head? = some d → ¬(48 ≤ d ∧ d ≤ 57)) ∧ decimal ds = n

end Verif.Syscall
