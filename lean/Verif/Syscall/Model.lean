import Verif.Basic

/-!
# Emulation of trapped system calls in the child (model)
-/

namespace Verif.Syscall

/-- A C `int` (`src/library_runner.cc:666-762`). -/
abbrev CInt := BitVec 32

/-- The registers of the interrupted program that the handler touches
(`include/process_sandbox/platform/syscall_context_linux.h:92-107`, `:118-120`, `:132-134`). -/
structure Regs where
  rax : Word
  rdi : Word
  rsi : Word
  rdx : Word
  r10 : Word
  r8 : Word
  r9 : Word
  rip : Word
  deriving Repr, DecidableEq

/-- What the signal tells: `siginfo_t` (`include/process_sandbox/platform/syscall_context_linux.h:120`, `:141`,
`:151`). -/
structure Info where
  code : Int
  syscall : Int
  callAddr : Word
  deriving Repr, DecidableEq

/-- `get_arg`, `include/process_sandbox/platform/syscall_context_linux.h:76-108`, before the cast. -/
def Regs.arg (r : Regs) : Nat → Word
  | 0 => r.rdi
  | 1 => r.rsi
  | 2 => r.rdx
  | 3 => r.r10
  | 4 => r.r8
  | _ => r.r9

/-- The cast of an argument to `int`, `mode_t` or `socklen_t`,
`include/process_sandbox/platform/syscall_context_linux.h:83-87`. -/
def toInt (w : Word) : CInt := w.setWidth 32

/-- An argument of a request to the host, before pointers are made good for it
(`src/library_runner.cc:506-623`): a number, a string, an object that receives a result, or an address passed as
it is. -/
inductive Arg where
  | int (v : CInt)
  | cstr (p : Word)
  | out (p : Word)
  | raw (p : Word)
  deriving Repr, DecidableEq

/-- A request to the host: `CallbackKind` (`include/process_sandbox/callback_numbers.h:22-67`), the
arguments in order, and the descriptor that goes with it, negative for none (`src/library_runner.cc:446-475`). -/
structure Request where
  kind : Nat
  args : List Arg
  fd : CInt
  deriving Repr, DecidableEq

/-- The host's answer to a request: `CallbackResponse::response` and the descriptor received with it
(`src/library_runner.cc:464-474`). -/
structure Reply where
  response : Word
  fd : Option CInt
  deriving Repr, DecidableEq

/-- What the child's emulation depends on: the host, its own process number, the C string at an address (`none`:
no readable string there), and the `dup` system call (`src/library_runner.cc:666-800`). -/
structure Env where
  host : Request → Reply
  pid : Nat
  str : Word → Option (List Byte)
  dup : CInt → CInt

/-- The outcome of an emulation: what it returns, and the requests it made (`src/library_runner.cc:666-800`). -/
structure Done where
  result : CInt
  asked : List Request
  deriving Repr, DecidableEq

/-- `syscall_callback_helper`, `src/library_runner.cc:666-693`: the answer as an `int`, or the descriptor that
was received. -/
def helper (v : Env) (q : Request) : Done :=
  let r := v.host q
  match r.fd with
  | some f => if f.slt 0 then ⟨toInt r.response, [q]⟩ else ⟨f, [q]⟩
  | none => ⟨toInt r.response, [q]⟩

/-- `callback_access`, `src/library_runner.cc:698-704`; without a descriptor `fd` is `-1` (line 667). -/
def access (v : Env) (path : Word) (mode : CInt) : Done :=
  helper v ⟨2, [.cstr path, .int mode], -1⟩

/-- `callback_stat`, `src/library_runner.cc:709-715`. -/
def stat (v : Env) (path buf : Word) : Done :=
  helper v ⟨1, [.cstr path, .out buf], -1⟩

/-- `callback_open`, `src/library_runner.cc:720-727`. -/
def «open» (v : Env) (path : Word) (flags mode : CInt) : Done :=
  helper v ⟨0, [.cstr path, .int flags, .int mode], -1⟩

/-- `callback_bind_or_connect<Op>`, `src/library_runner.cc:735-756`; the treatment of `addr` is in
`Verif.ChildArgs`. -/
def bindOrConnect (v : Env) (kind : Nat) (s : CInt) (addr : Word) (len : CInt) : Done :=
  helper v ⟨kind, [.int s, .raw addr, .int len], s⟩

/-- A decimal digit, for `%d` of `sscanf` at `src/library_runner.cc:787`. -/
def isDigit (b : Byte) : Bool := 48 ≤ b && b ≤ 57

/-- The white space that `%d` skips (`src/library_runner.cc:787`). -/
def isSpace (b : Byte) : Bool := b == 32 || (9 ≤ b && b ≤ 13)

/-- The number that a run of digits denotes (`src/library_runner.cc:787`). -/
def digitsVal (ds : List Byte) : Nat := ds.foldl (fun n d => n * 10 + (d.toNat - 48)) 0

/-- `%d` of `sscanf`, `src/library_runner.cc:787`: white space, a sign, digits.  The value is reduced to an `int`;
what the C library does with numbers that do not fit is not modelled further. -/
def scanInt (s : List Byte) : Option CInt :=
  let s := s.dropWhile isSpace
  let (neg, s) := match s with
    | 45 :: t => (true, t)
    | 43 :: t => (false, t)
    | t => (false, t)
  let ds := s.takeWhile isDigit
  if ds = [] then none
  else
    let n := BitVec.ofNat 32 (digitsVal ds)
    some (if neg then -n else n)

/-- The bytes of an ASCII string (the literals of `src/library_runner.cc:785`). -/
def bytes (s : String) : List Byte := s.toUTF8.data.toList

/-- The directory of the process's own descriptors, `src/library_runner.cc:783-785`. -/
def procDir (pid : Nat) : List Byte := bytes "/proc/" ++ bytes (toString pid) ++ bytes "/fd/"

/-- `sscanf(pathname, buf, &fd) == 1`, `src/library_runner.cc:787`. -/
def scanProc (pid : Nat) (s : List Byte) : Option CInt :=
  if (procDir pid).isPrefixOf s then scanInt (s.drop (procDir pid).length) else none

/-- `callback_openat`, `src/library_runner.cc:778-806`.  The path is scanned before it is compared with null:
a path that is not a readable string (null included) is undefined behaviour. -/
def openat (v : Env) (dirfd : CInt) (path : Word) (flags mode : CInt) : Outcome Done :=
  match v.str path with
  | none => .ub
  | some s =>
    match scanProc v.pid s with
    | some fd => .ok ⟨v.dup fd, []⟩
    | none =>
      if path = 0 then .ok ⟨BitVec.ofInt 32 (-EINVAL), []⟩
      else if s.head? = some 47 then .ok («open» v path flags mode)
      else .ok (helper v ⟨3, [.int dirfd, .cstr path, .int flags, .int mode], dirfd⟩)

/-- Calling entry `n` of the tuple `callbacks` with the arguments taken from the registers by `extract_args`,
`src/library_runner.cc:816-838` and `:859-863`. -/
def callEntry (v : Env) (n : Nat) (r : Regs) : Outcome Done :=
  match n with
  | 0 => .ok («open» v (r.arg 0) (toInt (r.arg 1)) (toInt (r.arg 2)))
  | 1 => .ok (stat v (r.arg 0) (r.arg 1))
  | 2 => .ok (access v (r.arg 0) (toInt (r.arg 1)))
  | 3 => openat v (toInt (r.arg 0)) (r.arg 1) (toInt (r.arg 2)) (toInt (r.arg 3))
  | 4 => .ok (bindOrConnect v 4 (toInt (r.arg 0)) (r.arg 1) (toInt (r.arg 2)))
  | _ => .ok (bindOrConnect v 5 (toInt (r.arg 0)) (r.arg 1) (toInt (r.arg 2)))

/-- `SyscallNumbers`, `include/process_sandbox/platform/syscall_context_linux.h:36-45`: the system call of each
kind of callback, in the order of the kinds. -/
def syscallNumbers : List Int := [2, 4, 21, 257, 49, 42]

/-- `set_success_return`, `include/process_sandbox/platform/syscall_context_linux.h:116-121`. -/
def setSuccess (i : Info) (r : Regs) (x : CInt) : Regs := { r with rax := x.signExtend 64, rip := i.callAddr }

/-- `set_error_return`, `include/process_sandbox/platform/syscall_context_linux.h:129-135`. -/
def setError (i : Info) (r : Regs) (e : CInt) : Regs := { r with rax := 0 - e.signExtend 64, rip := i.callAddr }

/-- `syscall_callback<Number>`, `src/library_runner.cc:844-880`, for `n = Number + 1` entries: the registers
afterwards and the requests made.  Negating the least `int` is undefined. -/
def dispatch (v : Env) (i : Info) (r : Regs) : Nat → Outcome (Regs × List Request)
  | 0 => .ok (r, [])
  | n + 1 =>
    if syscallNumbers[n]? = some i.syscall then
      match callEntry v n r with
      | .ok d =>
        if d.result.slt 0 then
          if d.result = BitVec.intMin 32 then .ub else .ok (setError i r (-d.result), d.asked)
        else .ok (setSuccess i r d.result, d.asked)
      | .abort => .abort
      | .throws => .throws
      | .ub => .ub
    else dispatch v i r n

/-- The signal handler `emulate`, `src/library_runner.cc:887-895`. -/
def emulate (v : Env) (i : Info) (r : Regs) : Outcome (Regs × List Request) :=
  if i.code = 1 then dispatch v i r 6 else .ok (r, [])

/-- `syscall_return`, `src/library_runner.cc:765-773`: the value returned and, if it is set, `errno`. -/
def syscallReturn (x : CInt) : CInt × Option CInt :=
  if x.slt 0 then (-1, some (-x)) else (x, none)

/-- `O_CREAT` of Linux, `src/library_runner.cc:905`. -/
def oCreat : CInt := 0o100

/-- The C function `open`, `src/library_runner.cc:902-913`; `mode` is the optional argument. -/
def cOpen (v : Env) (path : Word) (flags mode : CInt) : (CInt × Option CInt) × List Request :=
  let d := «open» v path flags (if flags &&& oCreat = oCreat then mode else 0)
  (syscallReturn d.result, d.asked)

/-- The C function `openat`, `src/library_runner.cc:924-937`. -/
def cOpenat (v : Env) (dirfd : CInt) (path : Word) (flags mode : CInt) :
    Outcome ((CInt × Option CInt) × List Request) :=
  match openat v dirfd path flags mode with
  | .ok d => .ok (syscallReturn d.result, d.asked)
  | .abort => .abort
  | .throws => .throws
  | .ub => .ub

/-- The C functions `bind` and `connect`, `src/library_runner.cc:943-954`. -/
def cBindOrConnect (v : Env) (kind : Nat) (s : CInt) (addr : Word) (len : CInt) :
    (CInt × Option CInt) × List Request :=
  let d := bindOrConnect v kind s addr len
  (syscallReturn d.result, d.asked)

end Verif.Syscall
