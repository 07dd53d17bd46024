import Verif.Strings.Model
import Verif.Path.Model
import Verif.FileTree.Model
import Verif.Callback.Model

/-!
# System calls on paths, performed by the parent for the sandbox (model)

`open`, `stat`, `access` and `openat` requests (`src/libsandbox.cc:338-445` and `:573-607`,
`include/process_sandbox/platform/safe_syscalls-linux.h`).
-/

namespace Verif.PathSyscall

open Verif.Bounds Verif.Strings Verif.Path Verif.FileTree Verif.Callback

/-- The system calls that the parent issues while it serves a request.  Paths are the C string
passed (`none` is a null pointer), `sb` is the address that receives the `struct stat`.
(`include/process_sandbox/platform/safe_syscalls-linux.h:92-154`, `src/libsandbox.cc:427`,
`:601`, and the `close` of `Handle`'s destructor, `include/process_sandbox/platform/platform.h:65`). -/
inductive HostOp where
  | openat2 (fd : Int) (path : Option (List Byte)) (flags mode resolve : Word)
  | dup (fd : Int)
  | fstat (fd : Int) (sb : Word)
  | faccessat2 (fd : Int) (path : List Byte) (mode flags : BitVec 32)
  | fstatat (fd : Int) (path : List Byte) (sb : Word) (flags : BitVec 32)
  | close (fd : Int)
  deriving Repr, DecidableEq

/-- One system call with its result and the value of `errno` after it
(`src/libsandbox.cc:338-355`). -/
structure Entry where
  op : HostOp
  ret : Int
  errno : Int
  deriving Repr, DecidableEq

/-- The calls made so far, oldest first (trace of the machine; used to state what
`src/libsandbox.cc:386-607` does). -/
abbrev Log := List Entry

/-- The kernel: what a system call returns (result, `errno`), given everything that was called
before (the environment of `src/libsandbox.cc:386-607`). -/
abbrev Kernel := Log → HostOp → Int × Int

/-- Issue one system call (used by all functions below; `errno` semantics as in
`src/libsandbox.cc:345`). -/
def sys (k : Kernel) (log : Log) (op : HostOp) : (Int × Int) × Log :=
  let r := k log op
  (r, log ++ [⟨op, r.1, r.2⟩])

/-- `resolve_beneath`, `include/process_sandbox/platform/safe_syscalls-linux.h:56`. -/
def resolveBeneath : Word := 0x08

/-- `o_path`, `include/process_sandbox/platform/safe_syscalls-linux.h:63` (octal 010000000). -/
def oPath : BitVec 32 := 0x200000

/-- `at_empty_path`, `include/process_sandbox/platform/safe_syscalls-linux.h:69`. -/
def atEmptyPath : BitVec 32 := 0x1000

/-- `openat_beneath`, `include/process_sandbox/platform/safe_syscalls-linux.h:92-97`.  `flags` is
an `int` and is sign-extended, `mode` is unsigned. -/
def openatBeneath (k : Kernel) (log : Log) (fd : Int) (path : Option (List Byte))
    (flags mode : BitVec 32) : (Int × Int) × Log :=
  sys k log (.openat2 fd path (flags.signExtend 64) (mode.setWidth 64) resolveBeneath)

/-- `faccessat_beneath`, `include/process_sandbox/platform/safe_syscalls-linux.h:103-126`.  The
`Handle` is closed before `errno` is restored. -/
def faccessatBeneath (k : Kernel) (log : Log) (fd : Int) (path : Option (List Byte))
    (mode flags : BitVec 32) : (Int × Int) × Log :=
  let ((p, e), log1) := openatBeneath k log fd path oPath 0
  if p < 0 then ((-1, e), log1)
  else
    let (r, log2) := sys k log1 (.faccessat2 p [] mode (flags ||| atEmptyPath))
    let (_, log3) := sys k log2 (.close p)
    (r, log3)

/-- `fstatat_beneath`, `include/process_sandbox/platform/safe_syscalls-linux.h:132-154`. -/
def fstatatBeneath (k : Kernel) (log : Log) (fd : Int) (path : Option (List Byte))
    (sb : Word) (flags : BitVec 32) : (Int × Int) × Log :=
  let ((p, e), log1) := openatBeneath k log fd path oPath 0
  if p < 0 then ((-1, e), log1)
  else
    let (r, log2) := sys k log1 (.fstatat p [] sb (flags ||| atEmptyPath))
    let (_, log3) := sys k log2 (.close p)
    (r, log3)

/-- `return_fd`, `src/libsandbox.cc:338-346`.  On success the integer keeps its default value
`-ENOSYS` and the descriptor is attached. -/
def returnFd (r : Int × Int) : Result :=
  if r.1 ≥ 0 then { handle := r.1 } else { integer := -r.2 }

/-- `return_int`, `src/libsandbox.cc:352-355`. -/
def returnInt (r : Int × Int) : Result :=
  { integer := if r.1 ≥ 0 then r.1 else -r.2 }

/-- Everything a path request depends on besides its arguments: the bounds of the heap, the
host allocator, the exported tree, the kernel, and what the two passes over the path string
read from sandbox memory (`src/libsandbox.cc:300-330`, `:360-363`). -/
structure Env where
  hdr : Word
  region : Region
  malloc : Nat → Option Buf
  tree : Dir
  kernel : Kernel
  rd1 : Mem
  rd2 : Mem

/-- `get_path`, `src/libsandbox.cc:360-363`. -/
def getPath (v : Env) (a : Word) : Outcome (Option Buf) :=
  (strdupOut v.hdr v.region v.malloc v.rd1 v.rd2 a).result

/-- `handle_path_syscall`, `src/libsandbox.cc:385-406`.  `Path path{raw_path.get()}` makes a
`string_view` of the bytes before the first zero, which is followed by that zero. -/
def handlePath (v : Env) (a : Word) (handler : Int → Path → Result × Log) :
    Outcome (Result × Log) :=
  match getPath v a with
  | .ok none => .ok ({ integer := -EINVAL }, [])
  | .ok (some raw) =>
    match ofView (some 0) (cText raw) with
    | .ok path =>
      match path.canonicalise with
      | (false, _) => .ok ({ integer := -EINVAL }, [])
      | (true, path) =>
        match lookupFile v.tree path with
        | none => .ok ({ integer := -ENOENT }, [])
        | some (fd, tail) => .ok (handler fd tail)
    | .abort => .abort
    | .throws => .throws
    | .ub => .ub
  | .abort => .abort
  | .throws => .throws
  | .ub => .ub

/-- `path_tail.str().c_str()` as the kernel reads it (`src/libsandbox.cc:418-420`). -/
def tailText (tail : Path) : List Byte := cText tail.str

/-- The lambda of `handle_open`, `src/libsandbox.cc:414-430`. -/
def openBody (v : Env) (flags mode : BitVec 32) (fd : Int) (tail : Path) : Result × Log :=
  let (r, log) :=
    if tail.isEmpty = false then
      openatBeneath v.kernel [] fd (some (tailText tail)) flags mode
    else sys v.kernel [] (.dup fd)
  (returnFd r, log)

/-- `handle_open`, `src/libsandbox.cc:411-431`. -/
def handleOpen (v : Env) (a : Word) (flags mode : BitVec 32) : Outcome (Result × Log) :=
  handlePath v a (openBody v flags mode)

/-- The lambda of `handle_access`, `src/libsandbox.cc:580-585`.  With an empty tail the path
argument is a null pointer. -/
def accessBody (v : Env) (mode : BitVec 32) (fd : Int) (tail : Path) : Result × Log :=
  let (r, log) := faccessatBeneath v.kernel [] fd
    (if tail.isEmpty then none else some (tailText tail)) mode 0
  (returnInt r, log)

/-- `handle_access`, `src/libsandbox.cc:577-586`. -/
def handleAccess (v : Env) (a : Word) (mode : BitVec 32) : Outcome (Result × Log) :=
  handlePath v a (accessBody v mode)

/-- `sizeof(struct stat)` on x86-64 Linux (used in `src/libsandbox.cc:597`). -/
def statSize : Word := 144

/-- The lambda of `handle_stat`, `src/libsandbox.cc:596-606`; `check_pointer` is `:374-383`. -/
def statBody (v : Env) (sb : Word) (fd : Int) (tail : Path) : Result × Log :=
  if contains v.hdr v.region sb statSize then
    let (r, log) :=
      if tail.isEmpty then sys v.kernel [] (.fstat fd sb)
      else fstatatBeneath v.kernel [] fd (some (tailText tail)) sb 0
    (returnInt r, log)
  else ({ integer := -EINVAL }, [])

/-- `handle_stat`, `src/libsandbox.cc:593-607`. -/
def handleStat (v : Env) (a sb : Word) : Outcome (Result × Log) :=
  handlePath v a (statBody v sb)

/-- `handle_openat`, `src/libsandbox.cc:437-445`.  `h` is the descriptor that came with the
request, `-1` if none.  The result of `openat_beneath` is an `int` and is converted to a
`Result` by the integer constructor.  The descriptor `h` is closed when the function's
parameter goes out of scope. -/
def handleOpenat (v : Env) (h : Int) (a : Word) (flags mode : BitVec 32) :
    Outcome (Result × Log) :=
  match getPath v a with
  | .ok p =>
    let (r, log) := openatBeneath v.kernel [] h (p.map cText) flags mode
    let log := if h ≥ 0 then (sys v.kernel log (.close h)).2 else log
    .ok ({ integer := r.1 }, log)
  | .abort => .abort
  | .throws => .throws
  | .ub => .ub

/-- The path requests with their arguments, as decoded from the private copy of the frame
(`src/libsandbox.cc:411-445`, `:577-607`). -/
inductive Call where
  | open_ (a : Word) (flags mode : BitVec 32)
  | access (a : Word) (mode : BitVec 32)
  | stat (a sb : Word)
  deriving Repr, DecidableEq

/-- The address of the path argument (`std::get<0>(args)` in `src/libsandbox.cc:414`, `:580`,
`:596`). -/
def Call.path : Call → Word
  | .open_ a _ _ => a
  | .access a _ => a
  | .stat a _ => a

/-- Serve a path request (the three handlers above, `src/libsandbox.cc:411-431`, `:577-607`). -/
def serve (v : Env) : Call → Outcome (Result × Log)
  | .open_ a flags mode => handleOpen v a flags mode
  | .access a mode => handleAccess v a mode
  | .stat a sb => handleStat v a sb

end Verif.PathSyscall
