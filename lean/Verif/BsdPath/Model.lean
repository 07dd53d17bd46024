import Verif.PathSyscall.Model
import Verif.ChildArgs.Model

/-!
# Path requests on FreeBSD (model)

The handlers of `src/libsandbox.cc` with the safe system calls of
`include/process_sandbox/platform/safe_syscalls-freebsd.h`, and the `stat` of the child, which on FreeBSD is
`freebsd11_stat` (`include/process_sandbox/platform/syscall_context_freebsd.h:63`).
-/

namespace Verif.BsdPath

open Verif.Bounds Verif.Strings Verif.Path Verif.FileTree Verif.Callback
open Verif.ChildArgs (Child wrapPtr unwrap)

/-- The system calls that the parent makes on FreeBSD while it serves a path request
(`include/process_sandbox/platform/safe_syscalls-freebsd.h:26`, `:36`, `:46`, `src/libsandbox.cc:427`, `:601`, and
the `close` of `Handle`'s destructor).  A path is a C string, `none` is a null pointer. -/
inductive HostOp where
  | openat (fd : Int) (path : Option (List Byte)) (flags mode : BitVec 32)
  | faccessat (fd : Int) (path : Option (List Byte)) (mode flags : BitVec 32)
  | fstatat (fd : Int) (path : Option (List Byte)) (sb : Word) (flags : BitVec 32)
  | dup (fd : Int)
  | fstat (fd : Int) (sb : Word)
  | close (fd : Int)
  deriving Repr, DecidableEq

/-- One system call with its result and the value of `errno` after it (`src/libsandbox.cc:338-355`). -/
structure Entry where
  op : HostOp
  ret : Int
  errno : Int
  deriving Repr, DecidableEq

/-- The calls made so far, oldest first (`src/libsandbox.cc:386-607`). -/
abbrev Log := List Entry

/-- The kernel: result and `errno` of a call, given the calls before (the environment of
`src/libsandbox.cc:386-607`). -/
abbrev Kernel := Log → HostOp → Int × Int

/-- Issue one system call (`src/libsandbox.cc:345`). -/
def sys (k : Kernel) (log : Log) (op : HostOp) : (Int × Int) × Log :=
  let r := k log op
  (r, log ++ [⟨op, r.1, r.2⟩])

/-- `O_RESOLVE_BENEATH` of FreeBSD's `<fcntl.h>`,
`include/process_sandbox/platform/safe_syscalls-freebsd.h:26`. -/
def oResolveBeneath : BitVec 32 := 0x00800000

/-- `AT_RESOLVE_BENEATH` of FreeBSD's `<fcntl.h>`,
`include/process_sandbox/platform/safe_syscalls-freebsd.h:36`, `:46`. -/
def atResolveBeneath : BitVec 32 := 0x2000

/-- `openat_beneath`, `include/process_sandbox/platform/safe_syscalls-freebsd.h:23-27`. -/
def openatBeneath (k : Kernel) (log : Log) (fd : Int) (path : Option (List Byte)) (flags mode : BitVec 32) :
    (Int × Int) × Log :=
  sys k log (.openat fd path (flags ||| oResolveBeneath) mode)

/-- `faccessat_beneath`, `include/process_sandbox/platform/safe_syscalls-freebsd.h:33-37`. -/
def faccessatBeneath (k : Kernel) (log : Log) (fd : Int) (path : Option (List Byte)) (mode flags : BitVec 32) :
    (Int × Int) × Log :=
  sys k log (.faccessat fd path mode (flags ||| atResolveBeneath))

/-- `fstatat_beneath`, `include/process_sandbox/platform/safe_syscalls-freebsd.h:43-47`. -/
def fstatatBeneath (k : Kernel) (log : Log) (fd : Int) (path : Option (List Byte)) (sb : Word)
    (flags : BitVec 32) : (Int × Int) × Log :=
  sys k log (.fstatat fd path sb (flags ||| atResolveBeneath))

/-- Everything a path request depends on besides its arguments; as in `Verif.PathSyscall`, with the kernel of
FreeBSD (`src/libsandbox.cc:300-330`, `:360-363`). -/
structure Env where
  hdr : Word
  region : Region
  malloc : Nat → Option Buf
  tree : Dir
  kernel : Kernel
  rd1 : Mem
  rd2 : Mem

/-- `get_path`, `src/libsandbox.cc:360-363`. -/
def getPath (v : Env) (a : Word) : Outcome (Option Buf) :=
  (strdupOut v.hdr v.region v.malloc v.rd1 v.rd2 a).result

/-- `handle_path_syscall`, `src/libsandbox.cc:385-406`. -/
def handlePath (v : Env) (a : Word) (handler : Int → Path → Result × Log) : Outcome (Result × Log) :=
  match getPath v a with
  | .ok none => .ok ({ integer := -EINVAL }, [])
  | .ok (some raw) =>
    match ofView (some 0) (cText raw) with
    | .ok path =>
      match path.canonicalise with
      | (false, _) => .ok ({ integer := -EINVAL }, [])
      | (true, path) =>
        match lookupFile v.tree path with
        | none => .ok ({ integer := -ENOENT }, [])
        | some (fd, tail) => .ok (handler fd tail)
    | .abort => .abort
    | .throws => .throws
    | .ub => .ub
  | .abort => .abort
  | .throws => .throws
  | .ub => .ub

/-- `return_fd`, `src/libsandbox.cc:338-346`; beside a descriptor the number is the default of
`include/process_sandbox/callbacks.h:80`, and `ENOSYS` is 78 on FreeBSD. -/
def returnFd (r : Int × Int) : Result :=
  if r.1 ≥ 0 then { integer := -78, handle := r.1 } else { integer := -r.2 }

/-- The lambda of `handle_open`, `src/libsandbox.cc:414-430`. -/
def openBody (v : Env) (flags mode : BitVec 32) (fd : Int) (tail : Path) : Result × Log :=
  let (r, log) :=
    if tail.isEmpty = false then
      openatBeneath v.kernel [] fd (some (PathSyscall.tailText tail)) flags mode
    else sys v.kernel [] (.dup fd)
  (returnFd r, log)

/-- The lambda of `handle_access`, `src/libsandbox.cc:580-585`. -/
def accessBody (v : Env) (mode : BitVec 32) (fd : Int) (tail : Path) : Result × Log :=
  let (r, log) := faccessatBeneath v.kernel [] fd
    (if tail.isEmpty then none else some (PathSyscall.tailText tail)) mode 0
  (PathSyscall.returnInt r, log)

/-- `sizeof(struct stat)` on FreeBSD 12 and later, amd64 (used in `src/libsandbox.cc:597` and
`src/library_runner.cc:709-715`). -/
def statSize : Nat := 224

/-- The lambda of `handle_stat`, `src/libsandbox.cc:596-606`; `check_pointer` is `:374-383`. -/
def statBody (v : Env) (sb : Word) (fd : Int) (tail : Path) : Result × Log :=
  if contains v.hdr v.region sb (BitVec.ofNat 64 statSize) then
    let (r, log) :=
      if tail.isEmpty then sys v.kernel [] (.fstat fd sb)
      else fstatatBeneath v.kernel [] fd (some (PathSyscall.tailText tail)) sb 0
    (PathSyscall.returnInt r, log)
  else ({ integer := -EINVAL }, [])

/-- Serve a path request: `handle_open`, `handle_access` and `handle_stat`, `src/libsandbox.cc:411-431`,
`:577-607`. -/
def serve (v : Env) : PathSyscall.Call → Outcome (Result × Log)
  | .open_ a flags mode => handlePath v a (openBody v flags mode)
  | .access a mode => handlePath v a (accessBody v mode)
  | .stat a sb => handlePath v a (statBody v sb)

/-- `handle_openat`, `src/libsandbox.cc:437-445`; as in `Verif.PathSyscall`. -/
def handleOpenat (v : Env) (h : Int) (a : Word) (flags mode : BitVec 32) : Outcome (Result × Log) :=
  match getPath v a with
  | .ok p =>
    let (r, log) := openatBeneath v.kernel [] h (p.map cText) flags mode
    let log := if h ≥ 0 then (sys v.kernel log (.close h)).2 else log
    .ok ({ integer := r.1 }, log)
  | .abort => .abort
  | .throws => .throws
  | .ub => .ub

/-! ## The child -/

/-- What the kernel puts into a `struct stat` of FreeBSD 12 and later, field by field with its padding (filled in by
the calls of `src/libsandbox.cc:601-604`). -/
structure Stat where
  dev : BitVec 64
  ino : BitVec 64
  nlink : BitVec 64
  mode : BitVec 16
  uid : BitVec 32
  gid : BitVec 32
  rdev : BitVec 64
  atimSec : BitVec 64
  atimNsec : BitVec 64
  mtimSec : BitVec 64
  mtimNsec : BitVec 64
  ctimSec : BitVec 64
  ctimNsec : BitVec 64
  birthSec : BitVec 64
  birthNsec : BitVec 64
  size : BitVec 64
  blocks : BitVec 64
  blksize : BitVec 32
  flags : BitVec 32
  gen : BitVec 64

/-- A number of `n` bytes in memory, lowest byte first (the fields of the structure that `src/libsandbox.cc:601-604`
has filled in). -/
def le (n : Nat) (v : Nat) : List Byte := (List.range n).map (fun i => UInt8.ofNat (v / 256 ^ i % 256))

/-- The members of a `struct stat` in the order of `<sys/stat.h>`, each with its length in bytes: 2 and 4 bytes of
padding after `st_mode` and `st_gid`, ten spare words at the end (`src/libsandbox.cc:601-604`). -/
def Stat.members (s : Stat) : List (Nat × Nat) :=
  [(8, s.dev.toNat), (8, s.ino.toNat), (8, s.nlink.toNat), (2, s.mode.toNat), (2, 0), (4, s.uid.toNat),
   (4, s.gid.toNat), (4, 0), (8, s.rdev.toNat), (8, s.atimSec.toNat), (8, s.atimNsec.toNat), (8, s.mtimSec.toNat),
   (8, s.mtimNsec.toNat), (8, s.ctimSec.toNat), (8, s.ctimNsec.toNat), (8, s.birthSec.toNat),
   (8, s.birthNsec.toNat), (8, s.size.toNat), (8, s.blocks.toNat), (4, s.blksize.toNat), (4, s.flags.toNat),
   (8, s.gen.toNat), (80, 0)]

/-- Members one after another (`src/libsandbox.cc:601-604`). -/
def layout : List (Nat × Nat) → List Byte
  | [] => []
  | (n, v) :: rest => le n v ++ layout rest

/-- The bytes of a `struct stat` (`src/libsandbox.cc:601-604`). -/
def Stat.bytes (s : Stat) : List Byte := layout s.members

/-- Put bytes at an address: what `fstat` and `fstatat` do with their result (`src/libsandbox.cc:601-604`). -/
def write (m : Mem) (a : Word) (bs : List Byte) : Mem :=
  fun x => if h : (x - a).toNat < bs.length then bs[(x - a).toNat] else m x

/-- `callback_stat` for a trapped `freebsd11_stat`, `src/library_runner.cc:709-715` with
`CallbackPtrArg<struct stat, Out>` (`:506-576`): make the object good for the host, let the host write what it found
(`none`: the call failed), copy back.  Only the object is followed here; the copies of the path and of the message
are those of `Verif.ChildArgs`. -/
def statCall (b : ChildArgs.Bounds) (c : Child) (buf : Word) (found : Option Stat) : Outcome Child :=
  match wrapPtr b c buf statSize with
  | .ok (w, c1) =>
    let c2 := match found with
      | some s => { c1 with mem := write c1.mem w.arg s.bytes }
      | none => c1
    .ok (unwrap true c2 w statSize)
  | .abort => .abort
  | .throws => .throws
  | .ub => .ub

end Verif.BsdPath
