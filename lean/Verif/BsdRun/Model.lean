import Verif.BsdEnd.Model
import Verif.BsdNet.Model
import Verif.BsdRel.Model
import Verif.BsdName.Model
import Verif.Run.Model

/-!
# A whole run of a sandboxed program on FreeBSD (model)

As `Verif.Run`, with the calls of `Verif.BsdEnd` (`open`, `freebsd11_stat`, `access`, `openat`), `Verif.BsdRel` (`openat` with a
relative path), `Verif.BsdNet` (`bind`, `connect`), `Verif.BsdName` (`getaddrinfo`) and `Verif.UserEnd` (callbacks that the host has
registered).  One thread of the child is considered, and the host answers while it waits (`src/library_runner.cc:446-475`).
-/

namespace Verif.BsdRun

open Verif.BsdPath (HostOp Entry Log Kernel)
open Verif.ChildArgs (Child)
open Verif.Syscall (CInt)
open Verif.FreeBsd (Regs Info)
open Verif.Run (readString nameLength)

/-- What a program does next: it ends, it makes a system call, which Capsicum refuses (`src/library_runner.cc:887-895`), it calls
`invoke_user_callback` (`src/library_runner.cc:988-1004`), or it calls `getaddrinfo` (`src/library_runner.cc:961-977`).
The registers are those with which it does so. -/
inductive Act where
  | stop
  | sys (i : Info) (r : Regs)
  | back (idx : CInt) (data : Word) (size : Nat) (fd : CInt) (r : Regs)
  | look (host serv hints res : Word) (r : Regs)

/-- A program: from the memory and the registers with which it goes on, the memory that it leaves and what it does next
(the library that is loaded at `src/library_runner.cc:1093`). -/
abbrev Program := Mem → Regs → Mem × Act

/-- What has happened in the host (`src/libsandbox.cc:661-681`). -/
inductive Event where
  | host (log : Log)
  | net (calls : NetEnd.Calls)
  | user (calls : UserEnd.Calls)
  | look (calls : NameEnd.Calls)

/-- A system call of the host without the address at which it puts its result: which block the child has taken for a copy
makes no difference to the host (`src/libsandbox.cc:593-607`). -/
def plainOp : HostOp → HostOp
  | .fstat fd _ => .fstat fd 0
  | .fstatat fd path _ flags => .fstatat fd path 0 flags
  | op => op

/-- The same for calls with their results (`src/libsandbox.cc:593-607`). -/
def plain (log : Log) : Log := log.map fun e => { e with op := plainOp e.op }

/-- The same for everything that has happened (`src/libsandbox.cc:593-607`). -/
def Event.plain : Event → Event
  | .host log => .host (BsdRun.plain log)
  | e => e

/-- Besides the world of `Verif.UserEnd`: FreeBSD's kernel and the bytes of its `struct stat` (`src/libsandbox.cc:601-604`), what the
functions for name lookups give (`:523-525`), the sandbox's allocator as the host uses it (`:541`), and the place of
`localRes` on the child's stack (`src/library_runner.cc:967`). -/
structure World extends toUser : UserEnd.World where
  bsd : Kernel
  bsdStat : Log → List Byte
  look : Net.Callee → AddrInfo.Query → (Int × Int) × List AddrInfo.Info
  alloc : Word → Option Word
  localRes : Word

/-- The world as `Verif.BsdEnd` sees it (`src/libsandbox.cc:577-607`). -/
def World.path (w : World) : BsdEnd.World := ⟨w.toNet.toWorld, w.bsd, w.bsdStat⟩

/-- The world as `Verif.BsdRel` sees it (`src/libsandbox.cc:411-431`). -/
def World.rel (w : World) : BsdRel.World := ⟨w.toNet, w.bsd⟩

/-- The world as `Verif.BsdName` sees it (`src/library_runner.cc:961-977`). -/
def World.names (w : World) : NameEnd.World := ⟨w.toNet, w.look, w.alloc, w.localRes⟩

/-- The two processes at some time, given what has happened (`src/libsandbox.cc:300-330`, `:691-697`). -/
abbrev Worlds := List Event → World

/-- The world in which a call is made: what has happened so far, and the strings in the child's memory
(`src/library_runner.cc:792-797`).  No string is as long as the address space. -/
def now (W : Worlds) (past : List Event) (m : Mem) : World :=
  let w := W (past.map Event.plain)
  { w with toUser := { w.toUser with toNet := { w.toNet with toWorld :=
    { w.toNet.toWorld with str := readString m (2 ^ 64) } } } }

/-- The path that a call passes: the second argument of `openat` (`src/library_runner.cc:779`) and the first of the others
(`:698-727`), from the registers (`include/process_sandbox/platform/syscall_context_freebsd.h:118-137`). -/
def pathArg (i : Info) (r : Regs) : Word :=
  match FreeBsd.getArg i r (if FreeBsd.number i r = 499 then 1 else 0) with
  | .ok p => p
  | _ => 0

/-- The length of that path, as `strdup` finds it (`src/library_runner.cc:602`). -/
def pathLength (m : Mem) (i : Info) (r : Regs) : Nat := ((readString m (2 ^ 64) (pathArg i r)).getD []).length

/-- Whether a call is `openat` with a path that does not begin with a slash, `src/library_runner.cc:792-805`. -/
def isRelative (m : Mem) (i : Info) (r : Regs) : Prop :=
  FreeBsd.number i r = 499 ∧ ((readString m (2 ^ 64) (pathArg i r)).getD []).head? ≠ some 47

instance (m : Mem) (i : Info) (r : Regs) : Decidable (isRelative m i r) := inferInstanceAs (Decidable (_ ∧ _))

/-- `invoke_user_callback`, `src/library_runner.cc:988-1004`, on FreeBSD: the same code, and where nothing is called
the dispatcher's own answer has FreeBSD's number for `ENOSYS` (`include/process_sandbox/callbacks.h:80`, `:110`). -/
def invokeUser (w : World) (c : Child) (idx : CInt) (data : Word) (size : Nat) (fd : CInt) :
    Outcome (CInt × UserEnd.Calls × Child) :=
  match UserEnd.invokeUser w.toUser c idx data size fd with
  | .ok (v, calls, c') => .ok (if calls = [] ∧ v = -38 then -78 else v, calls, c')
  | o => o

/-- The child, the registers with which its program goes on, and what has happened (`src/library_runner.cc:887-895`). -/
structure State where
  child : Child
  regs : Regs
  past : List Event

/-- Up to the next call and back, `src/library_runner.cc:887-895` (the handler of the trap, which calls the function for
the number of the call, `:843-871`), `:988-1004` and `:961-977`; `none` if the program ends.  `blocks` is what the child's
`malloc` gives during the call.  Of the registers, a callback or a lookup changes the one with the result. -/
def step (W : Worlds) (P : Program) (blocks : List Word) (s : State) : Outcome (Option State) :=
  let m := (P s.child.mem s.regs).1
  let w := now W s.past m
  let c : Child := ⟨m, s.child.live, blocks⟩
  match (P s.child.mem s.regs).2 with
  | .stop => .ok none
  | .sys i r =>
    if FreeBsd.number i r = 104 ∨ FreeBsd.number i r = 98 then
      match BsdNet.trap w.toNet c i r with
      | .ok (r', calls, c') => .ok (some ⟨c', r', s.past ++ [.net calls]⟩)
      | .abort => .abort
      | .throws => .throws
      | .ub => .ub
    else if isRelative m i r then
      match BsdRel.trap w.rel c (pathLength m i r) i r with
      | .ok (r', log, c') => .ok (some ⟨c', r', s.past ++ [.host log]⟩)
      | .abort => .abort
      | .throws => .throws
      | .ub => .ub
    else
      match BsdEnd.trap w.path c (pathLength m i r) i r with
      | .ok (r', log, c') => .ok (some ⟨c', r', s.past ++ [.host log]⟩)
      | .abort => .abort
      | .throws => .throws
      | .ub => .ub
  | .back idx data size fd r =>
    match invokeUser w c idx data size fd with
    | .ok (v, calls, c') => .ok (some ⟨c', { r with rax := v.setWidth 64 }, s.past ++ [.user calls]⟩)
    | .abort => .abort
    | .throws => .throws
    | .ub => .ub
  | .look host serv hints res r =>
    match BsdName.getaddrinfo w.names c host serv hints res (nameLength m host) (nameLength m serv) with
    | .ok (v, calls, c') => .ok (some ⟨c', { r with rax := v.setWidth 64 }, s.past ++ [.look calls]⟩)
    | .abort => .abort
    | .throws => .throws
    | .ub => .ub

/-- So many calls, with what `malloc` gives during each (`src/library_runner.cc:887-895`); `none` if the program has ended
before. -/
def run (W : Worlds) (P : Program) : List (List Word) → State → Outcome (Option State)
  | [], s => .ok (some s)
  | b :: bs, s =>
    match step W P b s with
    | .ok (some s') => run W P bs s'
    | o => o

end Verif.BsdRun
