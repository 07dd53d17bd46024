import Verif.Seccomp.Spec
import Verif.PathSyscall.Spec
import Verif.Authority.Spec
import Verif.Reach.Model

/-!
# The descriptors that a sandboxed process ever holds (specification)

What system calls give is taken from the Linux manual (the section RETURN VALUE of the page of each call, and `unix(7)`
for messages that carry descriptors); it does not depend on the policy.
-/

namespace Verif.Reach.Spec

open Verif.Authority (Action)
open Verif.Authority.Spec (exportsTo handlersFor)
open Verif.PathSyscall.Spec (SafeName join)
open Verif.Seccomp (designatesSelf)

/-- Calls that make a new object without a name: pipes, sockets, memory files, queues of events, rings, and threads or
processes of its own with their descriptors. -/
def makers : List (String × Nat) :=
  [("pipe", 22), ("pipe2", 293), ("socket", 41), ("socketpair", 53), ("epoll_create", 213), ("epoll_create1", 291),
   ("eventfd", 284), ("eventfd2", 290), ("timerfd_create", 283), ("signalfd", 282), ("signalfd4", 289),
   ("inotify_init", 253), ("inotify_init1", 294), ("fanotify_init", 300), ("memfd_create", 319), ("memfd_secret", 447),
   ("userfaultfd", 323), ("landlock_create_ruleset", 444), ("io_uring_setup", 425), ("clone", 56), ("clone3", 435)]

/-- Calls that give another descriptor for an object, or what came in through it. -/
def passers : List (String × Nat) :=
  [("dup", 32), ("dup2", 33), ("dup3", 292), ("fcntl", 72), ("accept", 43), ("accept4", 288), ("recvmsg", 47),
   ("recvmmsg", 299), ("read", 0), ("readv", 19), ("ioctl", 16)]

/-- Calls that give a descriptor for something that the caller names by a path, a file handle, a number that is valid
for the whole system, or in a ring (`io_uring_setup(2)`: with `IORING_SETUP_SQPOLL` the kernel serves the ring without a
further call).  Starting a program is not among them: it gives a descriptor only with the flag `O` of `binfmt_misc`. -/
def namers : List (String × Nat) :=
  [("open", 2), ("creat", 85), ("mq_open", 240), ("openat", 257), ("perf_event_open", 298), ("open_by_handle_at", 304),
   ("bpf", 321), ("io_uring_setup", 425), ("io_uring_enter", 426), ("open_tree", 428), ("fsopen", 430),
   ("fsmount", 432), ("fspick", 433), ("openat2", 437), ("pidfd_getfd", 438)]

/-- What a call that is executed may give to the process with number `self` that holds `held`.  `pidfd_open` is
number 434. -/
inductive Gives (self : Word) (c : Seccomp.Call) (held : List Src) : Src → Prop where
  | make (p : String × Nat) : p ∈ makers → p.2 = c.nr → Gives self c held (.new c.nr)
  | pass (p : String × Nat) (s : Src) : p ∈ passers → p.2 = c.nr → s ∈ held → Gives self c held (.via c.nr s)
  | name (p : String × Nat) : p ∈ namers → p.2 = c.nr → Gives self c held (.named c.nr)
  | itself : c.nr = 434 → designatesSelf self c.arg0 → Gives self c held .itself
  | other : c.nr = 434 → ¬ designatesSelf self c.arg0 → Gives self c held (.named c.nr)

/-- Where a descriptor comes from in the end. -/
def origin : Src → Src
  | .via _ s => origin s
  | s => s

/-- What the process of sandbox `i` is entitled to after the actions `as`: what it was started with, at the numbers of
`sandbox_fd_numbers.h` and the three streams; what it made; itself; copies of files exported to it; what lies beneath a
directory exported to it (a null path with an exported file is refused by the kernel); and what the handlers registered
for it return. -/
inductive Granted (as : List Action) (i : Nat) : Src → Prop where
  | start (n : Nat) : n < 8 → Granted as i (.start n)
  | new (nr : Nat) : Granted as i (.new nr)
  | itself : Granted as i .itself
  | copy (e : FileTree.Export) : e ∈ exportsTo i as → e.isDir = false → Granted as i (.copy e.handle)
  | under (e : FileTree.Export) (ns : List (List Byte)) : e ∈ exportsTo i as → e.isDir = true → ns ≠ [] →
      (∀ n ∈ ns, SafeName n) → Granted as i (.under e.handle (some (join ns)))
  | null (e : FileTree.Export) : e ∈ exportsTo i as → e.isDir = false → Granted as i (.under e.handle none)
  | handler (h : Nat) : h ∈ handlersFor i as → Granted as i (.handler h)

/-- The actions among the events, in their order. -/
def actions (evs : List Ev) : List Action :=
  evs.filterMap (fun ev => match ev with | .act a => some a | .call _ => none)

/-- What is asked of the host's surroundings in a run (`Authority.Sane`, spelt out): the allocator of the sandbox gives
blocks of its heap and the functions for lookups return lists of reasonable length. -/
def Surroundings (ok : Nat → Authority.Outside → Prop) (evs : List Ev) : Prop :=
  ∀ i o p, Ev.act (.message i o p) ∈ evs → ok i o

end Verif.Reach.Spec
