import Verif.Basic

/-!
# The system-call filter (model)

Generated from the source: the calls of the policy in their order with their numbers on x86-64.  A call is
identified by its number; the name is kept for reading and checked against `numbering` in the specification.
-/

namespace Verif.Seccomp

/-- What the kernel does with a call: `SCMP_ACT_KILL`, `SCMP_ACT_LOG`, `SCMP_ACT_TRAP` and `SCMP_ACT_ALLOW`,
`include/process_sandbox/platform/sandbox_seccomp-bpf.h:70-88`.  With `log` the call is executed. -/
inductive Action where
  | kill
  | log
  | trap
  | allow
  deriving Repr, DecidableEq

/-- A condition on the first argument: none, `SCMP_CMP_EQ` and `SCMP_CMP_MASKED_EQ`
(`include/process_sandbox/platform/sandbox_seccomp-bpf.h:93-97`, `:337-342`). -/
inductive Cond where
  | always
  | eq (d : Word)
  | masked (mask d : Word)
  deriving Repr, DecidableEq

/-- Does the condition hold?  libseccomp compares all 64 bits
(`include/process_sandbox/platform/sandbox_seccomp-bpf.h:93-97`, `:337-342`). -/
def Cond.holds : Cond → Word → Bool
  | .always, _ => true
  | .eq d, a => a == d
  | .masked m d, a => a &&& m == d

/-- One `seccomp_rule_add`, `include/process_sandbox/platform/sandbox_seccomp-bpf.h:78-83`. -/
structure Rule where
  nr : Nat
  act : Action
  cond : Cond
  deriving Repr, DecidableEq

/-- Calls that are always allowed, `include/process_sandbox/platform/sandbox_seccomp-bpf.h:98-324`. -/
def allowed : List (String × Nat) :=
  [("read", 0), ("write", 1), ("close", 3), ("fstat", 5), ("poll", 7), ("lseek", 8), ("mmap", 9),
   ("mprotect", 10), ("munmap", 11), ("brk", 12), ("rt_sigaction", 13), ("rt_sigprocmask", 14),
   ("rt_sigreturn", 15), ("pread64", 17), ("pwrite64", 18), ("readv", 19), ("writev", 20),
   ("pipe", 22), ("select", 23), ("sched_yield", 24), ("mremap", 25), ("msync", 26),
   ("mincore", 27), ("madvise", 28), ("shmat", 30), ("shmctl", 31), ("pause", 34),
   ("nanosleep", 35), ("getitimer", 36), ("alarm", 37), ("setitimer", 38), ("getpid", 39),
   ("sendfile", 40), ("socket", 41), ("accept", 43), ("sendto", 44), ("recvfrom", 45),
   ("sendmsg", 46), ("recvmsg", 47), ("listen", 50), ("getsockname", 51), ("getpeername", 52),
   ("socketpair", 53), ("setsockopt", 54), ("getsockopt", 55), ("execve", 59), ("exit", 60),
   ("uname", 63), ("semop", 65), ("semctl", 66), ("shmdt", 67), ("msgsnd", 69), ("msgrcv", 70),
   ("msgctl", 71), ("flock", 73), ("fsync", 74), ("fdatasync", 75), ("getdents", 78),
   ("getcwd", 79), ("ftruncate", 77), ("fchdir", 81), ("fchmod", 91), ("fchown", 93),
   ("umask", 95), ("gettimeofday", 96), ("getrlimit", 97), ("getrusage", 98), ("sysinfo", 99),
   ("times", 100), ("getuid", 102), ("getgid", 104), ("setuid", 105), ("setgid", 106),
   ("geteuid", 107), ("getegid", 108), ("setpgid", 109), ("getppid", 110), ("getpgrp", 111),
   ("setsid", 112), ("setreuid", 113), ("setregid", 114), ("getgroups", 115), ("setgroups", 116),
   ("setresuid", 117), ("getresuid", 118), ("setresgid", 119), ("getresgid", 120),
   ("getpgid", 121), ("setfsuid", 122), ("setfsgid", 123), ("getsid", 124), ("capget", 125),
   ("capset", 126), ("rt_sigpending", 127), ("rt_sigtimedwait", 128), ("rt_sigqueueinfo", 129),
   ("rt_sigsuspend", 130), ("sigaltstack", 131), ("getpriority", 140), ("fstatfs", 138),
   ("sched_setparam", 142), ("sched_getparam", 143), ("sched_setscheduler", 144),
   ("sched_getscheduler", 145), ("sched_get_priority_max", 146), ("sched_get_priority_min", 147),
   ("sched_rr_get_interval", 148), ("mlock", 149), ("munlock", 150), ("mlockall", 151),
   ("munlockall", 152), ("vhangup", 153), ("modify_ldt", 154), ("arch_prctl", 158),
   ("setrlimit", 160), ("sync", 162), ("gettid", 186), ("readahead", 187), ("fsetxattr", 190),
   ("fgetxattr", 193), ("flistxattr", 196), ("fremovexattr", 199), ("time", 201), ("futex", 202),
   ("sched_setaffinity", 203), ("sched_getaffinity", 204), ("set_thread_area", 205),
   ("io_setup", 206), ("io_destroy", 207), ("io_getevents", 208), ("io_submit", 209),
   ("io_cancel", 210), ("get_thread_area", 211), ("epoll_create", 213), ("epoll_ctl_old", 214),
   ("epoll_wait_old", 215), ("getdents64", 217), ("set_tid_address", 218),
   ("restart_syscall", 219), ("semtimedop", 220), ("fadvise64", 221), ("timer_create", 222),
   ("timer_settime", 223), ("timer_gettime", 224), ("timer_getoverrun", 225),
   ("timer_delete", 226), ("clock_settime", 227), ("clock_gettime", 228), ("clock_getres", 229),
   ("clock_nanosleep", 230), ("exit_group", 231), ("epoll_wait", 232), ("epoll_ctl", 233),
   ("mbind", 237), ("set_mempolicy", 238), ("get_mempolicy", 239), ("mq_timedsend", 242),
   ("mq_timedreceive", 243), ("mq_notify", 244), ("mq_getsetattr", 245), ("ioprio_set", 251),
   ("ioprio_get", 252), ("inotify_init", 253), ("pselect6", 270), ("ppoll", 271),
   ("set_robust_list", 273), ("get_robust_list", 274), ("splice", 275), ("tee", 276),
   ("sync_file_range", 277), ("vmsplice", 278), ("utimensat", 280), ("epoll_pwait", 281),
   ("signalfd", 282), ("timerfd_create", 283), ("eventfd", 284), ("fallocate", 285),
   ("timerfd_settime", 286), ("timerfd_gettime", 287), ("accept4", 288), ("signalfd4", 289),
   ("eventfd2", 290), ("epoll_create1", 291), ("pipe2", 293), ("inotify_init1", 294),
   ("preadv", 295), ("pwritev", 296), ("rt_tgsigqueueinfo", 297), ("recvmmsg", 299),
   ("fanotify_init", 300), ("clock_adjtime", 305), ("syncfs", 306), ("sendmmsg", 307),
   ("setns", 308), ("getcpu", 309), ("sched_setattr", 314), ("sched_getattr", 315),
   ("getrandom", 318), ("memfd_create", 319), ("execveat", 322), ("userfaultfd", 323),
   ("membarrier", 324), ("mlock2", 325), ("copy_file_range", 326), ("preadv2", 327),
   ("pwritev2", 328), ("pkey_mprotect", 329), ("pkey_alloc", 330), ("pkey_free", 331),
   ("io_pgetevents", 333), ("rseq", 334), ("pidfd_send_signal", 424), ("io_uring_setup", 425),
   ("io_uring_enter", 426), ("io_uring_register", 427), ("dup", 32), ("dup2", 33), ("fcntl", 72),
   ("dup3", 292)]

/-- Calls whose first argument must be the process itself, `include/process_sandbox/platform/sandbox_seccomp-bpf.h:328-334`. -/
def onSelf : List (String × Nat) :=
  [("prlimit64", 302), ("move_pages", 279), ("migrate_pages", 256), ("tgkill", 234),
   ("process_vm_readv", 310), ("process_vm_writev", 311), ("pidfd_open", 434)]

/-- The calls passed to `deny`, which adds no rule, `include/process_sandbox/platform/sandbox_seccomp-bpf.h:90` and `:345-404`. -/
def denied : List (String × Nat) :=
  [("fork", 57), ("vfork", 58), ("shutdown", 48), ("ptrace", 101), ("mknod", 133), ("uselib", 134),
   ("personality", 135), ("pivot_root", 155), ("_sysctl", 156), ("adjtimex", 159), ("chroot", 161),
   ("acct", 163), ("settimeofday", 164), ("mount", 165), ("umount2", 166), ("swapon", 167),
   ("swapoff", 168), ("reboot", 169), ("sethostname", 170), ("setdomainname", 171), ("iopl", 172),
   ("ioperm", 173), ("create_module", 174), ("init_module", 175), ("delete_module", 176),
   ("get_kernel_syms", 177), ("query_module", 178), ("quotactl", 179), ("nfsservctl", 180),
   ("getpmsg", 181), ("putpmsg", 182), ("afs_syscall", 183), ("tuxcall", 184), ("security", 185),
   ("tkill", 200), ("remap_file_pages", 216), ("lookup_dcookie", 212), ("vserver", 236),
   ("unshare", 272), ("seccomp", 317), ("kexec_file_load", 320), ("bpf", 321), ("open_tree", 428),
   ("move_mount", 429), ("fsopen", 430), ("fsconfig", 431), ("fsmount", 432), ("fspick", 433),
   ("kexec_load", 246), ("wait4", 61), ("waitid", 247), ("add_key", 248), ("request_key", 249),
   ("keyctl", 250), ("clone3", 435)]

/-- Calls that trap, `include/process_sandbox/platform/sandbox_seccomp-bpf.h:408-472`. -/
def trapped : List (String × Nat) :=
  [("open", 2), ("stat", 4), ("lstat", 6), ("ioctl", 16), ("access", 21), ("shmget", 29),
   ("connect", 42), ("bind", 49), ("kill", 62), ("semget", 64), ("msgget", 68), ("truncate", 76),
   ("chdir", 80), ("rename", 82), ("mkdir", 83), ("rmdir", 84), ("creat", 85), ("link", 86),
   ("unlink", 87), ("symlink", 88), ("readlink", 89), ("chmod", 90), ("chown", 92), ("lchown", 94),
   ("syslog", 103), ("utime", 132), ("ustat", 136), ("statfs", 137), ("sysfs", 139),
   ("setpriority", 141), ("prctl", 157), ("setxattr", 188), ("lsetxattr", 189), ("getxattr", 191),
   ("lgetxattr", 192), ("listxattr", 194), ("llistxattr", 195), ("removexattr", 197),
   ("lremovexattr", 198), ("utimes", 235), ("mq_open", 240), ("mq_unlink", 241),
   ("perf_event_open", 298), ("fanotify_mark", 301), ("name_to_handle_at", 303),
   ("open_by_handle_at", 304), ("renameat2", 316), ("statx", 332), ("openat", 257),
   ("mkdirat", 258), ("mknodat", 259), ("fchownat", 260), ("futimesat", 261), ("newfstatat", 262),
   ("unlinkat", 263), ("renameat", 264), ("linkat", 265), ("symlinkat", 266), ("readlinkat", 267),
   ("fchmodat", 268), ("faccessat", 269), ("inotify_add_watch", 254), ("inotify_rm_watch", 255)]

/-- `CLONE_THREAD` of `<sched.h>`, `include/process_sandbox/platform/sandbox_seccomp-bpf.h:341`. -/
def cloneThread : Word := 0x10000

/-- A system call as the kernel shows it to the filter: whether it comes through the native entry point (not the
32-bit or x32 one), its number and its first argument
(`include/process_sandbox/platform/sandbox_seccomp-bpf.h:68-73`, libseccomp's default architecture). -/
structure Call where
  native : Bool
  nr : Nat
  arg0 : Word
  deriving Repr, DecidableEq

/-- Does a rule apply to a call: its number and its condition (`include/process_sandbox/platform/sandbox_seccomp-bpf.h:78-83`)? -/
def Rule.hits (c : Call) (r : Rule) : Bool := r.nr == c.nr && r.cond.holds c.arg0

/-- A rule for a call, whatever its argument (`include/process_sandbox/platform/sandbox_seccomp-bpf.h:84-89`). -/
def always (act : Action) (p : String × Nat) : Rule := ⟨p.2, act, .always⟩

/-- `allow_on_self`, `include/process_sandbox/platform/sandbox_seccomp-bpf.h:93-97`. -/
def allowOnSelf (self : Word) (p : String × Nat) : List Rule :=
  [⟨p.2, .allow, .eq self⟩, ⟨p.2, .allow, .eq 0⟩]

/-- The rules in the order in which they are added, `include/process_sandbox/platform/sandbox_seccomp-bpf.h:98-472`; `self` is the result of
`getpid()` (line 92). -/
def rules (self : Word) : List Rule :=
  allowed.map (always .allow) ++ onSelf.flatMap (allowOnSelf self) ++
  [⟨56, .allow, .masked cloneThread cloneThread⟩] ++ trapped.map (always .trap)

/-- The filter libseccomp builds: a foreign entry point is killed, then the action of a rule for the number whose
condition holds, else the default.  No number has rules with different actions (`rules_agree`), so the order in
which libseccomp arranges them does not matter.  `include/process_sandbox/platform/sandbox_seccomp-bpf.h:66-473`. -/
def filter (dflt : Action) (rs : List Rule) (c : Call) : Action :=
  if c.native then
    match rs.find? (Rule.hits c) with
    | some r => r.act
    | none => dflt
  else .kill

/-- The default action, `include/process_sandbox/platform/sandbox_seccomp-bpf.h:69-73`: `SCMP_ACT_LOG` if `DEBUG_SANDBOX` is defined. -/
def dflt (debugSandbox : Bool) : Action := if debugSandbox then .log else .kill

/-- The policy, `apply_sandboxing_policy_postexec`, `include/process_sandbox/platform/sandbox_seccomp-bpf.h:66-478`. -/
def policy (debugSandbox : Bool) (self : Word) (c : Call) : Action :=
  filter (dflt debugSandbox) (rules self) c

/-- The answers of libseccomp while the policy is installed: `seccomp_init`, each `seccomp_rule_add` by its
position, and `seccomp_load` (`include/process_sandbox/platform/sandbox_seccomp-bpf.h:70`, `:79-83`, `:475`). -/
structure Answers where
  init : Bool
  add : Nat → Bool
  load : Bool

/-- The state in which `apply_sandboxing_policy_postexec` leaves the process
(`include/process_sandbox/platform/sandbox_seccomp-bpf.h:68-480`). -/
inductive Installed where
  /-- The filter with these rules is active. -/
  | active (rs : List Rule)
  /-- An `assert` stopped the process. -/
  | stopped
  /-- The function returned and no filter is active. -/
  | unprotected
  deriving Repr, DecidableEq

/-- Keep the rules whose addition succeeded (`include/process_sandbox/platform/sandbox_seccomp-bpf.h:78-83`). -/
def keep (add : Nat → Bool) : List Rule → Nat → List Rule
  | [], _ => []
  | r :: rs, i => if add i then r :: keep add rs (i + 1) else keep add rs (i + 1)

/-- Did every addition of `n` rules succeed: the variable `ret`, `include/process_sandbox/platform/sandbox_seccomp-bpf.h:76-83`. -/
def allAdded (add : Nat → Bool) : Nat → Bool
  | 0 => true
  | n + 1 => allAdded add n && add n

/-- Installing the policy, `include/process_sandbox/platform/sandbox_seccomp-bpf.h:66-478`.  The results are only looked at by `assert`, which does
nothing in a release build (`ndebug`).  Without a context nothing is added or loaded. -/
def install (ndebug : Bool) (a : Answers) (self : Word) : Installed :=
  if ndebug = false ∧ (a.init = false ∨ allAdded a.add (rules self).length = false ∨ a.load = false) then
    .stopped
  else if a.init = true ∧ a.load = true then .active (keep a.add (rules self) 0)
  else .unprotected

end Verif.Seccomp
