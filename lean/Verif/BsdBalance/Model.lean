import Verif.BsdAuthority.Model
import Verif.Balance.Model

/-!
# The host's descriptors while it handles messages on FreeBSD (model)

As `Verif.Balance`, with the system calls that the host makes on FreeBSD
(`include/process_sandbox/platform/safe_syscalls-freebsd.h`).
-/

namespace Verif.BsdBalance

open Verif.Fd
open Verif.Bounds (Region)
open Verif.Callback (Request Result)
open Verif.BsdPath (Entry Log)
open Verif.Authority (Lib)
open Verif.BsdAuthority (Outside Effects run)

/-- What a system call of a handler does to the descriptor table (kernel; the calls are those of
`include/process_sandbox/platform/safe_syscalls-freebsd.h:23-47`, `src/libsandbox.cc:427`, and the `close` of a `Handle`,
`include/process_sandbox/platform/platform.h:65-72`).  `obj` is the file that was opened. -/
def apply (obj : Obj) (t : Table) (e : Entry) : Table :=
  match e.op with
  | .openat .. => if 0 ≤ e.ret then t.put e.ret.toNat (some obj) else t
  | .dup _ => if 0 ≤ e.ret then t.put e.ret.toNat (some obj) else t
  | .close fd => close t fd
  | .fstat .. => t
  | .faccessat .. => t
  | .fstatat .. => t

/-- The table after several calls (`src/libsandbox.cc:385-607`). -/
def replay (obj : Obj) (t : Table) (log : Log) : Table := log.foldl (apply obj) t

/-- `recvmsg` of a request (`include/process_sandbox/platform/socketpair_posix.h:76-121`): the layout of the control message is
that of Linux, but if there is no number for the descriptor, the call fails and the packet is lost (`unp_externalize`). -/
def receive (lim : Nat) (t : Table) (p : Socket.Packet) : Bool × List Byte × Int × Table :=
  if p.fds ≠ [] ∧ lowest lim t = none then (false, [], -1, t)
  else Socket.receive lim t Callback.requestSize (-1) [.packet p]

/-- The value of `ret` in `handle`, `src/libsandbox.cc:672-676`, and what is done meanwhile. -/
def answer (hdr : Word) (r : Region) (l : Lib) (o : Outside) (q : Request) (fd : Int) : Outcome Result × Effects :=
  match Callback.dispatch l.table.handlers q.kind with
  | some h => run hdr r l o h q fd
  | none => (BsdNet.noSys (.ok {}), {})

/-- The rest of `handle` after the message has been received with descriptor `fd`, `src/libsandbox.cc:672-681`: the
handler makes its calls; `fd` is closed with the last `Handle` that holds it, which is the parameter of `handle_openat`
(`:437-445`, part of its calls) or that of `invoke` (`include/process_sandbox/callbacks.h:146-150`); at the end the
descriptor in the reply is closed, sent or not. -/
def finish (obj : Obj) (hdr : Word) (r : Region) (l : Lib) (o : Outside) (q : Request) (fd : Int) (t : Table) :
    Outcome Table :=
  match answer hdr r l o q fd with
  | (.ok res, e) =>
    let t2 := replay obj t e.log
    let t3 := if q.kind = 3 ∧ e.log ≠ [] then t2 else close t2 fd
    .ok (close t3 res.handle)
  | (.abort, _) => .abort
  | (.throws, _) => .throws
  | (.ub, _) => .ub

/-- One call of `handle`, `src/libsandbox.cc:661-681`: the packet that is on the socket, and what the host's environment
does (which may depend on the table). -/
def turn (lim : Nat) (obj : Obj) (hdr : Word) (r : Region) (l : Lib) (m : (Table → Outside) × Socket.Packet)
    (t : Table) : Outcome Table :=
  match receive lim t m.2 with
  | (true, bs, fd, t1) => finish obj hdr r l (m.1 t1) (Balance.decode bs) fd t1
  | (false, _, _, t1) => .ok t1

/-- Several messages, one after the other (`src/libsandbox.cc:661-681`). -/
def turns (lim : Nat) (obj : Obj) (hdr : Word) (r : Region) (l : Lib) :
    List ((Table → Outside) × Socket.Packet) → Table → Outcome Table
  | [], t => .ok t
  | m :: ms, t =>
    match turn lim obj hdr r l m t with
    | .ok t' => turns lim obj hdr r l ms t'
    | .abort => .abort
    | .throws => .throws
    | .ub => .ub

end Verif.BsdBalance
