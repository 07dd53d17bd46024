import Verif.Authority.Model
import Verif.Socket.Model

/-!
# The host's descriptors while it handles messages (model)

The dispatcher of `src/libsandbox.cc:661-681` from the packet on the socket to the end of `handle`, as far as descriptors
are concerned: the one that comes with the message, those that the handlers open and close, and the one in the reply.
-/

namespace Verif.Balance

open Verif.Fd
open Verif.Bounds (Region)
open Verif.Callback (Request Result)
open Verif.PathSyscall (Entry Log)
open Verif.Authority (Lib Outside effects run)
open Verif.EndToEnd (ofLe)

/-- What a system call of a handler does to the descriptor table (kernel; the calls are those of
`include/process_sandbox/platform/safe_syscalls-linux.h:92-154`, `src/libsandbox.cc:427`, and the `close` of a `Handle`,
`include/process_sandbox/platform/platform.h:65-72`).  `obj` is the file that was opened. -/
def apply (obj : Obj) (t : Table) (e : Entry) : Table :=
  match e.op with
  | .openat2 .. => if 0 ≤ e.ret then t.put e.ret.toNat (some obj) else t
  | .dup _ => if 0 ≤ e.ret then t.put e.ret.toNat (some obj) else t
  | .close fd => close t fd
  | .fstat .. => t
  | .faccessat2 .. => t
  | .fstatat .. => t

/-- The table after several calls (`src/libsandbox.cc:385-607`). -/
def replay (obj : Obj) (t : Table) (log : Log) : Table := log.foldl (apply obj) t

/-- The bytes of a `CallbackRequest` as the host receives them (`include/process_sandbox/callbacks.h:28-49`). -/
def decode (bs : List Byte) : Request :=
  ⟨.ofNat 64 (ofLe (bs.take 8)), .ofNat 64 (ofLe ((bs.drop 8).take 8)), .ofNat 64 (ofLe ((bs.drop 16).take 8))⟩

/-- The value of `ret` in `handle`, `src/libsandbox.cc:672-676`. -/
def answer (hdr : Word) (r : Region) (l : Lib) (o : Outside) (q : Request) (fd : Int) : Outcome Result :=
  match Callback.dispatch l.table.handlers q.kind with
  | none => .ok {}
  | some .base => .ok { integer := -ENOSYS }
  | some h => run hdr r l o h q fd

/-- The rest of `handle` after the message has been received with descriptor `fd`, `src/libsandbox.cc:672-681`: the
handler makes its calls; `fd` is closed with the last `Handle` that holds it, which is the parameter of `handle_openat`
(`:437-445`, part of its calls) or that of `invoke` (`include/process_sandbox/callbacks.h:146-150`); at the end the
descriptor in the reply is closed, sent or not. -/
def finish (obj : Obj) (hdr : Word) (r : Region) (l : Lib) (o : Outside) (q : Request) (fd : Int) (t : Table) :
    Outcome Table :=
  match answer hdr r l o q fd with
  | .ok res =>
    let log := (effects hdr r l o ⟨Callback.requestSize, q, fd⟩).log
    let t2 := replay obj t log
    let t3 := if q.kind = 3 ∧ log ≠ [] then t2 else close t2 fd
    .ok (close t3 res.handle)
  | .abort => .abort
  | .throws => .throws
  | .ub => .ub

/-- One call of `handle`, `src/libsandbox.cc:661-681`: the packet that is on the socket, and what the host's environment
does (which may depend on the table). -/
def turn (lim : Nat) (obj : Obj) (hdr : Word) (r : Region) (l : Lib) (m : (Table → Outside) × Socket.Packet)
    (t : Table) : Outcome Table :=
  match Socket.receive lim t Callback.requestSize (-1) [.packet m.2] with
  | (true, bs, fd, t1) => finish obj hdr r l (m.1 t1) (decode bs) fd t1
  | (false, _, _, t1) => .ok t1

/-- Several messages, one after the other (`src/libsandbox.cc:661-681`). -/
def turns (lim : Nat) (obj : Obj) (hdr : Word) (r : Region) (l : Lib) :
    List ((Table → Outside) × Socket.Packet) → Table → Outcome Table
  | [], t => .ok t
  | m :: ms, t =>
    match turn lim obj hdr r l m t with
    | .ok t' => turns lim obj hdr r l ms t'
    | .abort => .abort
    | .throws => .throws
    | .ub => .ub

end Verif.Balance
