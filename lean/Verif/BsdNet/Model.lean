import Verif.NetEnd.Model
import Verif.FreeBsd.Model

/-!
# `bind` and `connect` of the sandboxed program on FreeBSD, from its registers to the host's policy and back (model)

As `Verif.NetEnd`, with what differs on FreeBSD: the frame of the signal handler (`Verif.FreeBsd`), the layout of the argument
tuple (libc++), and the number of `ENOSYS`.  The handler, the policies (`Verif.Net`), the dispatcher (`Verif.Callback`) and the
copies of the child (`Verif.ChildArgs`) are the same code.  One thread of the child is considered; while it waits for the answer
nobody else writes to the shared memory.
-/

namespace Verif.BsdNet

open Verif.Strings (writeBytes)
open Verif.Callback (Handler Packet Event Result requestSize)
open Verif.Net (Op SockOut handleBindOrConnect)
open Verif.ChildArgs (Child wrapPtr wrapSockAddr unwrap)
open Verif.Syscall (CInt Reply)
open Verif.EndToEnd (le ofLe answerOf)
open Verif.NetEnd (World Calls frameSize opOf pass)
open Verif.FreeBsd (Regs Info)

/-- The tuple `int, uintptr_t, socklen_t` on the stack, `src/library_runner.cc:669` and `:751-755`; libc++ puts the first member
first. -/
def encode (w : World) (s : CInt) (addr : Word) (len : CInt) : List Byte :=
  le 4 s.toNat ++ w.pad1 ++ le 8 addr.toNat ++ le 4 len.toNat ++ w.pad2

/-- `std::get<1>(args)` and `std::get<2>(args)` of the private copy, `src/libsandbox.cc:459-460`. -/
def addrArg (bs : List Byte) : Word := .ofNat 64 (ofLe ((bs.drop 8).take 8))

/-- See `addrArg` (`src/libsandbox.cc:460`). -/
def lenArg (bs : List Byte) : CInt := .ofNat 32 (ofLe ((bs.drop 16).take 4))

/-- `ENOSYS`, which the code names (`include/process_sandbox/callbacks.h:80`, `:110`, `include/process_sandbox/netpolicy.h:231`)
and which is 38 in the other models, is 78 on FreeBSD. -/
def noSys : Outcome Result → Outcome Result
  | .ok r => .ok (if r.integer = -38 then { r with integer := -78 } else r)
  | o => o

/-- `handle_bind_or_connect`, `src/libsandbox.cc:452-477`.  An answer for which no function was called is the code's own. -/
def handled (w : World) (op : Op) (m : Mem) (fd : Int) (addr : Word) (len : CInt) : SockOut :=
  let o := handleBindOrConnect w.hdr w.region w.policies op w.call m fd addr len
  if o.calls = [] then { o with result := noSys o.result } else o

/-- The handler on the private copy of the frame, `src/libsandbox.cc:452-477`.  Kinds other than `Bind` and `Connect` are not
part of this model. -/
def served (w : World) (m : Mem) (kind : Nat) (bs : List Byte) (fd : Int) : SockOut :=
  match opOf kind with
  | some op => handled w op m fd (addrArg bs) (lenArg bs)
  | none => ⟨noSys (.ok {}), [], []⟩

/-- `handlers[kind]->invoke(lib, req, in_fd)`, `src/libsandbox.cc:675`, `include/process_sandbox/callbacks.h:146-173`; a
message from which nothing is copied gets the code's own answer. -/
def run (w : World) (m : Mem) (h : Handler) (q : Callback.Request) (fd : Int) : Outcome Result × List Word :=
  match h with
  | .builtin k =>
    let (r, addrs) := Callback.invoke w.hdr w.region frameSize (fun bs f => (served w m k bs f).result) m q fd
    (if addrs = [] then noSys r else r, addrs)
  | _ => (noSys (.ok {}), [])

/-- The functions called while a request is served: the handler runs on the bytes that `invoke` copied, if it copied
any (`include/process_sandbox/callbacks.h:158-172`). -/
def effects (w : World) (m : Mem) (p : Packet) : Calls :=
  match Callback.dispatch w.table p.req.kind with
  | some (.builtin k) =>
    let addrs := (run w m (.builtin k) p.req p.fd).2
    if addrs = [] then [] else (served w m k (addrs.map m) p.fd).calls
  | _ => []

/-- One turn of the dispatcher, `src/libsandbox.cc:661-681`: the events and the functions called. -/
def turn (w : World) (m : Mem) (p : Packet) : Outcome (List Event) × Calls :=
  (Callback.handle w.table (fun h q f => (run w m h q f).1) (some p) true, effects w m p)

/-- `callback`, `src/library_runner.cc:446-475`: send the request, give up the turn, take the answer. -/
def callback (w : World) (c : Child) (kind : Nat) (data : Word) (s : CInt) : Outcome (Reply × Calls × Child) :=
  match pass w s with
  | .ok fd =>
    match turn w c.mem ⟨requestSize, ⟨.ofNat 64 kind, .ofNat 64 frameSize, data⟩, fd⟩ with
    | (.ok es, calls) =>
      match answerOf es with
      | some (i, h) => .ok (EndToEnd.reply w.toWorld i h, calls, c)
      | none => .abort
    | (.abort, _) => .abort
    | (.throws, _) => .throws
    | (.ub, _) => .ub
  | .abort => .abort
  | .throws => .throws
  | .ub => .ub

/-- `syscall_callback_helper`, `src/library_runner.cc:666-671`: the tuple is built on the stack, copied to the heap if
need be, and sent with the descriptor; the copy is freed at the end. -/
def send (w : World) (c : Child) (kind : Nat) (s : CInt) (addr : Word) (len : CInt) :
    Outcome (Reply × Calls × Child) :=
  let c := { c with mem := writeBytes c.mem w.sp (encode w s addr len) }
  match wrapPtr w.bounds c w.sp frameSize with
  | .ok (f, c) =>
    match callback w c kind f.arg s with
    | .ok (r, calls, c) => .ok (r, calls, unwrap false c f frameSize)
    | .abort => .abort
    | .throws => .throws
    | .ub => .ub
  | .abort => .abort
  | .throws => .throws
  | .ub => .ub

/-- `callback_bind_or_connect`, `src/library_runner.cc:735-756`.  Other requests are not part of this model (`ub`). -/
def request (w : World) (c : Child) (q : Syscall.Request) : Outcome (Reply × Calls × Child) :=
  match q.args with
  | [.int s, .raw addr, .int len] =>
    match wrapSockAddr w.bounds c addr len.toNat with
    | .ok (a, c) =>
      match send w c q.kind s a.arg len with
      | .ok (r, calls, c) => .ok (r, calls, unwrap false c a len.toNat)
      | .abort => .abort
      | .throws => .throws
      | .ub => .ub
    | .abort => .abort
    | .throws => .throws
    | .ub => .ub
  | _ => .ub

/-- The host as the signal handler sees it (`src/library_runner.cc:666-693`); where there is no answer the value plays
no part, see `trap`. -/
def hostOf (w : World) (c : Child) (q : Syscall.Request) : Reply :=
  match request w c q with
  | .ok (r, _, _) => r
  | _ => ⟨0, none⟩

/-- A system call that Capsicum refused: the handler `emulate` (`src/library_runner.cc:887-895`) with the host behind it. -/
def trap (w : World) (c : Child) (i : Info) (r : Regs) : Outcome (Regs × Calls × Child) :=
  match FreeBsd.emulate ⟨hostOf w c, w.pid, w.str, fun f => f⟩ i r with
  | .ok (r', [q]) =>
    match request w c q with
    | .ok (_, calls, c') => .ok (r', calls, c')
    | .abort => .abort
    | .throws => .throws
    | .ub => .ub
  | .ok (r', _) => .ok (r', [], c)
  | .abort => .abort
  | .throws => .throws
  | .ub => .ub

end Verif.BsdNet
