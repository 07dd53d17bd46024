import Verif.EndToEnd.Model
import Verif.Net.Model

/-!
# `bind` and `connect` of the sandboxed program, from its registers to the host's policy and back (model)

Put together from the signal handler (`Verif.Syscall`), the copy of the address (`Verif.ChildArgs.wrapSockAddr`), the
host's dispatcher (`Verif.Callback`), the handler and the policy (`Verif.Net`), with the bytes that pass between them,
as `Verif.EndToEnd` does for the calls on paths.  One thread of the child is considered; while it waits for the answer
nobody else writes to the shared memory.
-/

namespace Verif.NetEnd

open Verif.Strings (writeBytes)
open Verif.Callback (Handler Packet Event Result requestSize)
open Verif.Net (Op Policies Callee SockArgs SockOut handleBindOrConnect)
open Verif.ChildArgs (Bounds Child Wrapped wrapPtr wrapSockAddr unwrap)
open Verif.Syscall (CInt Regs Info Arg Reply)
open Verif.EndToEnd (le ofLe answerOf)

/-- The functions that a policy called (`include/process_sandbox/netpolicy.h:220-244`), with their arguments. -/
abbrev Calls := List (Callee × SockArgs)

/-- Besides the world of `Verif.EndToEnd`: the policies, what the system's and the registered functions do
(`include/process_sandbox/netpolicy.h:136-161`), the unused bytes of the argument tuple (`src/library_runner.cc:669`),
and from the kernel, the number in the host of the copy of a descriptor of the child's that is sent over the socket;
`none` if the child has no such descriptor (`include/process_sandbox/platform/socketpair_posix.h:48-70`). -/
structure World extends EndToEnd.World where
  policies : Policies
  call : Callee → SockArgs → Int × Int
  pad1 : List Byte
  pad2 : List Byte
  passed : CInt → Option Int

/-- The tuple `int, uintptr_t, socklen_t` on the stack, `src/library_runner.cc:669` and `:751-755`; libstdc++ on x86-64
puts the last member first. -/
def encode (w : World) (s : CInt) (addr : Word) (len : CInt) : List Byte :=
  le 4 len.toNat ++ w.pad1 ++ le 8 addr.toNat ++ le 4 s.toNat ++ w.pad2

/-- `sizeof(rpc_type)` for `bind` and `connect` (`src/library_runner.cc:669-670`,
`include/process_sandbox/callbacks.h:149`). -/
def frameSize : Nat := 24

/-- `std::get<1>(args)` and `std::get<2>(args)` of the private copy, `src/libsandbox.cc:459-460`.  The number of the
descriptor in the child is not looked at. -/
def addrArg (bs : List Byte) : Word := .ofNat 64 (ofLe ((bs.drop 8).take 8))

/-- See `addrArg` (`src/libsandbox.cc:460`). -/
def lenArg (bs : List Byte) : CInt := .ofNat 32 (ofLe (bs.take 4))

/-- The operation of a kind, `src/libsandbox.cc:730-737`, `include/process_sandbox/callback_numbers.h:46-50`. -/
def opOf : Nat → Option Op
  | 4 => some .bind
  | 5 => some .connect
  | _ => none

/-- `handle_bind_or_connect` on the private copy of the frame, `src/libsandbox.cc:452-477`.  Kinds other than `Bind` and
`Connect` are not part of this model. -/
def served (w : World) (m : Mem) (kind : Nat) (bs : List Byte) (fd : Int) : SockOut :=
  match opOf kind with
  | some op => handleBindOrConnect w.hdr w.region w.policies op w.call m fd (addrArg bs) (lenArg bs)
  | none => ⟨.ok {}, [], []⟩

/-- `handlers[kind]->invoke(lib, req, in_fd)`, `src/libsandbox.cc:675`. -/
def run (w : World) (m : Mem) (h : Handler) (q : Callback.Request) (fd : Int) : Outcome Result × List Word :=
  match h with
  | .builtin k => Callback.invoke w.hdr w.region frameSize (fun bs f => (served w m k bs f).result) m q fd
  | _ => (.ok {}, [])

/-- The functions called while a request is served: the handler runs on the bytes that `invoke` copied, if it copied
any (`include/process_sandbox/callbacks.h:158-172`). -/
def effects (w : World) (m : Mem) (p : Packet) : Calls :=
  match Callback.dispatch w.table p.req.kind with
  | some (.builtin k) =>
    let addrs := (run w m (.builtin k) p.req p.fd).2
    if addrs = [] then [] else (served w m k (addrs.map m) p.fd).calls
  | _ => []

/-- One turn of the dispatcher, `src/libsandbox.cc:661-681`: the events and the functions called. -/
def turn (w : World) (m : Mem) (p : Packet) : Outcome (List Event) × Calls :=
  (Callback.handle w.table (fun h q f => (run w m h q f).1) (some p) true, effects w m p)

/-- The descriptor that arrives in the host with the message, `src/library_runner.cc:448-458`,
`include/process_sandbox/platform/socketpair_posix.h:44-70`: a negative number is not sent; if the child has no such
descriptor, `sendmsg` fails, and `callback` ends the child (`abort`). -/
def pass (w : World) (s : CInt) : Outcome Int :=
  if s.toInt < 0 then .ok (-1)
  else
    match w.passed s with
    | some h => .ok h
    | none => .abort

/-- `callback`, `src/library_runner.cc:446-475`: send the request, give up the turn, take the answer. -/
def callback (w : World) (c : Child) (kind : Nat) (data : Word) (s : CInt) : Outcome (Reply × Calls × Child) :=
  match pass w s with
  | .ok fd =>
    match turn w c.mem ⟨requestSize, ⟨.ofNat 64 kind, .ofNat 64 frameSize, data⟩, fd⟩ with
    | (.ok es, calls) =>
      match answerOf es with
      | some (i, h) => .ok (EndToEnd.reply w.toWorld i h, calls, c)
      | none => .abort
    | (.abort, _) => .abort
    | (.throws, _) => .throws
    | (.ub, _) => .ub
  | .abort => .abort
  | .throws => .throws
  | .ub => .ub

/-- `syscall_callback_helper`, `src/library_runner.cc:666-671`: the tuple is built on the stack, copied to the heap if
need be, and sent with the descriptor; the copy is freed at the end. -/
def send (w : World) (c : Child) (kind : Nat) (s : CInt) (addr : Word) (len : CInt) :
    Outcome (Reply × Calls × Child) :=
  let c := { c with mem := writeBytes c.mem w.sp (encode w s addr len) }
  match wrapPtr w.bounds c w.sp frameSize with
  | .ok (f, c) =>
    match callback w c kind f.arg s with
    | .ok (r, calls, c) => .ok (r, calls, unwrap false c f frameSize)
    | .abort => .abort
    | .throws => .throws
    | .ub => .ub
  | .abort => .abort
  | .throws => .throws
  | .ub => .ub

/-- `callback_bind_or_connect`, `src/library_runner.cc:735-756`.  Other requests are not part of this model (`ub`). -/
def request (w : World) (c : Child) (q : Syscall.Request) : Outcome (Reply × Calls × Child) :=
  match q.args with
  | [.int s, .raw addr, .int len] =>
    match wrapSockAddr w.bounds c addr len.toNat with
    | .ok (a, c) =>
      match send w c q.kind s a.arg len with
      | .ok (r, calls, c) => .ok (r, calls, unwrap false c a len.toNat)
      | .abort => .abort
      | .throws => .throws
      | .ub => .ub
    | .abort => .abort
    | .throws => .throws
    | .ub => .ub
  | _ => .ub

/-- The host as the signal handler sees it (`src/library_runner.cc:666-693`); where there is no answer the value plays
no part, see `trap`. -/
def hostOf (w : World) (c : Child) (q : Syscall.Request) : Reply :=
  match request w c q with
  | .ok (r, _, _) => r
  | _ => ⟨0, none⟩

/-- A trapped system call: the handler `emulate` (`src/library_runner.cc:887-895`) with the host behind it. -/
def trap (w : World) (c : Child) (i : Info) (r : Regs) : Outcome (Regs × Calls × Child) :=
  match Syscall.emulate ⟨hostOf w c, w.pid, w.str, fun f => f⟩ i r with
  | .ok (r', [q]) =>
    match request w c q with
    | .ok (_, calls, c') => .ok (r', calls, c')
    | .abort => .abort
    | .throws => .throws
    | .ub => .ub
  | .ok (r', _) => .ok (r', [], c)
  | .abort => .abort
  | .throws => .throws
  | .ub => .ub

end Verif.NetEnd
