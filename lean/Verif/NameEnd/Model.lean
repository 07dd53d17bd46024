import Verif.NetEnd.Model
import Verif.AddrInfo.Model

/-!
# `getaddrinfo` of the sandboxed program, from the call to the host's policy and back (model)

Put together from the child's argument wrappers (`Verif.ChildArgs.wrapGetAddrInfo`), the host's dispatcher
(`Verif.Callback`) and its handler (`Verif.AddrInfo`), with the bytes that pass between them.  One thread of the child
is considered; while it waits for the answer only the host writes to the shared memory.
-/

namespace Verif.NameEnd

open Verif.Strings (writeBytes)
open Verif.Callback (Handler Packet Event Result requestSize)
open Verif.Net (Callee)
open Verif.AddrInfo (Query Info Out handleGetaddrinfo applyStores infoSize)
open Verif.ChildArgs (Bounds Child Wrapped wrapPtr wrapGetAddrInfo unwrap blit)
open Verif.Syscall (CInt Reply)
open Verif.EndToEnd (le ofLe answerOf)

/-- The functions that the policy called (`include/process_sandbox/netpolicy.h:220-244`), with their arguments. -/
abbrev Calls := List (Callee × Query)

/-- Besides the world of `Verif.NetEnd`: what the functions for name lookups give (result, `errno`, list;
`src/libsandbox.cc:523-525`), the sandbox's allocator as the host uses it (`:541`), and the place of `localRes` on the
child's stack (`src/library_runner.cc:967`). -/
structure World extends toNet : NetEnd.World where
  look : Callee → Query → (Int × Int) × List Info
  alloc : Word → Option Word
  localRes : Word

/-- What `handle_getaddrinfo` depends on, when the shared memory holds `m` while it copies its arguments
(`src/libsandbox.cc:484-525`). -/
def World.env (w : World) (m : Mem) : AddrInfo.Env :=
  ⟨w.hdr, w.region, w.malloc, w.policies, w.look, w.alloc, (m, m), (m, m), m⟩

/-- The tuple of four `uintptr_t`, `src/library_runner.cc:652` and `include/process_sandbox/callbacks.h:219-250`;
libstdc++ on x86-64 puts the last member first. -/
def encode (host serv hints res : Word) : List Byte :=
  le 8 res.toNat ++ le 8 hints.toNat ++ le 8 serv.toNat ++ le 8 host.toNat

/-- `sizeof(rpc_type)` for `getaddrinfo` (`src/library_runner.cc:652`, `include/process_sandbox/callbacks.h:149`). -/
def frameSize : Nat := 32

/-- `std::get<i>(args)` of the private copy (`src/libsandbox.cc:489`, `:494`, `:521-522`). -/
def arg (bs : List Byte) (i : Nat) : Word := .ofNat 64 (ofLe ((bs.drop (8 * (3 - i))).take 8))

/-- `handle_getaddrinfo` on the private copy of the frame, `src/libsandbox.cc:484-571`.  Kinds other than `GetAddrInfo`
(`include/process_sandbox/callback_numbers.h:57-68`) are not part of this model. -/
def served (w : World) (m : Mem) (kind : Nat) (bs : List Byte) : Out :=
  if kind = 6 then handleGetaddrinfo (w.env m) (arg bs 0) (arg bs 1) (arg bs 2) (arg bs 3)
  else ⟨.ok {}, [], [], false⟩

/-- `handlers[kind]->invoke(lib, req, in_fd)`, `src/libsandbox.cc:675`. -/
def run (w : World) (m : Mem) (h : Handler) (q : Callback.Request) (fd : Int) : Outcome Result × List Word :=
  match h with
  | .builtin k => Callback.invoke w.hdr w.region frameSize (fun bs _ => (served w m k bs).result) m q fd
  | _ => (.ok {}, [])

/-- What serving a request does besides giving a result: the functions called and the memory afterwards.  The handler
runs on the bytes that `invoke` copied, if it copied any (`include/process_sandbox/callbacks.h:158-172`). -/
def effects (w : World) (m : Mem) (p : Packet) : Calls × Mem :=
  match Callback.dispatch w.table p.req.kind with
  | some (.builtin k) =>
    let addrs := (run w m (.builtin k) p.req p.fd).2
    if addrs = [] then ([], m)
    else ((served w m k (addrs.map m)).calls, applyStores m (served w m k (addrs.map m)).stores)
  | _ => ([], m)

/-- One turn of the dispatcher, `src/libsandbox.cc:661-681`: the events, the functions called, the memory. -/
def turn (w : World) (m : Mem) (p : Packet) : Outcome (List Event) × Calls × Mem :=
  (Callback.handle w.table (fun h q f => (run w m h q f).1) (some p) true, effects w m p)

/-- `callback`, `src/library_runner.cc:446-475`, without a descriptor. -/
def callback (w : World) (c : Child) (data : Word) : Outcome (Reply × Calls × Child) :=
  match turn w c.mem ⟨requestSize, ⟨6, .ofNat 64 frameSize, data⟩, -1⟩ with
  | (.ok es, calls, m) =>
    match answerOf es with
    | some (i, r) => .ok (EndToEnd.reply w.toNet.toWorld i r, calls, { c with mem := m })
    | none => .abort
  | (.abort, _) => .abort
  | (.throws, _) => .throws
  | (.ub, _) => .ub

/-- `callback_helper`, `src/library_runner.cc:649-655`: the tuple is built on the stack, copied to the heap if need be,
and sent; the copy is freed at the end. -/
def send (w : World) (c : Child) (host serv hints res : Word) : Outcome (Reply × Calls × Child) :=
  let c := { c with mem := writeBytes c.mem w.sp (encode host serv hints res) }
  match wrapPtr w.bounds c w.sp frameSize with
  | .ok (f, c) =>
    match callback w c f.arg with
    | .ok (r, calls, c) => .ok (r, calls, unwrap false c f frameSize)
    | .abort => .abort
    | .throws => .throws
    | .ub => .ub
  | .abort => .abort
  | .throws => .throws
  | .ub => .ub

/-- Release the arguments, last first (`src/library_runner.cc:546-556`): `localRes` is an output and is copied back, the
others are not. -/
def release (c : Child) (h s hi r : Wrapped) (hostLen servLen : Nat) : Child :=
  unwrap false (unwrap false (unwrap false (unwrap true c r 8) hi infoSize) s (servLen + 1)) h (hostLen + 1)

/-- `getaddrinfo`, `src/library_runner.cc:961-977`.  `localRes` has no initial value: it holds whatever bytes the stack
has there.  A descriptor in the answer is dropped, and of the number the lower half is returned.
`*res` is written whether or not the lookup succeeded. -/
def getaddrinfo (w : World) (c : Child) (host serv hints res : Word) (hostLen servLen : Nat) :
    Outcome (CInt × Calls × Child) :=
  match wrapGetAddrInfo w.bounds c host serv hints w.localRes hostLen servLen infoSize with
  | .ok ([h, s, hi, r], c) =>
    match send w c h.arg s.arg hi.arg r.arg with
    | .ok (rep, calls, c) =>
      let c := release c h s hi r hostLen servLen
      if res = 0 then .ub
      else .ok (rep.response.setWidth 32, calls, { c with mem := blit c.mem res w.localRes 8 })
    | .abort => .abort
    | .throws => .throws
    | .ub => .ub
  | .ok _ => .ub
  | .abort => .abort
  | .throws => .throws
  | .ub => .ub

end Verif.NameEnd
