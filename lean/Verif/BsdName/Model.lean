import Verif.NameEnd.Model
import Verif.BsdNet.Model

/-!
# `getaddrinfo` of the sandboxed program on FreeBSD, from the call to the host's policy and back (model)

As `Verif.AddrInfo` and `Verif.NameEnd`, with what differs on FreeBSD: `struct addrinfo` (the pointer to the canonical name comes
before the one to the address), the numbers of the `EAI_*` codes, which are positive there, the number of `ENOSYS`, and the layout
of the argument tuple (libc++).  The policies (`Verif.Net`), the copies of the names (`Verif.Strings`), the dispatcher
(`Verif.Callback`) and the copies of the child (`Verif.ChildArgs`) are the same code.  One thread of the child is considered;
while it waits for the answer only the host writes to the shared memory.
-/

namespace Verif.BsdName

open Verif.Bounds (contains allocInSandbox)
open Verif.Strings (writeBytes strdupOut cText)
open Verif.Callback (Handler Packet Event Result requestSize)
open Verif.Net (Callee invoke)
open Verif.AddrInfo (Query Info Out Env Store leBytes applyStores infoSize extraOf blockSize copyHints)
open Verif.ChildArgs (Bounds Child Wrapped wrapPtr wrapGetAddrInfo unwrap blit)
open Verif.Syscall (CInt Reply)
open Verif.EndToEnd (le ofLe answerOf)
open Verif.NameEnd (World Calls frameSize release)
open Verif.BsdNet (noSys)

/-- The 48 bytes of `*cur` (`ais[i] = *cur`, `src/libsandbox.cc:554`) on FreeBSD: flags at 0, family 4, socktype 8, protocol 12,
addrlen 16, padding 20, canonname 24, addr 32, next 40. -/
def infoBytes (e : Info) : List Byte :=
  leBytes 4 e.flags.toNat ++ leBytes 4 e.family.toNat ++ leBytes 4 e.socktype.toNat ++
  leBytes 4 e.protocol.toNat ++ leBytes 4 e.addr.length ++ leBytes 4 e.pad.toNat ++
  leBytes 8 e.canon.toNat ++ leBytes 8 e.hostAddr.toNat ++ leBytes 8 e.hostNext.toNat

/-- The copy loop, `src/libsandbox.cc:552-560`: `ais` is the array, `sa` the place for the next socket address, `i` the index. -/
def copyLoop (ais sa : Word) (i : Nat) : List Info → List Store
  | [] => []
  | e :: es =>
    let p := ais + BitVec.ofNat 64 (infoSize * i)
    [⟨p, infoBytes e⟩,
     ⟨sa, e.addr⟩,
     ⟨p + 32, leBytes 8 sa.toNat⟩,
     ⟨p + 40, leBytes 8 (ais + BitVec.ofNat 64 (infoSize * (i + 1))).toNat⟩] ++
    copyLoop ais (sa + BitVec.ofNat 64 e.addr.length) (i + 1) es

/-- The stores made once the block `b` is allocated, `src/libsandbox.cc:540-563`.  `alloc<char>` first zero-fills the block
(`include/process_sandbox/sandbox.h:651-654`). -/
def fillBlock (b slot : Word) (es : List Info) : List Store :=
  [⟨b, List.replicate (blockSize es) 0⟩] ++
  copyLoop b (b + BitVec.ofNat 64 (infoSize * es.length)) 0 es ++
  [⟨b + BitVec.ofNat 64 (infoSize * (es.length - 1)) + 40, leBytes 8 0⟩,
   ⟨slot, leBytes 8 b.toNat⟩]

/-- `EAI_BADHINTS`, which FreeBSD has, so that the definition at `src/libsandbox.cc:40-42` is not used; named at `:505`. -/
def EAI_BADHINTS : Int := 12

/-- `EAI_MEMORY` of FreeBSD's `<netdb.h>` (`src/libsandbox.cc:492`, `:546`). -/
def EAI_MEMORY : Int := 6

/-- The part of `handle_getaddrinfo` after the policy was invoked, `src/libsandbox.cc:526-570`: `r` is the result and `errno`,
`res` the list. -/
def finish (v : Env) (slot : Word) (r : Int × Int) (res : List Info) (calls : Calls) : Out :=
  if r.1 = 0 then
    if res ≠ [] then
      match (allocInSandbox v.alloc 1 (BitVec.ofNat 64 (blockSize res))).1 with
      | none => ⟨.ok { integer := if EAI_MEMORY ≥ 0 then EAI_MEMORY else -r.2 }, calls, [], false⟩
      | some b => ⟨.ok { integer := 0 }, calls, fillBlock b slot res, true⟩
    else ⟨.ok { integer := 0 }, calls, [], false⟩
  else ⟨.ok { integer := if r.1 ≥ 0 then r.1 else -r.2 }, calls, [], false⟩

/-- The invocation of the policy and what follows, `src/libsandbox.cc:523-570`.  A policy that denies sets `errno` to `ENOSYS`
(`include/process_sandbox/netpolicy.h:231`), which is 78 on FreeBSD. -/
def ask (v : Env) (slot : Word) (q : Query) : Out :=
  match invoke v.policies .getAddrInfo (fun c q => (v.call c q).1) q with
  | .ok (r, []) => finish v slot (r.1, 78) [] []
  | .ok (r, (c, q) :: l) => finish v slot r (v.call c q).2 ((c, q) :: l)
  | .abort => ⟨.abort, [], [], false⟩
  | .throws => ⟨.throws, [], [], false⟩
  | .ub => ⟨.ub, [], [], false⟩

/-- `handle_getaddrinfo`, `src/libsandbox.cc:484-571`. -/
def handleGetaddrinfo (v : Env) (host service hints slot : Word) : Out :=
  if contains v.hdr v.region slot 8 = false then ⟨.ok { integer := EAI_MEMORY }, [], [], false⟩
  else if hints ≠ 0 ∧ contains v.hdr v.region hints (BitVec.ofNat 64 infoSize) = false then
    ⟨.ok { integer := EAI_BADHINTS }, [], [], false⟩
  else
    match (strdupOut v.hdr v.region v.malloc v.rdHost.1 v.rdHost.2 host).result,
        (strdupOut v.hdr v.region v.malloc v.rdService.1 v.rdService.2 service).result with
    | .ok hostCopy, .ok serviceCopy =>
      ask v slot ⟨hostCopy.map cText, serviceCopy.map cText, copyHints v hints⟩
    | _, _ => ⟨.ub, [], [], false⟩

/-- The tuple of four `uintptr_t`, `src/library_runner.cc:652` and `include/process_sandbox/callbacks.h:219-250`; libc++ puts the
first member first. -/
def encode (host serv hints res : Word) : List Byte :=
  le 8 host.toNat ++ le 8 serv.toNat ++ le 8 hints.toNat ++ le 8 res.toNat

/-- `std::get<i>(args)` of the private copy (`src/libsandbox.cc:489`, `:494`, `:521-522`). -/
def arg (bs : List Byte) (i : Nat) : Word := .ofNat 64 (ofLe ((bs.drop (8 * i)).take 8))

/-- `handle_getaddrinfo` on the private copy of the frame, `src/libsandbox.cc:484-571`.  Kinds other than `GetAddrInfo`
(`include/process_sandbox/callback_numbers.h:57-68`) are not part of this model. -/
def served (w : World) (m : Mem) (kind : Nat) (bs : List Byte) : Out :=
  if kind = 6 then handleGetaddrinfo (w.env m) (arg bs 0) (arg bs 1) (arg bs 2) (arg bs 3)
  else ⟨noSys (.ok {}), [], [], false⟩

/-- `handlers[kind]->invoke(lib, req, in_fd)`, `src/libsandbox.cc:675`, `include/process_sandbox/callbacks.h:146-173`; a message
from which nothing is copied gets the code's own answer. -/
def run (w : World) (m : Mem) (h : Handler) (q : Callback.Request) (fd : Int) : Outcome Result × List Word :=
  match h with
  | .builtin k =>
    let (r, addrs) := Callback.invoke w.hdr w.region frameSize (fun bs _ => (served w m k bs).result) m q fd
    (if addrs = [] then noSys r else r, addrs)
  | _ => (noSys (.ok {}), [])

/-- What serving a request does besides giving a result: the functions called and the memory afterwards.  The handler
runs on the bytes that `invoke` copied, if it copied any (`include/process_sandbox/callbacks.h:158-172`). -/
def effects (w : World) (m : Mem) (p : Packet) : Calls × Mem :=
  match Callback.dispatch w.table p.req.kind with
  | some (.builtin k) =>
    let addrs := (run w m (.builtin k) p.req p.fd).2
    if addrs = [] then ([], m)
    else ((served w m k (addrs.map m)).calls, applyStores m (served w m k (addrs.map m)).stores)
  | _ => ([], m)

/-- One turn of the dispatcher, `src/libsandbox.cc:661-681`: the events, the functions called, the memory. -/
def turn (w : World) (m : Mem) (p : Packet) : Outcome (List Event) × Calls × Mem :=
  (Callback.handle w.table (fun h q f => (run w m h q f).1) (some p) true, effects w m p)

/-- `callback`, `src/library_runner.cc:446-475`, without a descriptor. -/
def callback (w : World) (c : Child) (data : Word) : Outcome (Reply × Calls × Child) :=
  match turn w c.mem ⟨requestSize, ⟨6, .ofNat 64 frameSize, data⟩, -1⟩ with
  | (.ok es, calls, m) =>
    match answerOf es with
    | some (i, r) => .ok (EndToEnd.reply w.toNet.toWorld i r, calls, { c with mem := m })
    | none => .abort
  | (.abort, _) => .abort
  | (.throws, _) => .throws
  | (.ub, _) => .ub

/-- `callback_helper`, `src/library_runner.cc:649-655`: the tuple is built on the stack, copied to the heap if need be,
and sent; the copy is freed at the end. -/
def send (w : World) (c : Child) (host serv hints res : Word) : Outcome (Reply × Calls × Child) :=
  let c := { c with mem := writeBytes c.mem w.sp (encode host serv hints res) }
  match wrapPtr w.bounds c w.sp frameSize with
  | .ok (f, c) =>
    match callback w c f.arg with
    | .ok (r, calls, c) => .ok (r, calls, unwrap false c f frameSize)
    | .abort => .abort
    | .throws => .throws
    | .ub => .ub
  | .abort => .abort
  | .throws => .throws
  | .ub => .ub

/-- `getaddrinfo`, `src/library_runner.cc:961-977`.  `localRes` has no initial value: it holds whatever bytes the stack
has there.  A descriptor in the answer is dropped, and of the number the lower half is returned.
`*res` is written whether or not the lookup succeeded. -/
def getaddrinfo (w : World) (c : Child) (host serv hints res : Word) (hostLen servLen : Nat) :
    Outcome (CInt × Calls × Child) :=
  match wrapGetAddrInfo w.bounds c host serv hints w.localRes hostLen servLen infoSize with
  | .ok ([h, s, hi, r], c) =>
    match send w c h.arg s.arg hi.arg r.arg with
    | .ok (rep, calls, c) =>
      let c := release c h s hi r hostLen servLen
      if res = 0 then .ub
      else .ok (rep.response.setWidth 32, calls, { c with mem := blit c.mem res w.localRes 8 })
    | .abort => .abort
    | .throws => .throws
    | .ub => .ub
  | .ok _ => .ub
  | .abort => .abort
  | .throws => .throws
  | .ub => .ub

end Verif.BsdName
