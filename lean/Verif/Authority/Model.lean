import Verif.PathSyscall.Model
import Verif.Net.Model
import Verif.AddrInfo.Model
import Verif.EndToEnd.Model
import Verif.NetEnd.Model
import Verif.Rpc.Model

/-!
# The host with all its sandboxes: what it does on behalf of each (model)

The handlers are modelled elsewhere (`Verif.PathSyscall`, `Verif.Net`, `Verif.AddrInfo`, `Verif.Rpc`).  Here they stand
behind the dispatcher of each library, and the host grants rights to its sandboxes while all of them send whatever they
like, in any order.

Every library exists from the start and has been granted nothing; one that is created later has no actions before
then, one that is destroyed has none after.  An action is treated as a whole; threads are `Verif.Threads` and
`Verif.Race`.
-/

namespace Verif.Authority

open Verif.Bounds (Region)
open Verif.Strings (Buf)
open Verif.FileTree (Dir Export)
open Verif.Callback (Handler Table Packet Event Result)
open Verif.PathSyscall (Log Kernel)
open Verif.Net (Op Policies Config Callee SockArgs handleBindOrConnect)
open Verif.AddrInfo (Query Info Store handleGetaddrinfo)
open Verif.EndToEnd (ofLe)
open Verif.Rpc (Cfg Range Mapping Sys Given Resp)

/-- What a library keeps for its sandbox and its handlers consult: the exported files, the policies and the table of
handlers, all members of `CallbackDispatcher` (`src/libsandbox.cc:300-330`). -/
structure Lib where
  tree : Dir := []
  policies : Policies := {}
  table : Table := {}

/-- What handling one message depends on, outside the library: what is read from the shared memory at each place where
it is read (the sandbox may write at any time), the host's allocator and the sandbox's, the kernel, what the functions
called for the network do, the user's handlers with the sizes of their arguments, and whether the reply can be sent
(`src/libsandbox.cc:360-607`, `:661-681`). -/
structure Outside where
  frame : Mem
  path : Mem × Mem
  address : Mem
  node : Mem × Mem
  service : Mem × Mem
  hints : Mem
  malloc : Nat → Option Buf
  alloc : Word → Option Word
  kernel : Kernel
  socket : Callee → SockArgs → Int × Int
  lookup : Callee → Query → (Int × Int) × List Info
  user : Nat → Nat × (List Byte → Int → Outcome Result)
  sendOk : Bool

/-- What the host did while it handled one message (trace; `src/libsandbox.cc:385-607`): system calls on paths,
functions called for sockets, functions called for name lookups, stores into the sandbox's memory, handlers of the user
called with the private copy and the descriptor. -/
structure Effects where
  log : Log := []
  sockets : List (Op × Callee × SockArgs) := []
  lookups : List (Callee × Query) := []
  stores : List Store := []
  users : List (Nat × List Byte × Int) := []

/-- `sizeof(rpc_type)` of each built-in kind, with the layout of `std::tuple` in libstdc++ on x86-64 (last member
first): `include/process_sandbox/callbacks.h:317-375`, used at `:149` and `:163`. -/
def frameSize : Nat → Nat
  | 3 => 24
  | 4 => 24
  | 5 => 24
  | 6 => 32
  | _ => 16

/-- The `i`-th of the 64-bit words of a frame (`std::get` on the private copy, `src/libsandbox.cc:442`, `:487-522`). -/
def word (bs : List Byte) (i : Nat) : Word := .ofNat 64 (ofLe ((bs.drop (8 * i)).take 8))

/-- The `i`-th of the 32-bit words of a frame (`src/libsandbox.cc:443-444`). -/
def half (bs : List Byte) (i : Nat) : BitVec 32 := .ofNat 32 (ofLe ((bs.drop (4 * i)).take 4))

/-- What the path handlers depend on (`src/libsandbox.cc:300-330`). -/
def pathEnv (hdr : Word) (r : Region) (l : Lib) (o : Outside) : PathSyscall.Env :=
  ⟨hdr, r, o.malloc, l.tree, o.kernel, o.path.1, o.path.2⟩

/-- What `handle_getaddrinfo` depends on (`src/libsandbox.cc:484-571`). -/
def lookupEnv (hdr : Word) (r : Region) (l : Lib) (o : Outside) : AddrInfo.Env :=
  ⟨hdr, r, o.malloc, l.policies, o.lookup, o.alloc, o.node, o.service, o.hints⟩

/-- The result of a handler on paths together with its system calls (`src/libsandbox.cc:385-445`, `:577-607`). -/
def logged : Outcome (Result × Log) → Outcome Result × Effects
  | .ok (res, log) => (.ok res, { log := log })
  | .abort => (.abort, {})
  | .throws => (.throws, {})
  | .ub => (.ub, {})

/-- `handle_bind_or_connect` (`src/libsandbox.cc:452-477`) on the private copy of the frame. -/
def sockets (hdr : Word) (r : Region) (l : Lib) (o : Outside) (op : Op) (bs : List Byte) (fd : Int) :
    Outcome Result × Effects :=
  let out := handleBindOrConnect hdr r l.policies op o.socket o.address fd (NetEnd.addrArg bs) (NetEnd.lenArg bs)
  (out.result, { sockets := out.calls.map (fun x => (op, x.1, x.2)) })

/-- The built-in handlers on the private copy of a frame and the descriptor that came with it, as registered at
`src/libsandbox.cc:721-737` (numbers: `include/process_sandbox/callback_numbers.h:26-57`).  There are no others; the
last case is what an entry without a handler returns (`include/process_sandbox/callbacks.h:107-111`). -/
def builtin (hdr : Word) (r : Region) (l : Lib) (o : Outside) (k : Nat) (bs : List Byte) (fd : Int) :
    Outcome Result × Effects :=
  match k with
  | 0 => logged (PathSyscall.serve (pathEnv hdr r l o) (.open_ (word bs 1) (half bs 1) (half bs 0)))
  | 1 => logged (PathSyscall.serve (pathEnv hdr r l o) (.stat (word bs 1) (word bs 0)))
  | 2 => logged (PathSyscall.serve (pathEnv hdr r l o) (.access (word bs 1) (half bs 0)))
  | 3 => logged (PathSyscall.handleOpenat (pathEnv hdr r l o) fd (word bs 1) (half bs 1) (half bs 0))
  | 4 => sockets hdr r l o .bind bs fd
  | 5 => sockets hdr r l o .connect bs fd
  | 6 =>
    let out := handleGetaddrinfo (lookupEnv hdr r l o) (word bs 3) (word bs 2) (word bs 1) (word bs 0)
    (out.result, { lookups := out.calls, stores := out.stores })
  | _ => (.ok {}, {})

/-- The function behind an entry of the table, with the size of its argument: a built-in handler or one of the user's
(`src/libsandbox.cc:626-656`, `:691-697`), where the size of a type is never 0; the default entry does nothing
(`include/process_sandbox/callbacks.h:107-111`). -/
def behind (hdr : Word) (r : Region) (l : Lib) (o : Outside) :
    Handler → Nat × (List Byte → Int → Outcome Result × Effects)
  | .builtin k => (frameSize k, builtin hdr r l o k)
  | .user h => (max 1 (o.user h).1, fun bs fd => ((o.user h).2 bs fd, { users := [(h, bs, fd)] }))
  | .base => (0, fun _ _ => (.ok {}, {}))

/-- `handlers[kind]->invoke(lib, req, in_fd)`, `src/libsandbox.cc:675`: the function is run on the copy of the frame if
the frame is accepted (`include/process_sandbox/callbacks.h:146-173`). -/
def run (hdr : Word) (r : Region) (l : Lib) (o : Outside) (h : Handler) (q : Callback.Request) (fd : Int) :
    Outcome Result :=
  (Callback.invoke hdr r (behind hdr r l o h).1 (fun bs f => ((behind hdr r l o h).2 bs f).1) o.frame q fd).1

/-- What is done while the entry is invoked: nothing if the frame is not accepted, which shows in that nothing is
copied (`include/process_sandbox/callbacks.h:149-163`); otherwise what the function does with the copy. -/
def effects (hdr : Word) (r : Region) (l : Lib) (o : Outside) (p : Packet) : Effects :=
  if p.len < Callback.requestSize then {}
  else
    match Callback.dispatch l.table.handlers p.req.kind with
    | none => {}
    | some h =>
      let addrs := (Callback.invoke hdr r (behind hdr r l o h).1 (fun bs f => ((behind hdr r l o h).2 bs f).1)
        o.frame p.req p.fd).2
      if addrs = [] then {} else ((behind hdr r l o h).2 (addrs.map o.frame) p.fd).2

/-- The host: its libraries, and the state of the memory service (`src/libsandbox.cc:102-105`, `:700-738`). -/
structure Host (σ : Type) where
  libs : Nat → Lib
  sys : Sys σ

/-- Everything that can happen: the host exports a file or directory to a sandbox, configures its network, registers a
callback for it (`include/process_sandbox/filetree.h:301-317`, `include/process_sandbox/netpolicy.h:188-213`,
`src/libsandbox.cc:691-697`); a sandbox sends a message to its library (`src/libsandbox.cc:661-681`); an operation on
the memory of a sandbox (`src/libsandbox.cc:151-248`, `include/process_sandbox/sandbox.h:335-388`). -/
inductive Action where
  | exports (i : Nat) (e : Export)
  | config (i : Nat) (c : Config)
  | register (i : Nat) (h : Nat)
  | message (i : Nat) (o : Outside) (p : Packet)
  | memory (op : Rpc.Op)

/-- What can be seen of an action: for a message the events of the dispatcher and what the host did; for the memory
service the reply to a sandbox and the block handed out (`src/libsandbox.cc:243-254`, `:661-681`); for a registration
the number of the callback (`:691-697`). -/
inductive Seen where
  | nothing
  | number (n : Outcome Nat)
  | handled (ev : Outcome (List Event)) (e : Effects)
  | memory (reply : Option Resp) (given : Given)

/-- Replace the library of sandbox `i` (bookkeeping; each library is an object of its own, `src/libsandbox.cc:700-738`). -/
def Host.put {σ} (st : Host σ) (i : Nat) (l : Lib) : Host σ :=
  { st with libs := fun j => if j = i then l else st.libs j }

/-- The reply to a request of a sandbox for memory (`src/libsandbox.cc:151-254`). -/
def replyTo {σ} (c : Cfg) (R : Range σ) (maps : Nat → Mapping) (st : Sys σ) : Rpc.Op → Option Resp
  | .rpc i q => some (Rpc.serve c R ((maps i).region c) (st.ranges i) st.pm q).1
  | _ => none

/-- One action of the host or of a sandbox: `src/libsandbox.cc:661-697` and `:151-248`,
`include/process_sandbox/filetree.h:301-317`, `include/process_sandbox/netpolicy.h:188-213`.  A registration too many
is undefined behaviour (`src/libsandbox.cc:694`), shown in its result; the theorems exclude it. -/
def act {σ} (c : Cfg) (R : Range σ) (maps : Nat → Mapping) (st : Host σ) : Action → Seen × Host σ
  | .exports i e => (.nothing, st.put i { st.libs i with tree := (e.run (st.libs i).tree).2.1 })
  | .config i x => (.nothing, st.put i { st.libs i with policies := x.run (st.libs i).policies })
  | .register i h =>
    match Callback.registerCallback (st.libs i).table h with
    | .ok (n, t) => (.number (.ok n), st.put i { st.libs i with table := t })
    | .abort => (.number .abort, st)
    | .throws => (.number .throws, st)
    | .ub => (.number .ub, st)
  | .message i o p =>
    let r := (maps i).region c
    let l := st.libs i
    (.handled (Callback.handle l.table.handlers (run c.hdr r l o) (some p) o.sendOk) (effects c.hdr r l o p), st)
  | .memory op =>
    let o := Rpc.step c R maps st.sys op
    (.memory (replyTo c R maps st.sys op) o.1, { st with sys := o.2 })

/-- A run: what is seen of each action, and the final state (`src/libsandbox.cc:109-258`, `:661-697`). -/
def runAll {σ} (c : Cfg) (R : Range σ) (maps : Nat → Mapping) (st : Host σ) : List Action → List Seen × Host σ
  | [] => ([], st)
  | a :: as =>
    let o := act c R maps st a
    let o' := runAll c R maps o.2 as
    (o.1 :: o'.1, o'.2)

/-- A new library: nothing exported, everything denied, the built-in handlers registered
(`src/libsandbox.cc:700-738`; the files that the constructor itself exports, `:703-719`, are the first actions of the
host). -/
def fresh : Lib :=
  match Callback.construct with
  | .ok t => { table := t }
  | _ => {}

/-- The host at the start (`src/libsandbox.cc:700-738`). -/
def start {σ} (sys : Sys σ) : Host σ := ⟨fun _ => fresh, sys⟩

end Verif.Authority
