import Verif.Authority.Model
import Verif.BsdEnd.Model
import Verif.BsdNet.Model
import Verif.BsdRel.Model
import Verif.BsdName.Model

/-!
# The host on FreeBSD with all its sandboxes: what it does on behalf of each (model)

As `Verif.Authority`, with the parts that differ on FreeBSD: the layout of the argument tuples (libc++), the host's safe system
calls (`Verif.BsdPath`), the layout of `struct addrinfo` (`Verif.BsdName`) and the number of `ENOSYS` (`Verif.BsdNet`).  Nothing is
assumed of the sandboxes: they send any messages in any order and write to their memory at any time.  The requests
for memory are the same code as on Linux and not repeated here.
-/

namespace Verif.BsdAuthority

open Verif.Bounds (Region)
open Verif.Callback (Handler Packet Event Result)
open Verif.FileTree (Export)
open Verif.BsdPath (Log Kernel)
open Verif.Net (Op Config Callee SockArgs handleBindOrConnect)
open Verif.AddrInfo (Query Store)
open Verif.BsdNet (noSys)
open Verif.Authority (Lib frameSize fresh)

/-- What handling one message depends on, outside the library (`src/libsandbox.cc:360-607`, `:661-681`), with the kernel of FreeBSD;
`kernel` of the Linux host is not used. -/
structure Outside extends toLinux : Authority.Outside where
  bsd : Kernel

/-- What the host did while it handled one message (trace; `src/libsandbox.cc:385-607`). -/
structure Effects where
  log : Log := []
  sockets : List (Op × Callee × SockArgs) := []
  lookups : List (Callee × Query) := []
  stores : List Store := []
  users : List (Nat × List Byte × Int) := []

/-- What the path handlers depend on (`src/libsandbox.cc:300-330`). -/
def pathEnv (hdr : Word) (r : Region) (l : Lib) (o : Outside) : BsdPath.Env :=
  ⟨hdr, r, o.malloc, l.tree, o.bsd, o.path.1, o.path.2⟩

/-- The result of a handler on paths together with its system calls (`src/libsandbox.cc:385-445`, `:577-607`). -/
def logged : Outcome (Result × Log) → Outcome Result × Effects
  | .ok (res, log) => (.ok res, { log := log })
  | .abort => (.abort, {})
  | .throws => (.throws, {})
  | .ub => (.ub, {})

/-- `handle_bind_or_connect` (`src/libsandbox.cc:452-477`) on the private copy of the frame.  An answer for which no
function was called is the code's own. -/
def sockets (hdr : Word) (r : Region) (l : Lib) (o : Outside) (op : Op) (bs : List Byte) (fd : Int) :
    Outcome Result × Effects :=
  let out := handleBindOrConnect hdr r l.policies op o.socket o.address fd (BsdNet.addrArg bs) (BsdNet.lenArg bs)
  (if out.calls = [] then noSys out.result else out.result, { sockets := out.calls.map (fun x => (op, x.1, x.2)) })

/-- The built-in handlers on the private copy of a frame and the descriptor that came with it, as registered at
`src/libsandbox.cc:721-737` (numbers: `include/process_sandbox/callback_numbers.h:26-57`).  There are no others; the
last case is what an entry without a handler returns (`include/process_sandbox/callbacks.h:107-111`). -/
def builtin (hdr : Word) (r : Region) (l : Lib) (o : Outside) (k : Nat) (bs : List Byte) (fd : Int) :
    Outcome Result × Effects :=
  match BsdEnd.decode k bs with
  | some call => logged (BsdPath.serve (pathEnv hdr r l o) call)
  | none =>
    match k with
    | 3 => logged (BsdPath.handleOpenat (pathEnv hdr r l o) fd (BsdRel.pathArg bs) (BsdRel.flagsArg bs) (BsdRel.modeArg bs))
    | 4 => sockets hdr r l o .bind bs fd
    | 5 => sockets hdr r l o .connect bs fd
    | 6 =>
      let out := BsdName.handleGetaddrinfo (Authority.lookupEnv hdr r l o.toLinux) (BsdName.arg bs 0) (BsdName.arg bs 1)
        (BsdName.arg bs 2) (BsdName.arg bs 3)
      (out.result, { lookups := out.calls, stores := out.stores })
    | _ => (noSys (.ok {}), {})

/-- The function behind an entry of the table, with the size of its argument: a built-in handler or one of the user's
(`src/libsandbox.cc:626-656`, `:691-697`), where the size of a type is never 0; the default entry does nothing
(`include/process_sandbox/callbacks.h:107-111`). -/
def behind (hdr : Word) (r : Region) (l : Lib) (o : Outside) :
    Handler → Nat × (List Byte → Int → Outcome Result × Effects)
  | .builtin k => (frameSize k, builtin hdr r l o k)
  | .user h => (max 1 (o.user h).1, fun bs fd => ((o.user h).2 bs fd, { users := [(h, bs, fd)] }))
  | .base => (0, fun _ _ => (.ok {}, {}))

/-- `handlers[kind]->invoke(lib, req, in_fd)`, `src/libsandbox.cc:675`: the function is run on the copy of the frame if
the frame is accepted (`include/process_sandbox/callbacks.h:146-173`); if nothing is copied the answer is the code's own.
The second part is what is done meanwhile. -/
def run (hdr : Word) (r : Region) (l : Lib) (o : Outside) (h : Handler) (q : Callback.Request) (fd : Int) :
    Outcome Result × Effects :=
  let x := Callback.invoke hdr r (behind hdr r l o h).1 (fun bs f => ((behind hdr r l o h).2 bs f).1) o.frame q fd
  if x.2 = [] then (noSys x.1, {}) else (x.1, ((behind hdr r l o h).2 (x.2.map o.frame) fd).2)

/-- `CallbackDispatcher::handle`, `src/libsandbox.cc:661-681`, for a message: the events, and what the host did. -/
def handle (hdr : Word) (r : Region) (l : Lib) (o : Outside) (p : Packet) : Outcome (List Event) × Effects :=
  if p.len < Callback.requestSize then (.ok [], {})
  else
    let x :=
      match Callback.dispatch l.table.handlers p.req.kind with
      | some h => run hdr r l o h p.req p.fd
      | none => (noSys (.ok {}), {})
    match x.1 with
    | .ok res =>
      (.ok [.received p.req p.fd, if o.sendOk then .replied res.integer res.handle else .killed], x.2)
    | .abort => (.abort, x.2)
    | .throws => (.throws, x.2)
    | .ub => (.ub, x.2)

/-- What can happen: the host exports a file or directory to a sandbox, configures its network, registers a
callback for it (`include/process_sandbox/filetree.h:301-317`, `include/process_sandbox/netpolicy.h:188-213`,
`src/libsandbox.cc:691-697`); a sandbox sends a message to its library (`src/libsandbox.cc:661-681`). -/
inductive Action where
  | exports (i : Nat) (e : Export)
  | config (i : Nat) (c : Config)
  | register (i : Nat) (h : Nat)
  | message (i : Nat) (o : Outside) (p : Packet)

/-- What can be seen of an action: for a message the events of the dispatcher and what the host did
(`src/libsandbox.cc:661-681`); for a registration the number of the callback (`:691-697`). -/
inductive Seen where
  | nothing
  | number (n : Outcome Nat)
  | handled (ev : Outcome (List Event)) (e : Effects)

/-- Replace the library of sandbox `i` (bookkeeping; each library is an object of its own, `src/libsandbox.cc:700-738`). -/
def put (st : Nat → Lib) (i : Nat) (l : Lib) : Nat → Lib := fun j => if j = i then l else st j

/-- One action of the host or of a sandbox: `src/libsandbox.cc:661-697`, `include/process_sandbox/filetree.h:301-317`,
`include/process_sandbox/netpolicy.h:188-213`. -/
def act (hdr : Word) (regs : Nat → Region) (st : Nat → Lib) : Action → Seen × (Nat → Lib)
  | .exports i e => (.nothing, put st i { st i with tree := (e.run (st i).tree).2.1 })
  | .config i x => (.nothing, put st i { st i with policies := x.run (st i).policies })
  | .register i h =>
    match Callback.registerCallback (st i).table h with
    | .ok (n, t) => (.number (.ok n), put st i { st i with table := t })
    | .abort => (.number .abort, st)
    | .throws => (.number .throws, st)
    | .ub => (.number .ub, st)
  | .message i o p => (.handled (handle hdr (regs i) (st i) o p).1 (handle hdr (regs i) (st i) o p).2, st)

/-- A run: what is seen of each action, and the libraries afterwards (`src/libsandbox.cc:661-697`). -/
def runAll (hdr : Word) (regs : Nat → Region) (st : Nat → Lib) : List Action → List Seen × (Nat → Lib)
  | [] => ([], st)
  | a :: as =>
    ((act hdr regs st a).1 :: (runAll hdr regs (act hdr regs st a).2 as).1, (runAll hdr regs (act hdr regs st a).2 as).2)

/-- The host at the start: every library is new (`src/libsandbox.cc:700-738`). -/
def start : Nat → Lib := fun _ => fresh

end Verif.BsdAuthority
