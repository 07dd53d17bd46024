import Verif.Strings.Props
import Verif.PathSyscall.Spec
import Verif.NetEnd.Spec
import Verif.Rpc.Spec
import Verif.Authority.Model

/-!
# What the host may do on behalf of a sandbox (specification)

Written in terms of the actions of the host alone: what it granted, to whom, in which order.  The state of the model
does not occur.
-/

namespace Verif.Authority.Spec

open Verif.FileTree (Export)
open Verif.Callback (Packet Event)
open Verif.PathSyscall (Log)
open Verif.Net (Op Config)
open Verif.NetEnd (Chosen)

/-- The exports that the host has made to sandbox `i`. -/
def exportsTo (i : Nat) (as : List Action) : List Export :=
  as.filterMap (fun a => match a with | .exports j e => if j = i then some e else none | _ => none)

/-- How the host has configured the network for sandbox `i`. -/
def configsFor (i : Nat) (as : List Action) : List Config :=
  as.filterMap (fun a => match a with | .config j c => if j = i then some c else none | _ => none)

/-- The handlers that the host has registered for sandbox `i`. -/
def handlersFor (i : Nat) (as : List Action) : List Nat :=
  as.filterMap (fun a => match a with | .register j h => if j = i then some h else none | _ => none)

/-- System calls that only use the descriptor `fd` which the sandbox sent with the message: one `openat2` relative to
it that cannot leave it (`RESOLVE_BENEATH`, value 8), then its closing. -/
def Relayed (fd : Int) (log : Log) : Prop :=
  ∃ e es, log = e :: es ∧ (∃ p fl m, e.op = .openat2 fd p fl m 8) ∧ ∀ x ∈ es, x.op = .close fd

/-- The message kind of a network operation. -/
def kindOf : Op → Nat
  | .bind => 4
  | .connect => 5
  | .getAddrInfo => 6

/-- What the host may do while it handles the message `p` of sandbox `i`, if `as` is all that has happened before.
`lo` and `hi` are the bounds of that sandbox's heap.  Either nothing; or calls on files, each by virtue of an export to
this sandbox, whose results go nowhere but to its heap; or an open relative to a descriptor that the sandbox itself
sent; or one call of the function chosen by the host for the operation and this sandbox, on a descriptor that the
sandbox sent; or one lookup by the chosen function, whose results go to the heap of this sandbox; or one call of a
handler that the host registered for this sandbox, under its number. -/
inductive Justified (as : List Action) (i : Nat) (lo hi : Nat) (p : Packet) : Effects → Prop where
  | nothing : Justified as i lo hi p {}
  | files (text : List Byte) (log : Log) : p.req.kind.toNat < 3 →
      PathSyscall.Spec.Confined (exportsTo i as) text lo hi log → Justified as i lo hi p { log := log }
  | relative (log : Log) : p.req.kind.toNat = 3 → Relayed p.fd log → Justified as i lo hi p { log := log }
  | socket (op : Op) (f : Net.Callee) (a : Net.SockArgs) : p.req.kind.toNat = kindOf op → op ≠ .getAddrInfo →
      Chosen (configsFor i as) op (some f) → a.fd = p.fd → 0 ≤ p.fd →
      Justified as i lo hi p { sockets := [(op, f, a)] }
  | lookup (f : Net.Callee) (q : AddrInfo.Query) (ss : List AddrInfo.Store) : p.req.kind.toNat = 6 →
      Chosen (configsFor i as) .getAddrInfo (some f) →
      (∀ s ∈ ss, lo ≤ s.addr.toNat ∧ s.addr.toNat + s.bytes.length ≤ hi) →
      Justified as i lo hi p { lookups := [(f, q)], stores := ss }
  | user (n : Nat) (h : Nat) (bs : List Byte) : p.req.kind.toNat = 7 + n → (handlersFor i as)[n]? = some h →
      Justified as i lo hi p { users := [(h, bs, p.fd)] }

/-- Where a descriptor in the reply to the message `p` comes from: there is none, or this request obtained it by one of its
calls on exported files, or it was returned by a handler of the user. -/
def Sourced (p : Packet) (e : Effects) (h : Int) : Prop :=
  h = -1 ∨
  (p.req.kind.toNat < 3 ∧ ∃ x ∈ e.log, x.ret = h ∧ ((∃ d p fl m rs, x.op = .openat2 d p fl m rs) ∨ ∃ d, x.op = .dup d)) ∨
  e.users ≠ []

/-- The sandbox that an action concerns. -/
def about : Action → Nat
  | .exports i _ => i
  | .config i _ => i
  | .register i _ => i
  | .message i _ _ => i
  | .memory op => Rpc.Spec.sandboxOf op

/-- Two page maps agree about the chunks in `[lo, hi)`. -/
def SameIn (C lo hi : Nat) (pm pm' : Rpc.Pm) : Prop := ∀ j, Rpc.Spec.Covers C lo (hi - lo) j → pm j = pm' j

/-- What is assumed of the range allocator of a mapping, besides `Contained`: it consults the page map only about its
own chunks. -/
structure Local {σ} (c : Rpc.Cfg) (R : Rpc.Range σ) (lo hi : Nat) (Inv : σ → Prop) : Prop where
  alloc : ∀ s (pm pm' : Rpc.Pm) n, Inv s → Rpc.Spec.ChunkSize (2 ^ c.bits) n → SameIn (2 ^ c.bits) lo hi pm pm' →
    (R.alloc s pm n).1 = (R.alloc s pm' n).1 ∧ (R.alloc s pm n).2.1 = (R.alloc s pm' n).2.1 ∧
      SameIn (2 ^ c.bits) lo hi (R.alloc s pm n).2.2 (R.alloc s pm' n).2.2
  dealloc : ∀ s (pm pm' : Rpc.Pm) p n, Inv s → Rpc.Spec.BlockIn (2 ^ c.bits) lo hi p n →
    SameIn (2 ^ c.bits) lo hi pm pm' →
    (R.dealloc s pm p n).1 = (R.dealloc s pm' p n).1 ∧
      SameIn (2 ^ c.bits) lo hi (R.dealloc s pm p n).2 (R.dealloc s pm' p n).2

/-- The host behaves as far as memory is concerned (`Rpc.Spec.HostSane`). -/
def HostSane (C : Nat) (maps : Nat → Rpc.Mapping) : Action → Prop
  | .memory op => Rpc.Spec.HostSane C maps op
  | _ => True

/-- What is seen of the actions that concern sandbox `i`. -/
def seenBy (i : Nat) (as : List Action) (seen : List Seen) : List Seen :=
  ((as.zip seen).filter (fun x => about x.1 = i)).map (·.2)

/-- What is asked of the host for its sandboxes to be answered: the allocator does not fail and gives blocks of the size
that it was asked for, and the functions that the user registered return. -/
structure Calm (o : Outside) : Prop where
  malloc : Strings.MallocOk o.malloc
  total : Strings.MallocTotal o.malloc
  user : ∀ h bs fd, ∃ res, (o.user h).2 bs fd = .ok res

/-- No function given to `register_handler` was empty. -/
def NoEmpty (cs : List Net.Config) : Prop := ∀ op, Net.Config.register op none ∉ cs

end Verif.Authority.Spec
