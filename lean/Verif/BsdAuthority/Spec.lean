import Verif.BsdPath.Spec
import Verif.Authority.Spec
import Verif.BsdAuthority.Model

/-!
# What the host on FreeBSD may do on behalf of a sandbox (specification)

Written in terms of the actions of the host alone: what it granted, to whom, in which order.
-/

namespace Verif.BsdAuthority.Spec

open Verif.FileTree (Export)
open Verif.Callback (Packet Event)
open Verif.BsdPath (Log)
open Verif.Net (Op Config)
open Verif.NetEnd (Chosen)
open Verif.Authority.Spec (kindOf)

/-- The exports that the host has made to sandbox `i`. -/
def exportsTo (i : Nat) (as : List Action) : List Export :=
  as.filterMap (fun a => match a with | .exports j e => if j = i then some e else none | _ => none)

/-- How the host has configured the network for sandbox `i`. -/
def configsFor (i : Nat) (as : List Action) : List Config :=
  as.filterMap (fun a => match a with | .config j c => if j = i then some c else none | _ => none)

/-- The handlers that the host has registered for sandbox `i`. -/
def handlersFor (i : Nat) (as : List Action) : List Nat :=
  as.filterMap (fun a => match a with | .register j h => if j = i then some h else none | _ => none)

/-- System calls that only use the descriptor `fd` which the sandbox sent with the message: one `openat` relative to
it that cannot leave it (`O_RESOLVE_BENEATH`, bit 23), then its closing. -/
def Relayed (fd : Int) (log : Log) : Prop :=
  ∃ e es, log = e :: es ∧ (∃ p fl m, e.op = .openat fd p fl m ∧ fl.getLsbD 23 = true) ∧ ∀ x ∈ es, x.op = .close fd

/-- What the host may do while it handles the message `p` of sandbox `i`, if `as` is all that has happened before.
`lo` and `hi` are the bounds of that sandbox's heap.  Either nothing; or at most one call on a file, by virtue of an
export to this sandbox, whose results go nowhere but to its heap; or an open relative to a descriptor that the sandbox
itself sent; or one call of the function chosen by the host for the operation and this sandbox, on a descriptor that the
sandbox sent; or one lookup by the chosen function, whose results go to the heap of this sandbox; or one call of a
handler that the host registered for this sandbox, under its number. -/
inductive Justified (as : List Action) (i : Nat) (lo hi : Nat) (p : Packet) : Effects → Prop where
  | nothing : Justified as i lo hi p {}
  | files (text : List Byte) (log : Log) : p.req.kind.toNat < 3 → log.length ≤ 1 →
      (∀ e ∈ log, BsdPath.Spec.Permitted (exportsTo i as) text lo hi e.op) → Justified as i lo hi p { log := log }
  | relative (log : Log) : p.req.kind.toNat = 3 → Relayed p.fd log → Justified as i lo hi p { log := log }
  | socket (op : Op) (f : Net.Callee) (a : Net.SockArgs) : p.req.kind.toNat = kindOf op → op ≠ .getAddrInfo →
      Chosen (configsFor i as) op (some f) → a.fd = p.fd → 0 ≤ p.fd →
      Justified as i lo hi p { sockets := [(op, f, a)] }
  | lookup (f : Net.Callee) (q : AddrInfo.Query) (ss : List AddrInfo.Store) : p.req.kind.toNat = 6 →
      Chosen (configsFor i as) .getAddrInfo (some f) →
      (∀ s ∈ ss, lo ≤ s.addr.toNat ∧ s.addr.toNat + s.bytes.length ≤ hi) →
      Justified as i lo hi p { lookups := [(f, q)], stores := ss }
  | user (n : Nat) (h : Nat) (bs : List Byte) : p.req.kind.toNat = 7 + n → (handlersFor i as)[n]? = some h →
      Justified as i lo hi p { users := [(h, bs, p.fd)] }

/-- Where a descriptor in the reply to the message `p` comes from: there is none, or this request obtained it by its call on
an exported file, or it was returned by a handler of the user. -/
def Sourced (p : Packet) (e : Effects) (h : Int) : Prop :=
  h = -1 ∨
  (p.req.kind.toNat < 3 ∧ ∃ x ∈ e.log, x.ret = h ∧ ((∃ d p fl m, x.op = .openat d p fl m) ∨ ∃ d, x.op = .dup d)) ∨
  e.users ≠ []

/-- The sandbox that an action concerns. -/
def about : Action → Nat
  | .exports i _ => i
  | .config i _ => i
  | .register i _ => i
  | .message i _ _ => i

/-- What is seen of the actions that concern sandbox `i`. -/
def seenBy (i : Nat) (as : List Action) (seen : List Seen) : List Seen :=
  ((as.zip seen).filter (fun x => about x.1 = i)).map (·.2)

/-- The sizes of the arguments that belong to the numbers below 7. -/
def sizeFor : Nat → Nat
  | 3 => 24
  | 4 => 24
  | 5 => 24
  | 6 => 32
  | _ => 16

/-- A message that nobody is to act upon: its number belongs to nothing, or its size is not that of the arguments, or the
arguments are not within the heap. `user` gives the sizes for registered functions. -/
def Idle (users : List Nat) (user : Nat → Nat) (lo hi : Nat) (p : Packet) : Prop :=
  let k := p.req.kind.toNat
  let wrong (n : Nat) := p.req.size.toNat ≠ n ∨ p.req.data.toNat < lo ∨ hi < p.req.data.toNat + n
  if k < 7 then wrong (sizeFor k) else ∀ u, users[k - 7]? = some u → wrong (user u)

end Verif.BsdAuthority.Spec
