import Verif.BsdBalance.Model
import Verif.Balance.Spec

/-!
# The host's descriptors while it handles messages on FreeBSD (specification)
-/

namespace Verif.BsdBalance.Spec

open Verif.Fd
open Verif.Bounds (Region)
open Verif.BsdPath (HostOp Kernel)
open Verif.Authority (Lib)
open Verif.BsdAuthority (Outside)
open Verif.Balance.Spec (asksFor)

/-- The calls that make a descriptor. -/
def Makes : HostOp → Prop
  | .openat .. => True
  | .dup _ => True
  | _ => False

/-- The kernel gives a new descriptor a number that is free below the limit, if `t` is the table at the start of the
message. -/
def Fresh (lim : Nat) (obj : Obj) (t : Table) (k : Kernel) : Prop :=
  ∀ log op, Makes op → 0 ≤ (k log op).1 →
    (k log op).1.toNat < lim ∧ replay obj t log (k log op).1.toNat = none

section
variable (lim : Nat) (obj : Obj) (hdr : Word) (r : Region) (l : Lib)

/-- The number in the reply to a message, if it is received and answered. -/
def number (m : (Table → Outside) × Socket.Packet) (t : Table) : Option Int :=
  match receive lim t m.2 with
  | (true, bs, fd, t1) =>
    match (answer hdr r l (m.1 t1) (Balance.decode bs) fd).1 with
    | .ok res => some res.integer
    | _ => none
  | (false, _, _, _) => none

/-- The message is a relative `openat`, and the host says that it has opened the file. -/
def Granted (m : (Table → Outside) × Socket.Packet) (t : Table) : Prop :=
  asksFor m.2 = 3 ∧ ∃ i, number lim hdr r l m t = some i ∧ 0 ≤ i

instance (m : (Table → Outside) × Socket.Packet) (t : Table) : Decidable (Granted lim hdr r l m t) :=
  if h3 : asksFor m.2 = 3 then
    match h : number lim hdr r l m t with
    | some i => if h0 : 0 ≤ i then isTrue ⟨h3, i, h, h0⟩ else isFalse fun ⟨_, j, hj, hj0⟩ => by rw [h] at hj; cases hj; exact h0 hj0
    | none => isFalse fun ⟨_, j, hj, _⟩ => by rw [h] at hj; cases hj
  else isFalse fun h => h3 h.1

/-- How many messages of a sequence are granted relative `openat`s. -/
def grants : List ((Table → Outside) × Socket.Packet) → Table → Nat
  | [], _ => 0
  | m :: ms, t =>
    (if Granted lim hdr r l m t then 1 else 0) +
      match turn lim obj hdr r l m t with
      | .ok t' => grants ms t'
      | _ => 0

end

end Verif.BsdBalance.Spec
