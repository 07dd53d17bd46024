import Verif.Start.Model

/-!
# Starting the child process: what is wanted
-/

namespace Verif.Start

open Verif.Fd

/-- The table the child is meant to start with (`include/process_sandbox/sandbox_fd_numbers.h:12-55`):
the standard streams `std` and five objects at the fixed numbers. -/
def wanted (std : Nat → Option Obj) (shm pm cb lib rpc : Obj) : Nat → Option Obj
  | 0 => std 0
  | 1 => std 1
  | 2 => std 2
  | 3 => some shm
  | 4 => some pm
  | 5 => some cb
  | 6 => some lib
  | 7 => some rpc
  | _ => none

/-- The parent's table is good enough to start a child: only finitely many descriptors are open and the
limit leaves room for five more above them. -/
def Room (lim : Nat) (t : Table) : Prop := ∃ b, 8 ≤ b ∧ (∀ i, b ≤ i → t i = none) ∧ b + 5 ≤ lim

/-- The four handles refer to these objects in the parent's table. -/
structure Refer (t : Table) (h : Handles) (shm pm cb rpc : Obj) : Prop where
  shm : t.at h.shm = some shm
  pm : t.at h.pagemap = some pm
  cb : t.at h.cb = some cb
  rpc : t.at h.rpc = some rpc

/-- What the child finds in place of a standard stream that is closed in its parent: the first of the five objects, in the order
in which they are moved, that has a number below 8.  The library, which is opened last, gets the lowest number that is free. -/
def stray (h : Handles) (shm pm cb rpc lib : Obj) : Obj :=
  if h.shm < 8 then shm else if h.pagemap < 8 then pm else if h.cb < 8 then cb else if h.rpc < 8 then rpc else lib

/-- An object open for reading only. -/
def Obj.readOnly (o : Obj) : Obj := ⟨o.id, false⟩

end Verif.Start
