import Verif.ChildHeap.Model
import Verif.Rpc.Spec

/-!
# The sandbox's side of the memory service (specification)
-/

namespace Verif.ChildHeap

open Verif.Rpc Verif.Rpc.Spec

/-- Two blocks have no chunk in common. -/
def Apart (C : Nat) (a b : Nat × Nat) : Prop := ∀ j, ¬ (Covers C a.1 a.2 j ∧ Covers C b.1 b.2 j)

/-- The blocks in use in the sandbox's heap: the sandbox's own and the host's. -/
def inUse {σ} (w : World σ) : List (Nat × Nat) := w.held.map (fun ch => (ch.p, ch.n)) ++ w.live

/-- A message queue that may stand in a page-map entry: none, or one that lies wholly in the heap of the mapping.
The heap begins two headers after the start of the mapping. -/
def QueueOk (c : Cfg) (m : Mapping) (a : Nat) : Prop :=
  a = 0 ∨ (m.base.toNat + 2 * c.hdr.toNat ≤ a ∧ a + c.remoteSize.toNat ≤ m.base.toNat + m.size.toNat ∧
    a < m.base.toNat + m.size.toNat)

/-- A sandbox that uses its allocator properly: sizes are powers of two of at least a chunk, slab records can be
had, objects are no larger than their slab, message queues are in the heap, and only blocks that are held are freed.  The host's
allocator likewise.  Everything else leaves the entries of this mapping alone. -/
def Proper {σ} (c : Cfg) (m : Mapping) (w : World σ) : Ev → Prop
  | .alloc slot size ras => (∃ ms, slot = some ms) ∧ ChunkSize (2 ^ c.bits) size.toNat ∧
      QueueOk c m (c.remoteOf ras).toNat ∧ c.objSize ras ≤ size.toNat
  | .free ch => ch ∈ w.held
  | .shared size => ChunkSize (2 ^ c.bits) size.toNat ∧ QueueOk c m (c.remoteOf 0).toNat ∧
      c.objSize 0 ≤ size.toNat
  | .hostAlloc size slab _ => ChunkSize (2 ^ c.bits) size ∧ slab.getLsbD 3 = false
  | .hostFree p n => (p, n) ∈ w.live
  | .other pm => ∀ j, InMap (2 ^ c.bits) m j → pm j = w.st.pm j

/-- Every event of the list is proper when it happens. -/
def AllProper {σ} (c : Cfg) (R : Range σ) (m : Mapping) (w : World σ) : List Ev → Prop
  | [] => True
  | e :: es => Proper c m w e ∧ ∀ w', step c R (m.region c) w e = some w' → AllProper c R m w' es

/-- The page map tells the truth about a block: every chunk of it carries the address of the block's record, marked
as the sandbox's, and the block's second word. -/
def Truthful (C : Nat) (pm : Nat → Entry) (ch : Chunk) : Prop :=
  ∀ j, Covers C ch.p ch.n j → (pm j).word = ch.own.getD 0 ||| 8 ∧ (pm j).ras = ch.ras

end Verif.ChildHeap
