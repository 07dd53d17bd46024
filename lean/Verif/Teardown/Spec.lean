import Verif.Rpc.Spec
import Verif.Teardown.Model

/-!
# Destroying a sandbox (specification)
-/

namespace Verif.Teardown.Spec

open Verif.Rpc Verif.Rpc.Spec

/-- Chunk `j` has a byte in common with the heap of mapping `m` (the mapping without its header). -/
def MeetsHeap (c : Cfg) (m : Mapping) (j : Nat) : Prop :=
  j * 2 ^ c.bits < m.base.toNat + m.size.toNat ∧ m.base.toNat + c.hdr.toNat < (j + 1) * 2 ^ c.bits

/-- The range allocator leaves its mark on every entry it changes: such entries are backend-owned. -/
structure Marks {σ} (t : TCfg) (R : Range σ) : Prop where
  alloc : ∀ s pm n j, (R.alloc s pm n).2.2 j ≠ pm j → t.backendOwned ((R.alloc s pm n).2.2 j) = true
  dealloc : ∀ s pm p n j, (R.dealloc s pm p n).2 j ≠ pm j →
    t.backendOwned ((R.dealloc s pm p n).2 j) = true
  entry : t.backendOwned t.cfg.backendEntry = true

/-- The host's allocator writes proper entries: the message queue it names is its own (not null), the
entry is not marked as free, and the record's address leaves the flag bits clear. -/
def ProperEntry (t : TCfg) : Op → Prop
  | .hostAlloc _ _ slab ras => t.cfg.remoteOf ras ≠ 0 ∧ t.backendOwned ⟨slab, ras⟩ = false ∧
    slab &&& (8#64 ||| t.boundary) = 0
  | _ => True

/-- An entry that is neither the sandbox's, nor free, nor without a message queue. -/
def HostLike (t : TCfg) (e : Entry) : Prop :=
  t.backendOwned e = false ∧ e.word.getLsbD 3 = false ∧ t.cfg.remoteOf e.ras ≠ 0

end Verif.Teardown.Spec
