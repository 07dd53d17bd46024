import Verif.Rpc.Model

/-!
# A buddy allocator (stand-in)

snmalloc's `LargeBuddyRange` is not in the repository.  This small buddy allocator, written after
the published algorithm, shows that the assumptions made about the range allocator can be met, and
serves as the concrete allocator in counterexamples.  It works in units of chunks.
-/

namespace Verif.Rpc

/-- Free blocks: order and index of the first chunk (stand-in for the state of
`LargeBuddyRange`, `include/process_sandbox/sandbox.h:250-255`). -/
abbrev Free := List (Nat × Nat)

/-- The buddy of block `a` of order `k`: `a XOR 2^k` (stand-in for snmalloc; used by
`include/process_sandbox/sandbox.h:371`). -/
def buddyOf (k a : Nat) : Nat := if a / 2 ^ k % 2 = 0 then a + 2 ^ k else a - 2 ^ k

/-- `Buddy::add_block` (stand-in for snmalloc; used by `include/process_sandbox/sandbox.h:371`): if the
buddy is free too, merge and align down; otherwise keep the block.  `fuel` bounds the order. -/
def addBlock : Nat → Free → Nat → Nat → Free
  | 0, f, k, a => (k, a) :: f
  | fuel + 1, f, k, a =>
    if (k, buddyOf k a) ∈ f then
      addBlock fuel (f.erase (k, buddyOf k a)) (k + 1) (a / 2 ^ (k + 1) * 2 ^ (k + 1))
    else (k, a) :: f

/-- `Buddy::remove_block` (stand-in for snmalloc; used by `include/process_sandbox/sandbox.h:341`): a free
block of the order wanted, or half of the next larger one. -/
def removeBlock : Nat → Free → Nat → Option (Nat × Free)
  | 0, _, _ => none
  | fuel + 1, f, k =>
    match f.find? (fun b => b.1 == k) with
    | some b => some (b.2, f.erase b)
    | none =>
      match removeBlock fuel f (k + 1) with
      | none => none
      | some (a, f') => some (a, (k, a + 2 ^ k) :: f')

/-- Mark the first chunk of every free block as owned by the allocator (stand-in for the links
snmalloc keeps in the entries of free chunks, `include/process_sandbox/sandbox.h:250-255`). -/
def mark (c : Cfg) (pm : Pm) (f : Free) : Pm :=
  fun j => if f.any (fun b => b.2 == j) then c.backendEntry else pm j

/-- The stand-in for `LargeBuddyRange` (`include/process_sandbox/sandbox.h:250-255`) as a `Range`; a
size is turned into an order by its logarithm. -/
def buddyRange (c : Cfg) : Range Free where
  alloc f pm size :=
    match removeBlock 64 f (Nat.log2 (size / c.chunk)) with
    | none => (none, f, pm)
    | some (a, f') => (some (a * c.chunk), f', mark c pm f')
  dealloc f pm p size :=
    let f' := addBlock 64 f (Nat.log2 (size / c.chunk)) (p / c.chunk)
    (f', mark c pm f')

end Verif.Rpc
