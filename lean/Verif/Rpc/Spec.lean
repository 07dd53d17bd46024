import Verif.Rpc.Model

/-!
# The memory service (specification)

Chunks are numbered by address divided by the chunk size `C`.
-/

namespace Verif.Rpc.Spec

/-- Chunk `j` lies wholly inside the block of `n` bytes at `p`. -/
def Covers (C p n j : Nat) : Prop := p ≤ j * C ∧ (j + 1) * C ≤ p + n

instance (C p n j : Nat) : Decidable (Covers C p n j) := inferInstanceAs (Decidable (_ ∧ _))

/-- A size the service accepts: a power of two of at least a chunk. -/
def ChunkSize (C n : Nat) : Prop := C ≤ n ∧ ∃ k, n = 2 ^ k

/-- A chunk-aligned block of acceptable size inside `[lo, hi)`. -/
def BlockIn (C lo hi p n : Nat) : Prop := ChunkSize C n ∧ C ∣ p ∧ lo ≤ p ∧ p + n ≤ hi

/-- Chunk `j` is marked as belonging to a sandbox: bit 3 of the first word of its entry. -/
def Owned (pm : Nat → Entry) (j : Nat) : Prop := (pm j).word.getLsbD 3 = true

instance (pm : Nat → Entry) (j : Nat) : Decidable (Owned pm j) :=
  inferInstanceAs (Decidable (_ = true))

/-- The mapping of a sandbox: aligned to its power-of-two size, a whole number of chunks, not
wrapping around the address space, and with room for two headers. -/
structure MapOk (c : Cfg) (m : Mapping) : Prop where
  pow2 : ∃ k, m.size.toNat = 2 ^ k * 2 ^ c.bits
  aligned : m.size.toNat ∣ m.base.toNat
  no_wrap : m.base.toNat + m.size.toNat < 2 ^ 64
  room : 2 * c.hdr.toNat ≤ m.size.toNat

/-- What is assumed of the range allocator of a mapping for *all* requests, also hostile ones: blocks
and page-map changes stay inside the mapping, entries it writes do not carry the sandbox bit, and a
failed allocation changes nothing. `Inv` is the invariant of its state. -/
structure Contained {σ} (c : Cfg) (R : Range σ) (lo hi : Nat) (Inv : σ → Prop) : Prop where
  alloc_inv : ∀ s pm n, Inv s → ChunkSize (2 ^ c.bits) n → Inv (R.alloc s pm n).2.1
  alloc_in : ∀ s pm n p, Inv s → ChunkSize (2 ^ c.bits) n → (R.alloc s pm n).1 = some p →
    BlockIn (2 ^ c.bits) lo hi p n
  alloc_frame : ∀ s pm n j, Inv s → ChunkSize (2 ^ c.bits) n → (R.alloc s pm n).2.2 j ≠ pm j →
    Covers (2 ^ c.bits) lo (hi - lo) j ∧ ¬ Owned (R.alloc s pm n).2.2 j
  alloc_none : ∀ s pm n, Inv s → ChunkSize (2 ^ c.bits) n → (R.alloc s pm n).1 = none →
    (R.alloc s pm n).2 = (s, pm)
  dealloc_inv : ∀ s pm p n, Inv s → BlockIn (2 ^ c.bits) lo hi p n → Inv (R.dealloc s pm p n).1
  dealloc_frame : ∀ s pm p n j, Inv s → BlockIn (2 ^ c.bits) lo hi p n →
    (R.dealloc s pm p n).2 j ≠ pm j →
    Covers (2 ^ c.bits) lo (hi - lo) j ∧ ¬ Owned (R.dealloc s pm p n).2 j

/-- What is assumed of the range allocator when only size-aligned blocks that are not free are ever
returned to it: it keeps an exact set `F` of free chunks.  `Good s F` says that state `s` represents
the free set `F`. -/
structure Exact {σ} (c : Cfg) (R : Range σ) (lo hi : Nat) (Good : σ → (Nat → Prop) → Prop) :
    Prop where
  free_in : ∀ s F j, Good s F → F j → Covers (2 ^ c.bits) lo (hi - lo) j
  alloc_some : ∀ s F pm n p, Good s F → ChunkSize (2 ^ c.bits) n → (R.alloc s pm n).1 = some p →
    BlockIn (2 ^ c.bits) lo hi p n ∧ n ∣ p ∧ (∀ j, Covers (2 ^ c.bits) p n j → F j) ∧
      Good (R.alloc s pm n).2.1 (fun j => F j ∧ ¬ Covers (2 ^ c.bits) p n j)
  alloc_none : ∀ s F pm n, Good s F → ChunkSize (2 ^ c.bits) n → (R.alloc s pm n).1 = none →
    (R.alloc s pm n).2 = (s, pm)
  alloc_frame : ∀ s F pm n j, Good s F → ChunkSize (2 ^ c.bits) n →
    (R.alloc s pm n).2.2 j ≠ pm j → F j ∧ ¬ Owned (R.alloc s pm n).2.2 j
  dealloc : ∀ s F pm p n, Good s F → BlockIn (2 ^ c.bits) lo hi p n → n ∣ p →
    (∀ j, Covers (2 ^ c.bits) p n j → ¬ F j) →
    Good (R.dealloc s pm p n).1 (fun j => F j ∨ Covers (2 ^ c.bits) p n j)
  dealloc_frame : ∀ s F pm p n j, Good s F → BlockIn (2 ^ c.bits) lo hi p n → n ∣ p →
    (∀ j, Covers (2 ^ c.bits) p n j → ¬ F j) → (R.dealloc s pm p n).2 j ≠ pm j →
    (F j ∨ Covers (2 ^ c.bits) p n j) ∧ ¬ Owned (R.dealloc s pm p n).2 j

/-- A block of sandbox `i` held by the host: sandbox, address, size. -/
abbrev Live := List (Nat × Nat × Nat)

/-- The host's live blocks after one more operation. -/
def liveStep (live : Live) : Op → Given → Live
  | .hostAlloc i size _ _, some p => (i, p, size) :: live
  | .hostFree i p size, _ => live.erase (i, p, size)
  | _, _ => live

/-- The host behaves: it asks for proper sizes, its slab records are at least 16-byte aligned
addresses (so bit 3 is clear), and it frees only blocks it holds. -/
def HostOk (C : Nat) (live : Live) : Op → Prop
  | .hostAlloc _ size slab _ => ChunkSize C size ∧ slab.getLsbD 3 = false
  | .hostFree i p size => (i, p, size) ∈ live
  | .rpc _ _ => True

/-- A release request is aligned to its size. -/
def AlignedRelease : Op → Prop
  | .rpc _ q => q.kind = 1 → q.a1.toNat ∣ q.a0.toNat
  | _ => True

instance : DecidablePred AlignedRelease := fun op => by
  cases op <;> unfold AlignedRelease <;> infer_instance

/-- The block an operation handed out, if any: sandbox, address, size. -/
def givenBlock : Op → Given → Option (Nat × Nat × Nat)
  | .rpc i q, some p => some (i, p, q.a0.toNat)
  | .hostAlloc i size _ _, some p => some (i, p, size)
  | _, _ => none

/-- The host behaves as far as the page map is concerned: proper sizes, 16-byte aligned slab
records, and only chunk-aligned blocks inside the right mapping are freed. -/
def HostSane (C : Nat) (maps : Nat → Mapping) : Op → Prop
  | .hostAlloc _ size slab _ => ChunkSize C size ∧ slab.getLsbD 3 = false
  | .hostFree i p size =>
    BlockIn C (maps i).base.toNat ((maps i).base.toNat + (maps i).size.toNat) p size
  | .rpc _ _ => True

/-- Chunk `j` lies in the mapping `m`. -/
def InMap (C : Nat) (m : Mapping) (j : Nat) : Prop := Covers C m.base.toNat m.size.toNat j

/-- The sandbox an operation concerns. -/
def sandboxOf : Op → Nat
  | .rpc i _ => i
  | .hostAlloc i _ _ _ => i
  | .hostFree i _ _ => i

/-- The host's blocks are apart from each other and from everything sandbox-owned. -/
def Separate (C : Nat) (pm : Nat → Entry) (live : Live) : Prop :=
  live.Pairwise (fun b b' => ∀ j, ¬ (Covers C b.2.1 b.2.2 j ∧ Covers C b'.2.1 b'.2.2 j)) ∧
  ∀ b ∈ live, ∀ j, Covers C b.2.1 b.2.2 j → ¬ Owned pm j

/-- Along the run of `ops`, only sandboxes that exist (`S`) act, the host behaves and sandbox releases
are size-aligned. -/
def Behaved {σ} (c : Cfg) (R : Range σ) (maps : Nat → Mapping) (S : Nat → Prop) (st : Sys σ)
    (live : Live) : List Op → Prop
  | [] => True
  | op :: ops => S (sandboxOf op) ∧ HostOk (2 ^ c.bits) live op ∧ AlignedRelease op ∧
    Behaved c R maps S (step c R maps st op).2 (liveStep live op (step c R maps st op).1) ops

/-- Along the run of `ops` the host behaves; nothing is said about the sandboxes. -/
def HostBehaved {σ} (c : Cfg) (R : Range σ) (maps : Nat → Mapping) (st : Sys σ) (live : Live) :
    List Op → Prop
  | [] => True
  | op :: ops => HostOk (2 ^ c.bits) live op ∧
    HostBehaved c R maps (step c R maps st op).2 (liveStep live op (step c R maps st op).1) ops

/-- The host's blocks after the run of `ops`. -/
def liveAfter {σ} (c : Cfg) (R : Range σ) (maps : Nat → Mapping) (st : Sys σ) (live : Live) :
    List Op → Live
  | [] => live
  | op :: ops => liveAfter c R maps (step c R maps st op).2
      (liveStep live op (step c R maps st op).1) ops

/-- The sequential reading of a service log: each answer is the handler's answer to the preceding
request in the state left by all earlier requests.  The result is the final shared state. -/
inductive Sequential {σ} (c : Cfg) (R : Range σ) (maps : Nat → Mapping) :
    Sys σ → List Ev → Sys σ → Prop where
  | nil (st) : Sequential c R maps st [] st
  | killed (st st' i es) : Sequential c R maps st es st' →
      Sequential c R maps st (.killed i :: es) st'
  | answered (st st' i q es) :
      Sequential c R maps (step c R maps st (.rpc i q)).2 es st' →
      Sequential c R maps st (.received i q ::
        .replied i (serve c R ((maps i).region c) (st.ranges i) st.pm q).1 :: es) st'
  | dropped (st st' i q es) :
      Sequential c R maps (step c R maps st (.rpc i q)).2 es st' →
      Sequential c R maps st (.received i q :: .killed i :: es) st'

/-- The events of one sandbox's dialogue are a sequence of request/answer pairs, possibly followed
by a termination (with or without an unanswered request), after which nothing happens. -/
def Dialogue : List Ev → Prop
  | [] => True
  | [.killed _] => True
  | [.received _ _, .killed _] => True
  | .received _ _ :: .replied _ _ :: es => Dialogue es
  | _ => False

/-- The sandbox an event concerns. -/
def evOf : Ev → Nat
  | .received i _ => i
  | .replied i _ => i
  | .killed i => i

/-- How often sandbox `i` is registered, now or later. -/
def regs (i : Nat) (fds : List (Int × Nat)) (ps : List Poll) : Nat :=
  fds.countP (fun e => e.2 == i) + ps.countP (fun p => match p with
    | .add _ k => k == i
    | _ => false)

/-- Who socket `fd` belongs to after the iterations `ps`, if it belonged to `o` before them: the first
sandbox registered for it since it was last closed or given up. -/
def ownerOf (fd : Int) (o : Option Nat) : List Poll → Option Nat
  | [] => o
  | .add fd' i :: ps => ownerOf fd (if fd' = fd then (match o with | none => some i | o => o) else o) ps
  | .eof fd' :: ps => ownerOf fd (if fd' = fd then none else o) ps
  | .ready fd' none _ :: ps => ownerOf fd (if fd' = fd then none else o) ps
  | .ready fd' (some _) false :: ps => ownerOf fd (if fd' = fd then none else o) ps
  | .ready _ (some _) true :: ps => ownerOf fd o ps

/-- How an iteration's events tell what came in and for whom. -/
def heard (msg : Option Req) (i : Nat) : List Ev → Prop
  | .received j q :: es => j = i ∧ msg = some q ∧ (∀ e ∈ es, evOf e = i) ∧ es.length = 1
  | es => msg = none ∧ es = [.killed i]

end Verif.Rpc.Spec
