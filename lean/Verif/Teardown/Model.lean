import Verif.Rpc.Model

/-!
# Destroying a sandbox (model)

The destructor of `Library`: it visits the page-map entries of the heap, deletes the host's slab
records and empties the entries.
-/

namespace Verif.Teardown

open Verif.Rpc

/-- The constants of `Verif.Rpc.Cfg` and two more of snmalloc's encodings.
* `backendOwned`: `is_backend_owned()` (`src/libsandbox.cc:774`);
* `boundary`: `META_BOUNDARY_BIT` (`include/process_sandbox/sandbox_meta_entry.h:54`). -/
structure TCfg where
  cfg : Cfg
  backendOwned : Entry → Bool
  boundary : Word

/-- `get_slab_metadata`, `include/process_sandbox/sandbox_meta_entry.h:50-56`.  The assertion that
the remote is not null holds at the only call, `src/libsandbox.cc:777-779`. -/
def slabOf (t : TCfg) (e : Entry) : Word := e.word &&& ~~~(sandboxBit ||| t.boundary)

/-- Which slab record, if any, is deleted for an entry: `src/libsandbox.cc:774-781`. -/
def doomed (t : TCfg) (e : Entry) : Option Word :=
  if t.backendOwned e then none
  else if e.sandboxOwned = false ∧ t.cfg.remoteOf e.ras ≠ 0 then some (slabOf t e) else none

/-- The loop of `Library::~Library`, `src/libsandbox.cc:771-786`, from address `a` to `top`; the second
component lists the addresses passed to `delete`, in order.  `meta = empty` is modelled as replacing
both words (snmalloc's assignment operator may keep the boundary bit). -/
def sweep (t : TCfg) (pm : Pm) (a top : Nat) : Pm × List Word :=
  if a < top then
    let o := sweep t (pm.set (a / t.cfg.chunk) ⟨0, 0⟩) (a + t.cfg.chunk) top
    (o.1, (doomed t (pm (a / t.cfg.chunk))).toList ++ o.2)
  else (pm, [])
termination_by top - a
decreasing_by
  have : 0 < t.cfg.chunk := Nat.two_pow_pos _
  omega

/-- `Library::~Library`, `src/libsandbox.cc:757-788`, as far as the page map and the slab records are
concerned (waiting for the child is in `Verif.Token`); `SharedMemoryRegion::destroy` is empty
(`include/process_sandbox/shared_memory_region.h:85`). -/
def destroy (t : TCfg) (m : Mapping) (pm : Pm) : Pm × List Word :=
  sweep t pm (m.region t.cfg).base.toNat (m.region t.cfg).top.toNat

/-- A host-side slab record that is alive: the sandbox, the chunk and its size, the address of the
record and the second word of the entry (`include/process_sandbox/sandbox.h:346-348`). -/
structure Rec where
  sb : Nat
  p : Nat
  size : Nat
  slab : Word
  ras : Word
  deriving Repr, DecidableEq

/-- The block of a record (arguments of `dealloc_chunk`,
`include/process_sandbox/sandbox.h:378-382`). -/
def Rec.block (r : Rec) : Nat × Nat × Nat := (r.sb, r.p, r.size)

/-- The live records after one more operation: `alloc_chunk` creates one
(`include/process_sandbox/sandbox.h:346`), `dealloc_chunk` deletes it
(`include/process_sandbox/sandbox.h:387`). -/
def recStep (recs : List Rec) : Op → Given → List Rec
  | .hostAlloc i size slab ras, some p => ⟨i, p, size, slab, ras⟩ :: recs
  | .hostFree i p size, _ => recs.eraseP (fun r => r.block == (i, p, size))
  | _, _ => recs

/-- The records deleted by an operation: `delete &metadata`, `include/process_sandbox/sandbox.h:387`. -/
def freedStep (recs : List Rec) : Op → List Rec
  | .hostFree i p size => (recs.find? (fun r => r.block == (i, p, size))).toList
  | _ => []

/-- The records created by an operation: `new SlabMetadata()`,
`include/process_sandbox/sandbox.h:346`. -/
def madeStep : Op → Given → List Rec
  | .hostAlloc i size slab ras, some p => [⟨i, p, size, slab, ras⟩]
  | _, _ => []

/-- Records along a run (`include/process_sandbox/sandbox.h:335-388`): those created, those deleted by
`dealloc_chunk`, and those alive at the end. -/
def recRun {σ} (c : Cfg) (R : Range σ) (maps : Nat → Mapping) (st : Sys σ) (recs : List Rec) :
    List Op → List Rec × List Rec × List Rec
  | [] => ([], [], recs)
  | op :: ops =>
    let o := step c R maps st op
    let r := recRun c R maps o.2 (recStep recs op o.1) ops
    (madeStep op o.1 ++ r.1, freedStep recs op ++ r.2.1, r.2.2)

end Verif.Teardown
