import Verif.Basic

/-!
# Shared memory mappings (model)
-/

namespace Verif.Shm

/-- What an address of the process holds: nothing, a reservation without access
(`include/process_sandbox/platform/shm_posix.h:286-292`), the shared memory object, or something else. -/
inductive Kind where
  | free
  | reserved
  | shared
  | other
  deriving Repr, DecidableEq

/-- The address space, byte by byte.  Addresses are numbers below `2 ^ 64`
(`include/process_sandbox/platform/shm_posix.h:276-326`). -/
abbrev Space := Nat → Kind

/-- Give `[a, a + n)` a new content: `mmap` with `MAP_FIXED` or at an address the system picked, and
`munmap` (`include/process_sandbox/platform/shm_posix.h:286-314`). -/
def Space.put (m : Space) (a n : Nat) (k : Kind) : Space :=
  fun x => if a ≤ x ∧ x < a + n then k else m x

/-- `snmalloc::pointer_align_up(p, align)`, used at `include/process_sandbox/platform/shm_posix.h:295`
and `src/child_malloc.h:64`: `(p + (align - 1)) & ~(align - 1)` on 64-bit numbers. -/
def alignUp (p align : Word) : Word := (p + (align - 1)) &&& ~~~(align - 1)

/-- `MAP_FAILED`, `(void*)-1`; `map_address` starts so at
`include/process_sandbox/platform/shm_posix.h:183`. -/
def mapFailed : Word := BitVec.allOnes 64

/-- `snmalloc::bits::one_at_bit`, `include/process_sandbox/platform/shm_posix.h:204`: `1 << k`; undefined
(`none`) for a shift of 64 or more. -/
def oneAtBit (k : Nat) : Option Word := if k < 64 then some (1#64 <<< k) else none

/-- `snmalloc::bits::next_pow2_bits`, used at `src/libsandbox.cc:866`: the number of bits of `x - 1`,
that is 64 minus its leading zeros. -/
def nextPow2Bits (x : Word) : Nat := if x - 1 = 0 then 0 else Nat.log2 (x - 1).toNat + 1

/-- The size of a sandbox's mapping, `src/libsandbox.cc:866` with
`include/process_sandbox/platform/shm_posix.h:204`: the argument counts GiB. -/
def heapSize (gib : Word) : Option Word := oneAtBit (nextPow2Bits (gib <<< 30))

/-- The system's answers to the two `mmap` calls of the constructor: where it puts the reservation
(`none`: it fails), and whether mapping the object over it works
(`include/process_sandbox/platform/shm_posix.h:286-312`). -/
structure Sys where
  region : Option Word
  fixedOk : Bool
  deriving Repr, DecidableEq

/-- `OS_PAGE_SIZE`, `include/process_sandbox/platform/shm_posix.h:282` (x86-64 Linux). -/
def pageSize : Word := 4096

/-- A length rounded up to whole pages, as the kernel does for `munmap`
(`include/process_sandbox/platform/shm_posix.h:309`). -/
def pages (n : Nat) : Nat := (n + 4095) / 4096 * 4096

/-- `munmap(a, n)` at `include/process_sandbox/platform/shm_posix.h:309` and `:313`: refused for an
address that is not page aligned or a length of zero; a length is rounded up to whole pages. -/
def munmap (m : Space) (a n : Word) : Space :=
  if a.toNat % 4096 = 0 ∧ n ≠ 0 then m.put a.toNat (pages n.toNat) .free else m

/-- The destructor, `include/process_sandbox/platform/shm_posix.h:215-221`: unmaps what was mapped. -/
def unmapShared (m : Space) (addr size : Word) : Space :=
  if addr ≠ mapFailed then munmap m addr size else m

/-- The constructor `SharedMemoryMapPOSIX`, `include/process_sandbox/platform/shm_posix.h:276-326`, after
the object has its size: the address space and `map_address`.  No result of `mmap` is checked. -/
def mapShared (sys : Sys) (m : Space) (size : Word) : Space × Word :=
  if pageSize < size then
    -- lines 286-292
    let region := sys.region.getD mapFailed
    let m := match sys.region with
      | some r => m.put r.toNat (size * 2).toNat .reserved
      | none => m
    -- lines 293-295
    let regionEnd := region + size * 2
    let start := alignUp region size
    -- lines 297-303
    let addr := if sys.fixedOk then start else mapFailed
    let m := if sys.fixedOk then m.put start.toNat size.toNat .shared else m
    -- lines 304-305
    let mapEnd := addr + size
    -- lines 307-310
    let m := if region < start then munmap m region (start - region) else m
    -- lines 311-314
    let m := if mapEnd < regionEnd then munmap m mapEnd (regionEnd - mapEnd) else m
    (m, addr)
  else
    -- lines 318-324
    match sys.region with
    | some r => (m.put r.toNat size.toNat .shared, r)
    | none => (m, mapFailed)

/-- `PalRange::alloc_range`, `src/child_malloc.h:49-77`, where the platform gives no alignment: `alloc` is
the answer of snmalloc's range (null if it fails).  Returns the address space and the result. -/
def allocRange (alloc : Option Word) (m : Space) (size : Word) : Space × Word :=
  let base := alloc.getD 0
  let m := match alloc with
    | some a => m.put a.toNat (size * 2).toNat .reserved
    | none => m
  let «end» := base + size * 2
  let alignedBase := alignUp base size
  let alignedEnd := alignedBase + size
  -- lines 66-70
  let m := if alignedEnd < «end» then munmap m alignedEnd («end» - alignedEnd) else m
  -- lines 71-75
  let m := if base < alignedBase then munmap m base (alignedBase - base) else m
  (m, alignedBase)

/-- `PalRange::dealloc_range`, `src/library_runner.cc:285-288`. -/
def deallocRange (m : Space) (base size : Word) : Space := munmap m base size

/-- The constructor `SharedMemoryMapMMapAligned`, `include/process_sandbox/platform/shm_posix.h:343-352`, where the system can place a
mapping by itself: `answer` is where it did (`none`: it failed).  The result of `mmap` is not checked here either. -/
def mapAligned (answer : Option Word) (m : Space) (size : Word) : Space × Word :=
  match answer with
  | some r => (m.put r.toNat size.toNat .shared, r)
  | none => (m, mapFailed)

end Verif.Shm
