import Verif.Basic

/-!
# Bounds checks and array allocation (model)
-/

namespace Verif.Bounds

/-- The trusted description of a sandbox heap: `LocalState::base` and
`LocalState::top`, `include/process_sandbox/sandbox.h:232-242`.
(The buddy allocator that is also part of `LocalState` is modelled in `Verif.Rpc`.) -/
structure Region where
  base : Word
  top : Word
  deriving Repr, DecidableEq

/-- `LocalState::LocalState(void* start, size_t size)`,
`src/libsandbox.cc:55-67` (only the two bounds). -/
def Region.mk' (start size : Word) : Region := ⟨start, start + size⟩

/-- The region of a `Library`, `src/libsandbox.cc:865-870`: the heap starts after
the shared header (`hdr = sizeof(SharedMemoryRegion)`) of the mapping. -/
def Region.ofMapping (hdr mapBase mapSize : Word) : Region :=
  Region.mk' (mapBase + hdr) (mapSize - hdr)

/-- `LocalState::contains`, `include/process_sandbox/sandbox.h:291-295`.
`hdr` is `sizeof(SharedMemoryRegion)`.  `pointer_offset` and `pointer_diff` are
64-bit addition and subtraction.  The three conjuncts are evaluated left to right
as in the code. -/
def contains (hdr : Word) (r : Region) (ptr sz : Word) : Bool :=
  decide (r.base + hdr ≤ ptr) && (decide (ptr < r.top) && decide (sz ≤ r.top - ptr))

/-- `snmalloc::bits::umul` as used in `src/libsandbox.cc:1022-1027`: the product and
whether it overflowed 64 bits. -/
def umul (a b : Word) : Word × Bool :=
  (a * b, decide (2 ^ 64 ≤ a.toNat * b.toNat))

/-- `Library::alloc_in_sandbox`, `src/libsandbox.cc:1020-1029`.  `alloc` stands for
`SharedAlloc::alloc` (snmalloc); `none` is `nullptr`.  The returned list records the
sizes requested from it. -/
def allocInSandbox (alloc : Word → Option Word) (bytes count : Word) :
    Option Word × List Word :=
  let (sz, overflow) := umul bytes count
  if overflow then (none, []) else (alloc sz, [sz])

/-- `capptr_domesticate`, `include/process_sandbox/sandbox.h:438-452`: a pointer read
from sandbox-writable allocator state is replaced by null unless an object of
`objSize` bytes at it is contained. -/
def domesticate (hdr : Word) (r : Region) (objSize ptr : Word) : Word :=
  if contains hdr r ptr objSize then ptr else 0

end Verif.Bounds
