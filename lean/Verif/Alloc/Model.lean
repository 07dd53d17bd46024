import Verif.Bounds.Model

/-!
# Making objects in a sandbox (model)
-/

namespace Verif.Alloc

open Verif.Bounds (allocInSandbox)

/-- Write a byte (the constructors run at `include/process_sandbox/sandbox.h:654`, `:696`, `:719`). -/
def write (m : Mem) (a : Word) (b : Byte) : Mem := fun x => if x = a then b else m x

/-- Write `n` bytes at `a`, the `i`-th being `v i`: what a constructor does with its object
(`include/process_sandbox/sandbox.h:654`, `:719`). -/
def fill (v : Nat → Byte) (m : Mem) (a : Word) : Nat → Mem
  | 0 => m
  | n + 1 => write (fill v m a n) (a + BitVec.ofNat 64 n) (v n)

/-- The loop `for (size_t i = 0; i < count; i++) new (&array[i]) T();` with `n` turns left, from `i`,
`include/process_sandbox/sandbox.h:652-655` and `:694-697`.  `T` is a trivial type of `size` bytes, and `T()` sets it to
zero. -/
def zeroLoop (size : Word) (array : Word) : Nat → Word → Mem → Mem
  | 0, _, m => m
  | n + 1, i, m => zeroLoop size array n (i + 1) (fill (fun _ => 0) m (array + i * size) size.toNat)

/-- `Library::alloc<T>(count)` and `Library::alloc<T, Count>()`, `include/process_sandbox/sandbox.h:641-657` and
`:683-699`: the array, or nothing, and the memory afterwards.  `alloc` stands for snmalloc. -/
def allocArray (alloc : Word → Option Word) (size count : Word) (m : Mem) : Option Word × Mem :=
  match (allocInSandbox alloc size count).1 with
  | none => (none, m)
  | some array => (some array, zeroLoop size array count.toNat 0 m)

/-- `Library::alloc<T>(args...)`, `include/process_sandbox/sandbox.h:707-720`, for an object whose constructor leaves the
bytes `v`. -/
def allocObject (alloc : Word → Option Word) (size : Word) (v : Nat → Byte) (m : Mem) : Option Word × Mem :=
  match (allocInSandbox alloc size 1).1 with
  | none => (none, m)
  | some p => (some p, fill v m p size.toNat)

/-- The integer types of C++ on x86-64 in which a count may be given (`include/process_sandbox/sandbox.h:642`). -/
inductive IntTy where
  | char | short | int | long | longLong | unsignedChar | unsignedShort | unsignedInt | unsignedLong | unsignedLongLong
  deriving Repr, DecidableEq

/-- `lib.alloc<T>(n)` with one argument of type `ty`: the choice between the overloads of
`include/process_sandbox/sandbox.h:641-642` and `:707-708`.  Both can be called.  With `size_t`, which is
`unsigned long`, both are exact matches and the more specialised template, the first, wins; with any other type the first
needs a conversion, so the second wins, and constructs one `T` from `n` (bytes `v`). -/
def allocCall (alloc : Word → Option Word) (ty : IntTy) (size n : Word) (v : Nat → Byte) (m : Mem) : Option Word × Mem :=
  if ty = .unsignedLong then allocArray alloc size n m else allocObject alloc size v m

end Verif.Alloc
