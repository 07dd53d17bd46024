import Verif.Location.Model

/-!
# The shared heap as both sides see it (model)

The host maps the heap and writes its bounds into the header; the child maps the same object and takes the bounds from there.
-/

namespace Verif.Boot

/-- The bounds in the header of the shared memory object, `include/process_sandbox/shared_memory_region.h:23-29`. -/
structure Header where
  start : Word
  stop : Word
  deriving Repr, DecidableEq

/-- What the constructor writes there, `src/libsandbox.cc:875-876`, for a heap of `size` bytes mapped at `base`. -/
def hostHeader (base size : Word) : Header := ⟨base, base + size⟩

/-- The kernel's answers to the two calls of `mmap` in the child, `src/library_runner.cc:394-400` (given the address
that is asked for) and `src/library_runner.cc:413-419`; `none` is a failure. -/
structure Kernel where
  heapAt : Word → Option Word
  pagemapAt : Option Word

/-- The child once it has started, `src/library_runner.cc:408-423`: where the heap is mapped and how long the mapping is, the bounds that it
uses for its own tests, and its page map. -/
structure Child where
  shared : Word
  length : Word
  start : Word
  stop : Word
  pagemap : Word
  deriving Repr, DecidableEq

/-- `bootstrap`, `src/library_runner.cc:350-424`, in a child with environment `env` and a shared memory object that starts with
`obj`; `none` when the child stops with an error. -/
def bootstrap (k : Kernel) (obj : Header) (env : List (List Char)) : Option Child :=
  match Location.bootstrap env with
  | .place addr length =>
    match k.heapAt addr with
    | none => none
    | some ptr =>
      match k.pagemapAt with
      | none => none
      | some pm => some ⟨ptr, length, obj.start, obj.stop, pm⟩
  | _ => none

end Verif.Boot
