import Verif.Basic

/-!
# Function numbers on both sides (model)

Functions are exported inside the sandbox in some order and host proxies are declared in some order; the two
meet only through an integer.
-/

namespace Verif.Vtable

/-- An exported function with the data of `ExportedFunction`,
`include/process_sandbox/cxxsandbox.h:152-197`: which function pointer it is, its type encoding, and
what it computes.  Arguments and results are lists of words and words: the C++ tuple of the call frame without
its layout. -/
structure Fn where
  id : Nat
  ty : String
  run : List Word → Word

/-- The function pointer `ExportedLibrary::type_encoding`, `include/process_sandbox/cxxsandbox.h:228`; the
number of its address. -/
def typeEncodingId : Nat := 0

/-- `ExportedLibrary::functions`, `include/process_sandbox/cxxsandbox.h:218`.  What slot 0 computes depends
on the table, so the table holds functions by value and slot 0 is resolved at the call, `callSlot`. -/
abbrev Exports := List Fn

/-- `ExportedLibrary::type_encoding` as an entry of the table,
`include/process_sandbox/cxxsandbox.h:228-231`: of type `char *(int)`.  Its computation is in `typeOf`. -/
def typeEncoding : Fn := ⟨typeEncodingId, "PFPciE", fun _ => 0⟩

/-- `ExportedLibrary::export_function`, `include/process_sandbox/cxxsandbox.h:240-249`. -/
def exportFunction (fs : Exports) (f : Fn) : Exports :=
  if fs.length = 0 ∧ f.id ≠ typeEncodingId then [typeEncoding] ++ [f] else fs ++ [f]

/-- `sandbox_init` exporting a list of functions in order
(`include/process_sandbox/cxxsandbox.h:200-207`). -/
def exportAll (es : List Fn) : Exports := es.foldl exportFunction []

/-- What a call inside the sandbox comes to (`src/library_runner.cc:307-348`). -/
inductive Outcome (α : Type) where
  | value (a : α)
  /-- An index outside the vector in `operator[]`: undefined behaviour. -/
  | ub
  /-- An exception nobody catches: the sandbox process ends. -/
  | terminated

/-- `ExportedLibrary::call`, `include/process_sandbox/cxxsandbox.h:220-223` with `ExportedFunction`'s call
operator, lines 174-186: the function found at the index, applied to the arguments in the frame. -/
def call (fs : Exports) (idx : Nat) (args : List Word) : Outcome (Nat × Word) :=
  match fs[idx]? with
  | some f => .value (f.id, f.run args)
  | none => .ub

/-- `ExportedLibrary::type_encoding`, `include/process_sandbox/cxxsandbox.h:228-231`, reached by the host
through slot 0 (`Function<char*, int> get_type(l, 0)`, line 86): `at` throws for an index out of range. -/
def typeOf (fs : Exports) (idx : Nat) : Outcome String :=
  match fs[0]? with
  | none => .ub
  | some _ =>
    match fs[idx]? with
    | some f => .value f.ty
    | none => .terminated

/-- `Library::last_vtable_entry` of every library of the process,
`include/process_sandbox/sandbox.h:545`. -/
abbrev Counters := Nat → Nat

/-- The counters of fresh libraries, `include/process_sandbox/sandbox.h:545`. -/
def Counters.init : Counters := fun _ => 1

/-- A host proxy, `include/process_sandbox/cxxsandbox.h:56-94`: the library it belongs to, its slot and
the type it was declared with. -/
structure Proxy where
  lib : Nat
  slot : Nat
  ty : String
  deriving DecidableEq, Repr

/-- `next_vtable_entry`, `include/process_sandbox/sandbox.h:618-621`.  The counter is an `int`: `none` is
its signed overflow, which is undefined. -/
def nextEntry (c : Counters) (lib : Nat) : Option (Nat × Counters) :=
  if c lib < 2 ^ 31 - 1 then some (c lib, fun l => if l = lib then c lib + 1 else c l) else none

/-- The constructor of a proxy without the check of a debug build,
`include/process_sandbox/cxxsandbox.h:82`. -/
def declare (c : Counters) (lib : Nat) (ty : String) : Option (Proxy × Counters) :=
  (nextEntry c lib).map fun (n, c') => (⟨lib, n, ty⟩, c')

/-- Declaring proxies one after another, for any libraries in any order.  The code has no such function:
this is the order in which the fields of the host's interface structures are initialised
(`include/process_sandbox/cxxsandbox.h:76-82`). -/
def declareAll (c : Counters) : List (Nat × String) → Option (List Proxy)
  | [] => some []
  | (lib, ty) :: rest =>
    match declare c lib ty with
    | none => none
    | some (p, c') => (declareAll c' rest).map (p :: ·)

/-- The check of a debug build, `include/process_sandbox/cxxsandbox.h:84-92`: `true` if the
constructor returns, `false` if it ends the process.  `fs` is the sandbox's table; the sandbox is taken to answer
honestly, and a sandbox that ends makes the host's call throw. -/
def debugCheck (fs : Exports) (p : Proxy) : Bool :=
  match typeOf fs p.slot with
  | .value t => t == p.ty
  | _ => false

/-- What the call operator of a proxy comes to (`include/process_sandbox/cxxsandbox.h:56-119`). -/
inductive Answer where
  | returned (fn : Nat) (value : Word)
  /-- `std::bad_alloc`, or the exception of a sandbox that ended. -/
  | threw
  | undefined
  deriving DecidableEq, Repr

/-- The proxy's call operator, `include/process_sandbox/cxxsandbox.h:99-119`: a frame is allocated in the
sandbox (`room`), the arguments are stored in it, the sandbox calls its function with them, and the result is
read from the frame.  `frames` counts the frames that are allocated. -/
def Proxy.call (p : Proxy) (fs : Exports) (room : Bool) (frames : Nat) (args : List Word) : Answer × Nat :=
  if room then
    match Vtable.call fs p.slot args with
    | .value (f, r) => (.returned f r, frames + 1 - 1)
    | .ub => (.undefined, frames + 1)
    | .terminated => (.threw, frames + 1)
  else (.threw, frames)

end Verif.Vtable
