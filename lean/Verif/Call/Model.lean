import Verif.Bounds.Model
import Verif.AddrInfo.Model

/-!
# Calling a sandboxed function, byte by byte (model)

The call operator of a host proxy, the function that answers it inside the sandbox, and the check that a debug build
makes when a proxy is created.  The sandbox shares the memory: between any two steps of the host it may have
changed it.
-/

namespace Verif.Call

open Verif.Bounds (allocInSandbox)
open Verif.AddrInfo (leBytes)

/-- The layout of an `argframe<Ret, Args...>`, `include/process_sandbox/cxxsandbox.h:25-38`: the size of the
structure, the size of `ret` (which is at its beginning), where `args` is and its size, whether `Ret` is `void`, and
the bytes that the constructor of the frame leaves.  The layout of the tuple inside `args` is the compiler's. -/
structure Frame where
  size : Word
  isVoid : Bool
  retLen : Nat
  argOff : Nat
  argLen : Nat
  init : Nat → Byte

/-- What the host does that can be seen: `include/process_sandbox/cxxsandbox.h:84-118`. -/
inductive Ev where
  | write (a : Word) (b : Byte)
  | read (a : Word) (b : Byte)
  | send (idx : Nat) (frame : Word)
  | free (p : Word)
  deriving DecidableEq, Repr

/-- The memory, the steps of the host so far, and what other threads and the sandbox do to the memory just before each
step of the host (`include/process_sandbox/cxxsandbox.h:99-119`: the frame is in memory shared with the sandbox). -/
structure World where
  mem : Mem
  trace : List Ev
  env : Nat → Mem → Mem

/-- Other parties have their turn (the memory is shared: `include/process_sandbox/cxxsandbox.h:101`). -/
def World.turn (w : World) : World := { w with mem := w.env w.trace.length w.mem }

/-- The host stores a byte (`include/process_sandbox/cxxsandbox.h:107`). -/
def World.write (w : World) (a : Word) (b : Byte) : World :=
  { w.turn with mem := fun x => if x = a then b else w.turn.mem x, trace := w.trace ++ [.write a b] }

/-- The host stores consecutive bytes (`include/process_sandbox/sandbox.h:719`,
`include/process_sandbox/cxxsandbox.h:107`). -/
def World.writes (w : World) (a : Word) : List Byte → World
  | [] => w
  | b :: bs => (w.write a b).writes (a + 1) bs

/-- The host loads a byte (`include/process_sandbox/cxxsandbox.h:111`). -/
def World.read (w : World) (a : Word) : Byte × World :=
  (w.turn.mem a, { w.turn with trace := w.trace ++ [.read a (w.turn.mem a)] })

/-- The host loads consecutive bytes (`include/process_sandbox/cxxsandbox.h:111`). -/
def World.reads (w : World) (a : Word) : Nat → List Byte × World
  | 0 => ([], w)
  | n + 1 =>
    let (b, w1) := w.read a
    let (bs, w2) := w1.reads (a + 1) n
    (b :: bs, w2)

/-- `Library::free`, `include/process_sandbox/sandbox.h:724-728`, `src/libsandbox.cc:1030-1033`: only that it
happens; what snmalloc does is not modelled. -/
def World.free (w : World) (p : Word) : World := { w.turn with trace := w.trace ++ [.free p] }

/-- What `Library::send` comes to (`src/libsandbox.cc:934-1018`): it returns, or it throws because the
sandbox has ended.  A `send` that never comes back is the subject of `Verif.Token.Hang`. -/
inductive Sent where
  | back
  | threw
  deriving DecidableEq, Repr

/-- The sandbox's side of a `send`: given the index, the frame and the memory, whether `send` returns and the memory
then (`include/process_sandbox/cxxsandbox.h:108`).  What the host does meanwhile to answer callbacks is part of it. -/
abbrev Sandbox := Nat → Word → Mem → Sent × Mem

/-- What a call comes to, `include/process_sandbox/cxxsandbox.h:99-119`. -/
inductive Result where
  | returned (bytes : List Byte)
  | badAlloc
  | sendThrew
  deriving DecidableEq, Repr

/-- `lib.send(vtable_index, callframe)`, `include/process_sandbox/cxxsandbox.h:108`. -/
def World.send (w : World) (sb : Sandbox) (idx : Nat) (cf : Word) : Sent × World :=
  ((sb idx cf w.turn.mem).1, { w.turn with mem := (sb idx cf w.turn.mem).2, trace := w.trace ++ [.send idx cf] })

/-- The part of the call operator after `send`, `include/process_sandbox/cxxsandbox.h:109-118`. -/
def finish (fr : Frame) (cf : Word) (w : World) : Result × World :=
  if fr.isVoid then (.returned [], w.free cf)
  else (.returned (w.reads cf fr.retLen).1, (w.reads cf fr.retLen).2.free cf)

/-- `Function::operator()`, `include/process_sandbox/cxxsandbox.h:99-119`, with `Library::alloc<CallFrame>()`,
`include/process_sandbox/sandbox.h:707-720`.  `alloc` is snmalloc's and `args` the bytes of the tuple. -/
def callOp (alloc : Word → Option Word) (sb : Sandbox) (idx : Nat) (fr : Frame) (args : List Byte) (w : World) :
    Result × World :=
  match (allocInSandbox alloc fr.size 1).1 with
  | none => (.badAlloc, w)
  | some cf =>
    let w1 := w.writes cf ((List.range fr.size.toNat).map fr.init)
    let w2 := w1.writes (cf + BitVec.ofNat 64 fr.argOff) args
    match w2.send sb idx cf with
    | (.threw, w3) => (.sendThrew, w3)
    | (.back, w3) => finish fr cf w3

/-! ### Inside the sandbox -/

/-- An exported function, `include/process_sandbox/cxxsandbox.h:152-197`: its frame, its type, and what
`std::apply` does with the bytes of the arguments and the memory: the bytes of the result, or an exception (`none`),
and the memory then. -/
structure Export where
  frame : Frame
  ty : List Byte
  run : List Byte → Mem → Option (List Byte) × Mem

/-- The bytes of a memory at an address (`frame->args`, `include/process_sandbox/cxxsandbox.h:180`). -/
def bytesAt (m : Mem) (a : Word) : Nat → List Byte
  | 0 => []
  | n + 1 => m a :: bytesAt m (a + 1) n

/-- Storing bytes (`frame->ret = …`, `include/process_sandbox/cxxsandbox.h:180`). -/
def store (m : Mem) (a : Word) : List Byte → Mem
  | [] => m
  | b :: bs => store (fun x => if x = a then b else m x) (a + 1) bs

/-- `ExportedFunction::operator()`, `include/process_sandbox/cxxsandbox.h:174-186`. -/
def Export.apply (e : Export) (cf : Word) (m : Mem) : Sent × Mem :=
  match e.run (bytesAt m (cf + BitVec.ofNat 64 e.frame.argOff) e.frame.argLen) m with
  | (some r, m') => (.back, if e.frame.isVoid then m' else store m' cf r)
  | (none, m') => (.threw, m')

/-- An honest sandbox: the turn of `runloop`, `src/library_runner.cc:322-340`, with `ExportedLibrary::call`,
`include/process_sandbox/cxxsandbox.h:220-223`.  A null frame is not handed on.  An index outside the vector is
undefined behaviour of the sandbox, whatever `wild` says. -/
def honest (fs : List Export) (wild : Sandbox) : Sandbox := fun idx cf m =>
  if cf = 0 then (.back, m)
  else match fs[idx]? with
    | some e => e.apply cf m
    | none => wild idx cf m

/-- Frame of `char *(int)`, `include/process_sandbox/cxxsandbox.h:86`, on x86-64: eight bytes of result, then
the integer, padded. -/
def typeFrame : Frame := ⟨16, false, 8, 8, 4, fun _ => 0⟩

/-- The word stored in bytes (`char* exported`, `include/process_sandbox/cxxsandbox.h:87`). -/
def leVal : List Byte → Nat
  | [] => 0
  | b :: bs => b.toNat + 256 * leVal bs

/-- `ExportedLibrary::type_encoding`, `include/process_sandbox/cxxsandbox.h:228-231`, with the `strdup` of lines
165-168, as an entry of the table: the types of the other entries are `tys`, its own comes first, and `place` is where
the sandbox's `malloc` puts a string (`none` if there is no room). -/
def typeEncoding (tys : List (List Byte)) (place : Nat → Option Word) : Export where
  frame := typeFrame
  ty := "PFPciE".toUTF8.toList
  run := fun args m =>
    match ("PFPciE".toUTF8.toList :: tys)[leVal args]? with
    | none => (none, m)
    | some t =>
      match place (t.length + 1) with
      | none => (some (leBytes 8 0), m)
      | some p => (some (leBytes 8 p.toNat), store m p (t ++ [0]))

/-! ### Creating a proxy -/

/-- `strcmp(exported, name) == 0`, `include/process_sandbox/cxxsandbox.h:89`.  `name` is the host's own string
without its terminator; the other is read where the pointer says. -/
def strcmpEq (w : World) (a : Word) : List Byte → Bool × World
  | [] => (decide ((w.read a).1 = 0), (w.read a).2)
  | c :: cs => if (w.read a).1 = c then strcmpEq (w.read a).2 (a + 1) cs else (false, (w.read a).2)

/-- What creating a proxy comes to, `include/process_sandbox/cxxsandbox.h:82-94`. -/
inductive Created where
  | ok
  /-- `exit(EXIT_FAILURE)`. -/
  | exited
  | threw
  deriving DecidableEq, Repr

/-- The constructor `Function(Library&)`, `include/process_sandbox/cxxsandbox.h:82-94`: `slot` is the number taken
from the library, `name` is `typeid(fn).name()`; `debug` is the absence of `NDEBUG`. -/
def construct (debug : Bool) (alloc : Word → Option Word) (sb : Sandbox) (slot : Nat) (name : List Byte) (w : World) :
    Created × World :=
  if debug then
    match callOp alloc sb 0 typeFrame (leBytes 4 slot) w with
    | (.badAlloc, w1) => (.threw, w1)
    | (.sendThrew, w1) => (.threw, w1)
    | (.returned r, w1) =>
      let exported := BitVec.ofNat 64 (leVal r)
      if exported = 0 then (.exited, w1)
      else
        match strcmpEq w1 exported name with
        | (false, w2) => (.exited, w2)
        | (true, w2) => (.ok, w2.free exported)
  else (.ok, w)

/-- Calls made one after another by one thread; each with its index, its frame and its arguments.  The code has no such
function: this is a host using its proxies (`include/process_sandbox/cxxsandbox.h:99`).  `allocs` and `sbs` give the
allocator and the sandbox's behaviour at each call. -/
def callMany (w : World) :
    List ((Word → Option Word) × Sandbox × Nat × Frame × List Byte) → List Result × World
  | [] => ([], w)
  | (alloc, sb, idx, fr, args) :: rest =>
    let (r, w1) := callOp alloc sb idx fr args w
    let (rs, w2) := callMany w1 rest
    (r :: rs, w2)

end Verif.Call
