import Verif.Run.Model
import Verif.Call.Spec

/-!
# A program that uses a sandboxed library (model)

The host calls functions of the library with `Function::operator()` (`Verif.Call`); the functions run in the child, where
they make system calls and call back (`Verif.Run`); then the host goes on with the result and with what it finds in the
shared memory.  The two processes have the sandbox's heap in common, at the same addresses, and nothing else.  One thread
of the host is considered.
-/

namespace Verif.Whole

open Verif.Syscall (Regs)
open Verif.Run (Program Worlds Event State)
open Verif.Call (Frame Export World Sandbox callOp honest)
open Verif.Call.Spec (Heap)

/-- A function of the library, `include/process_sandbox/cxxsandbox.h:152-197`: its frame and type, its code for each tuple
of arguments, the registers with which `std::apply` calls it, and the bytes of its result, from the memory and the
registers with which it goes on after its last call. -/
structure Fn where
  frame : Frame
  ty : List Byte
  body : List Byte → Program
  entry : Regs
  result : Mem → Regs → List Byte

/-- A library and the heap of its sandbox (`include/process_sandbox/cxxsandbox.h:203-231`). -/
structure Lib where
  heap : Heap
  fns : List Fn

/-- A memory whose heap is that of one and whose rest is that of another process: the heap is mapped at the same address
in both (`src/library_runner.cc:394-400`). -/
def merge (h : Heap) (shared own : Mem) : Mem := fun x =>
  if h.lo ≤ x.toNat ∧ x.toNat < h.hi then shared x else own x

/-- A function runs until it returns (`include/process_sandbox/cxxsandbox.h:180`), with what `malloc` gives during each
call; `none` if it makes more calls than that.  The state is that with which its last stretch begins. -/
def toEnd (W : Worlds) (P : Program) : List (List Word) → State → Outcome (Option State)
  | bs, s =>
    match (P s.child.mem s.regs).2, bs with
    | .stop, _ => .ok (some s)
    | _, [] => .ok none
    | _, b :: bs =>
      match Run.step W P b s with
      | .ok (some s') => toEnd W P bs s'
      | o => o

/-- The child between two calls: its memory outside the heap, the blocks in use, and what has happened
(`src/library_runner.cc:322-340`). -/
structure Idle where
  own : Mem
  live : List Word
  past : List Event

/-- The function is called in the child (`include/process_sandbox/cxxsandbox.h:174-186`): it finds the heap as the host
left it. -/
def enter (L : Lib) (W : Worlds) (blocks : List (List Word)) (c : Idle) (f : Fn) (args : List Byte) (m : Mem) :
    Outcome (Option State) :=
  toEnd W (f.body args) blocks ⟨⟨merge L.heap m c.own, c.live, []⟩, f.entry, c.past⟩

/-- The memory of the child when the function has returned (`include/process_sandbox/cxxsandbox.h:180`). -/
def left (f : Fn) (args : List Byte) (s : State) : Mem := (f.body args s.child.mem s.regs).1

/-- The function as an entry of the table, `include/process_sandbox/cxxsandbox.h:174-186`.  The host sees the heap as the
function left it.  If the child ends, `send` throws (`src/libsandbox.cc:971-977`); a function that makes more calls than
there are blocks for is treated likewise, and no theorem speaks of it. -/
def entry (L : Lib) (W : Worlds) (blocks : List (List Word)) (c : Idle) (f : Fn) : Export where
  frame := f.frame
  ty := f.ty
  run args m :=
    match enter L W blocks c f args m with
    | .ok (some s) => (some (f.result s.child.mem s.regs), merge L.heap (left f args s) m)
    | _ => (none, m)

/-- The host and the child (`include/process_sandbox/sandbox.h:485`). -/
structure Sys where
  world : World
  child : Idle

/-- The memory when the message is sent, `include/process_sandbox/cxxsandbox.h:101-108`. -/
def handed (fr : Frame) (cf : Word) (args : List Byte) (w : World) : Mem :=
  ((w.writes cf ((List.range fr.size.toNat).map fr.init)).writes (cf + BitVec.ofNat 64 fr.argOff) args).turn.mem

/-- The child after a call (`src/library_runner.cc:322-340`). -/
def childAfter (L : Lib) (W : Worlds) (blocks : List (List Word)) (c : Idle) (f : Fn) (cf : Word) (args : List Byte)
    (w : World) : Idle :=
  match enter L W blocks c f args (handed f.frame cf args w) with
  | .ok (some s) => ⟨left f args s, s.child.live, s.past⟩
  | _ => c

/-- A call of the function `f`, the `idx`th of the table, `include/process_sandbox/cxxsandbox.h:99-119`. -/
def call (L : Lib) (W : Worlds) (wild : Sandbox) (alloc : Word → Option Word) (blocks : List (List Word)) (idx : Nat)
    (f : Fn) (args : List Byte) (s : Sys) : Call.Result × Sys :=
  let r := callOp alloc (honest (L.fns.map (entry L W blocks s.child)) wild) idx f.frame args s.world
  (r.1, ⟨r.2, match alloc f.frame.size with
    | none => s.child
    | some cf => childAfter L W blocks s.child f cf args s.world⟩)

/-- The host's program: from the results so far and the memory, the memory that it leaves and the next call; `none` if it
ends (the user of `include/process_sandbox/cxxsandbox.h:99-119`). -/
abbrev Client := List (List Byte) → Mem → Mem × Option (Nat × List Byte)

/-- How the host's program goes on after a call (`include/process_sandbox/cxxsandbox.h:99-119`): with its result, not at
all because it has ended, or with an exception. -/
inductive Turn where
  | goes (results : List (List Byte)) (s : Sys)
  | ended (results : List (List Byte)) (s : Sys)
  | throws

/-- Up to the next call of the library and back (`include/process_sandbox/cxxsandbox.h:99-119`).  Only functions that the
library has are called: the debug build compares the types, `:84-97`. -/
def turn (L : Lib) (W : Worlds) (wild : Sandbox) (Q : Client) (alloc : Word → Option Word) (blocks : List (List Word))
    (results : List (List Byte)) (s : Sys) : Turn :=
  let s1 : Sys := { s with world := { s.world with mem := (Q results s.world.mem).1 } }
  match (Q results s.world.mem).2 with
  | none => .ended results s1
  | some (idx, args) =>
    match L.fns[idx]? with
    | none => .throws
    | some f =>
      match call L W wild alloc blocks idx f args s1 with
      | (.returned bs, s2) => .goes (results ++ [bs]) s2
      | _ => .throws

/-- So many calls of the library, with what the two allocators give during each
(`include/process_sandbox/cxxsandbox.h:99-119`). -/
def turns (L : Lib) (W : Worlds) (wild : Sandbox) (Q : Client) :
    List ((Word → Option Word) × List (List Word)) → List (List Byte) → Sys → Turn
  | [], rs, s => .goes rs s
  | (alloc, blocks) :: ps, rs, s =>
    match turn L W wild Q alloc blocks rs s with
    | .goes rs' s' => turns L W wild Q ps rs' s'
    | o => o

end Verif.Whole
