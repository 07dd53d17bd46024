import Verif.Basic

/-!
# The stack pivot of the library runner (model)

The instructions with which the child changes to another stack before it enters the run loop.
-/

namespace Verif.Pivot

/-- The part of the processor that the code uses (`src/library_runner.cc:1011-1025`): four registers, the
instruction pointer after the last `ret`, memory, and the addresses of the words that were pushed, latest first. -/
structure St where
  rsp : Word
  rbx : Word
  rdi : Word
  rax : Word
  rip : Word
  mem : Word → Byte
  pushed : List Word

/-- Reading eight bytes, lowest first (x86-64; used by `pop` and `ret`, `src/library_runner.cc:1020-1022`). -/
def load (m : Word → Byte) (a : Word) : Word :=
  BitVec.ofNat 64 ((m a).toNat + 2 ^ 8 * (m (a + 1)).toNat + 2 ^ 16 * (m (a + 2)).toNat + 2 ^ 24 * (m (a + 3)).toNat +
    2 ^ 32 * (m (a + 4)).toNat + 2 ^ 40 * (m (a + 5)).toNat + 2 ^ 48 * (m (a + 6)).toNat + 2 ^ 56 * (m (a + 7)).toNat)

/-- Writing eight bytes, lowest first (x86-64; used by `push` and `call`, `src/library_runner.cc:1016-1019`). -/
def store (m : Word → Byte) (a v : Word) : Word → Byte := fun x =>
  if (x - a).toNat < 8 then UInt8.ofNat (v.toNat / 2 ^ (8 * (x - a).toNat)) else m x

/-- `push`: the stack grows downwards (`src/library_runner.cc:1016-1017`). -/
def push (s : St) (v : Word) : St :=
  { s with rsp := s.rsp - 8, mem := store s.mem (s.rsp - 8) v, pushed := (s.rsp - 8) :: s.pushed }

/-- The instructions used (`src/library_runner.cc:1014-1022`). -/
inductive Instr where
  | movRspRbx
  | movRdiRsp
  | pushRbx
  | zeroRdi
  | call (back : Word)
  | popRax
  | popRsp
  | ret
  deriving Repr, DecidableEq

/-- One instruction, `src/library_runner.cc:1014-1022`.  `call back` pushes the return address `back` and runs
`callee`, which returns by itself.  `pop %rsp` leaves the value read, not that value plus eight. -/
def exec (callee : St → St) (s : St) : Instr → St
  | .movRspRbx => { s with rbx := s.rsp }
  | .movRdiRsp => { s with rsp := s.rdi }
  | .pushRbx => push s s.rbx
  | .zeroRdi => { s with rdi := 0 }
  | .call back => callee (push s back)
  | .popRax => { s with rax := load s.mem s.rsp, rsp := s.rsp + 8 }
  | .popRsp => { s with rsp := load s.mem s.rsp }
  | .ret => { s with rip := load s.mem s.rsp, rsp := s.rsp + 8 }

/-- `runloop_with_stack_pivot` before the call, `src/library_runner.cc:1014-1018`. -/
def prologue : List Instr := [.movRspRbx, .movRdiRsp, .pushRbx, .pushRbx, .zeroRdi]

/-- `runloop_with_stack_pivot` after the call, `src/library_runner.cc:1020-1022`. -/
def epilogue : List Instr := [.popRax, .popRsp, .ret]

/-- `runloop_with_stack_pivot`, `src/library_runner.cc:1011-1025`; `back` is the address of the instruction after the
call and `runloop` what the called function does, its `ret` included. -/
def pivot (runloop : St → St) (back : Word) (s : St) : St :=
  (prologue ++ [Instr.call back] ++ epilogue).foldl (exec runloop) s

/-- The state in which `runloop` begins (`src/library_runner.cc:1014-1019`). -/
def atEntry (back : Word) (s : St) : St := (prologue ++ [Instr.call back]).foldl (exec id) s

/-- The size of the new stack, `src/library_runner.cc:1118`. -/
def stackSize : Nat := 8 * 1024 * 1024

/-- The call in `main`, `src/library_runner.cc:1119-1123`: the first argument is what `malloc` returned.  The second is not
used by the assembly version. -/
def callPivot (block : Word) (s : St) : St := { s with rdi := block }

/-! ### The portable version -/

/-- What the thread library answers, in the order of the calls of `src/library_runner.cc:1039-1049`; `true` is success.
The library is not in this repository. -/
structure Pthread where
  attrInit : Bool
  setStack : Bool
  create : Bool
  join : Bool
  deriving DecidableEq, Repr

/-- The attributes of a thread (`src/library_runner.cc:1038-1040`): never initialised, initialised with the library's own choice of a
stack, or with a stack given. -/
inductive Attrs where
  | raw
  | ownStack
  | given (lo : Word) (size : Nat)
  deriving DecidableEq, Repr

/-- What became of the portable pivot (`src/library_runner.cc:1035-1051`).  `ran lo size`: `runloop` ran on the stack
from `lo` upwards and main went on after it ended; `ranElsewhere`: it ran on a stack of the library's choice; `left`: main went on while the thread was
running; `undefined`: an object that was never initialised was read. -/
inductive Portable where
  | ran (lo : Word) (size : Nat)
  | ranElsewhere
  | left
  | undefined
  deriving DecidableEq, Repr

/-- `pthread_attr_init`, `src/library_runner.cc:1039`; its result is not looked at. -/
def attrInit (p : Pthread) : Attrs := if p.attrInit then .ownStack else .raw

/-- `pthread_attr_setstack`, `src/library_runner.cc:1040`; its result is not looked at.  `none`: attributes that were not initialised. -/
def attrSetStack (p : Pthread) (stack : Word) (size : Nat) : Attrs → Option Attrs
  | .raw => none
  | a => some (if p.setStack then .given stack size else a)

/-- `runloop_with_stack_pivot`, the portable version, `src/library_runner.cc:1035-1051`.  No result is looked at: if no
thread was created, `runner` has no value when `pthread_join` reads it. -/
def portable (p : Pthread) (stack : Word) (size : Nat) : Portable :=
  match attrSetStack p stack size (attrInit p) with
  | none => .undefined
  | some a =>
    if p.create = false then .undefined
    else if p.join = false then .left
    else match a with
      | .raw => .undefined
      | .ownStack => .ranElsewhere
      | .given lo n => .ran lo n

end Verif.Pivot
