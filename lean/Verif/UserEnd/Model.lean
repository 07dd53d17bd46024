import Verif.NetEnd.Model

/-!
# A callback of the sandboxed library into the host, from the call to the registered function and back (model)

Put together from the child's `invoke_user_callback` (`Verif.ChildArgs.wrapUser`), the transport of the descriptor
(`Verif.NetEnd.pass`) and the host's dispatcher and typed handlers (`Verif.Callback`).  One thread of the child is
considered; while it waits for the answer, only the host's function writes to the shared memory.
-/

namespace Verif.UserEnd

open Verif.Callback (Handler Packet Event Result requestSize)
open Verif.ChildArgs (Bounds Child Wrapped wrapUser unwrap)
open Verif.Syscall (CInt Reply)
open Verif.EndToEnd (answerOf)

/-- A handler made by `make_callback_handler`, `include/process_sandbox/callbacks.h:129-200`: `sizeof(T)`, whether it
takes the descriptor, what the function returns for an argument (and a descriptor, `-1` if it gets none), and what it
does to the memory of the sandbox, which it may write. -/
structure Fn where
  size : Nat
  takes : Bool
  result : List Byte → Int → Result
  effect : List Byte → Int → Mem → Mem

/-- The functions called, with their arguments (`include/process_sandbox/callbacks.h:164-172`). -/
abbrev Calls := List (Nat × List Byte × Int)

/-- Besides the world of `Verif.NetEnd`: the functions given to `register_callback` (`src/libsandbox.cc:691-697`). -/
structure World extends toNet : NetEnd.World where
  fns : Nat → Fn

/-- The descriptor with which the function is called: `std::move(h)`, or none in the variant without a descriptor
(`include/process_sandbox/callbacks.h:164-171`); there it is closed when `invoke` returns. -/
def Fn.given (f : Fn) (fd : Int) : Int := if f.takes then fd else -1

/-- `handlers[kind]->invoke(lib, req, in_fd)`, `src/libsandbox.cc:675`, for the handlers of the user.  The built-in
ones are the subject of `Verif.EndToEnd` and `Verif.NetEnd` and not part of this model. -/
def run (w : World) (m : Mem) (h : Handler) (q : Callback.Request) (fd : Int) : Outcome Result × List Word :=
  match h with
  | .user u =>
    Callback.invoke w.hdr w.region (w.fns u).size (fun bs f => .ok ((w.fns u).result bs ((w.fns u).given f))) m q fd
  | _ => (.ok {}, [])

/-- What serving a request does besides giving a result: the functions called, and the memory afterwards.  The function
runs on the bytes that `invoke` copied, if it copied any (`include/process_sandbox/callbacks.h:158-172`). -/
def effects (w : World) (m : Mem) (p : Packet) : Calls × Mem :=
  match Callback.dispatch w.table p.req.kind with
  | some (.user u) =>
    let addrs := (run w m (.user u) p.req p.fd).2
    if addrs = [] then ([], m)
    else
      let bs := addrs.map m
      ([(u, bs, (w.fns u).given p.fd)], (w.fns u).effect bs ((w.fns u).given p.fd) m)
  | _ => ([], m)

/-- One turn of the dispatcher, `src/libsandbox.cc:661-681`: the events, the functions called, the memory. -/
def turn (w : World) (m : Mem) (p : Packet) : Outcome (List Event) × Calls × Mem :=
  (Callback.handle w.table (fun h q f => (run w m h q f).1) (some p) true, effects w m p)

/-- `callback`, `src/library_runner.cc:446-475`: send the request with the descriptor, give up the turn, take the
answer.  The number of the callback is an `int` that becomes a `size_t` (`src/library_runner.cc:997`). -/
def callback (w : World) (c : Child) (idx : CInt) (data : Word) (size : Nat) (fd : CInt) :
    Outcome (Reply × Calls × Child) :=
  match NetEnd.pass w.toNet fd with
  | .ok h =>
    match turn w c.mem ⟨requestSize, ⟨idx.signExtend 64, .ofNat 64 size, data⟩, h⟩ with
    | (.ok es, calls, m) =>
      match answerOf es with
      | some (i, r) => .ok (EndToEnd.reply w.toNet.toWorld i r, calls, { c with mem := m })
      | none => .abort
    | (.abort, _) => .abort
    | (.throws, _) => .throws
    | (.ub, _) => .ub
  | .abort => .abort
  | .throws => .throws
  | .ub => .ub

/-- The value returned, `src/library_runner.cc:998-1003`: the low half of the number, unless a descriptor came. -/
def resultOf (r : Reply) : CInt :=
  match r.fd with
  | some f => f
  | none => r.response.setWidth 32

/-- `invoke_user_callback`, `src/library_runner.cc:988-1004`.  The copy is freed at the end; it is not copied back. -/
def invokeUser (w : World) (c : Child) (idx : CInt) (data : Word) (size : Nat) (fd : CInt) :
    Outcome (CInt × Calls × Child) :=
  match wrapUser w.bounds c data size with
  | .ok (a, c) =>
    match callback w c idx a.arg size fd with
    | .ok (r, calls, c) => .ok (resultOf r, calls, unwrap false c a size)
    | .abort => .abort
    | .throws => .throws
    | .ub => .ub
  | .abort => .abort
  | .throws => .throws
  | .ub => .ub

end Verif.UserEnd
