import Verif.NetEnd.Model

/-!
# `openat` with a relative path, from the program's registers to the host and back (model)

Put together from the signal handler (`Verif.Syscall`), the copy of the path (`Verif.ChildArgs.wrapCStr`), the passing of
the directory's descriptor (`Verif.NetEnd.pass`), the host's dispatcher (`Verif.Callback`) and the handler
(`Verif.PathSyscall.handleOpenat`), with the bytes that pass between them.  One thread of the child is considered; while
it waits for the answer nobody else writes to the shared memory.
-/

namespace Verif.RelEnd

open Verif.Strings (writeBytes)
open Verif.Callback (Handler Packet Event Result requestSize)
open Verif.PathSyscall (Log handleOpenat)
open Verif.ChildArgs (Child wrapPtr wrapCStr unwrap)
open Verif.Syscall (CInt Regs Info Arg Reply)
open Verif.EndToEnd (le ofLe answerOf)
open Verif.NetEnd (World pass)

/-- The tuple `int, uintptr_t, int, mode_t` on the stack, `src/library_runner.cc:669` and `:800-805`; libstdc++ on x86-64
puts the last member first, and four bytes after the first member are unused (`pad2` of the world). -/
def encode (w : World) (dir : CInt) (path : Word) (flags mode : CInt) : List Byte :=
  le 4 mode.toNat ++ le 4 flags.toNat ++ le 8 path.toNat ++ le 4 dir.toNat ++ w.pad2

/-- `sizeof(rpc_type)` for `openat` (`src/library_runner.cc:669-670`, `include/process_sandbox/callbacks.h:149`). -/
def frameSize : Nat := 24

/-- `std::get<1>(args)` of the private copy, `src/libsandbox.cc:442`. -/
def pathArg (bs : List Byte) : Word := .ofNat 64 (ofLe ((bs.drop 8).take 8))

/-- `std::get<2>(args)`, `src/libsandbox.cc:443`. -/
def flagsArg (bs : List Byte) : CInt := .ofNat 32 (ofLe ((bs.drop 4).take 4))

/-- `std::get<3>(args)`, `src/libsandbox.cc:444`.  `std::get<0>`, the number of the directory in the child, is not looked
at. -/
def modeArg (bs : List Byte) : CInt := .ofNat 32 (ofLe (bs.take 4))

/-- `handle_openat` on the private copy of the frame, `src/libsandbox.cc:437-445`. -/
def served (w : World) (m : Mem) (bs : List Byte) (fd : Int) : Outcome (Result × Log) :=
  handleOpenat (w.toWorld.env m) fd (pathArg bs) (flagsArg bs) (modeArg bs)

/-- What the handler returns (`include/process_sandbox/callbacks.h:146-173`). -/
def servedResult (w : World) (m : Mem) (bs : List Byte) (fd : Int) : Outcome Result :=
  match served w m bs fd with
  | .ok (r, _) => .ok r
  | .abort => .abort
  | .throws => .throws
  | .ub => .ub

/-- `handlers[kind]->invoke(lib, req, in_fd)`, `src/libsandbox.cc:675`, for kind 3, `OpenAt`
(`include/process_sandbox/callback_numbers.h:42-46`).  The other kinds are not part of this model. -/
def run (w : World) (m : Mem) (h : Handler) (q : Callback.Request) (fd : Int) : Outcome Result × List Word :=
  match h with
  | .builtin 3 => Callback.invoke w.hdr w.region frameSize (servedResult w m) m q fd
  | _ => (.ok {}, [])

/-- The system calls that the host makes while a request is served: the handler runs on the bytes that `invoke` copied, if
it copied any (`include/process_sandbox/callbacks.h:158-172`). -/
def effects (w : World) (m : Mem) (p : Packet) : Log :=
  match Callback.dispatch w.table p.req.kind with
  | some (.builtin 3) =>
    let addrs := (run w m (.builtin 3) p.req p.fd).2
    if addrs = [] then []
    else
      match served w m (addrs.map m) p.fd with
      | .ok (_, log) => log
      | _ => []
  | _ => []

/-- One turn of the dispatcher, `src/libsandbox.cc:661-681`: the events and the host's system calls. -/
def turn (w : World) (m : Mem) (p : Packet) : Outcome (List Event) × Log :=
  (Callback.handle w.table (fun h q f => (run w m h q f).1) (some p) true, effects w m p)

/-- `callback`, `src/library_runner.cc:446-475`: send the request, give up the turn, take the answer. -/
def callback (w : World) (c : Child) (data : Word) (dir : CInt) : Outcome (Reply × Log × Child) :=
  match pass w dir with
  | .ok fd =>
    match turn w c.mem ⟨requestSize, ⟨3, .ofNat 64 frameSize, data⟩, fd⟩ with
    | (.ok es, log) =>
      match answerOf es with
      | some (i, h) => .ok (EndToEnd.reply w.toWorld i h, log, c)
      | none => .abort
    | (.abort, _) => .abort
    | (.throws, _) => .throws
    | (.ub, _) => .ub
  | .abort => .abort
  | .throws => .throws
  | .ub => .ub

/-- `syscall_callback_helper`, `src/library_runner.cc:666-671`: the tuple is built on the stack, copied to the heap if
need be, and sent with the descriptor of the directory; the copy is freed at the end. -/
def send (w : World) (c : Child) (dir : CInt) (path : Word) (flags mode : CInt) : Outcome (Reply × Log × Child) :=
  let c := { c with mem := writeBytes c.mem w.sp (encode w dir path flags mode) }
  match wrapPtr w.bounds c w.sp frameSize with
  | .ok (f, c) =>
    match callback w c f.arg dir with
    | .ok (r, log, c) => .ok (r, log, unwrap false c f frameSize)
    | .abort => .abort
    | .throws => .throws
    | .ub => .ub
  | .abort => .abort
  | .throws => .throws
  | .ub => .ub

/-- `callback_openat` from the point where the path is known to be relative, `src/library_runner.cc:798-805`.  `len` is
the length of the path string, as `strdup` finds it (`:602`).  Other requests are not part of this model (`ub`). -/
def request (w : World) (c : Child) (len : Nat) (q : Syscall.Request) : Outcome (Reply × Log × Child) :=
  match q.kind, q.args with
  | 3, [.int dir, .cstr path, .int flags, .int mode] =>
    match wrapCStr w.bounds c path len with
    | .ok (a, c) =>
      match send w c dir a.arg flags mode with
      | .ok (r, log, c) => .ok (r, log, unwrap false c a (len + 1))
      | .abort => .abort
      | .throws => .throws
      | .ub => .ub
    | .abort => .abort
    | .throws => .throws
    | .ub => .ub
  | _, _ => .ub

/-- The host as the signal handler sees it (`src/library_runner.cc:666-693`); where there is no answer the value plays
no part, see `trap`. -/
def hostOf (w : World) (c : Child) (len : Nat) (q : Syscall.Request) : Reply :=
  match request w c len q with
  | .ok (r, _, _) => r
  | _ => ⟨0, none⟩

/-- A trapped system call: the handler `emulate` (`src/library_runner.cc:887-895`) with the host behind it. -/
def trap (w : World) (c : Child) (len : Nat) (i : Info) (r : Regs) : Outcome (Regs × Log × Child) :=
  match Syscall.emulate ⟨hostOf w c len, w.pid, w.str, fun f => f⟩ i r with
  | .ok (r', [q]) =>
    match request w c len q with
    | .ok (_, log, c') => .ok (r', log, c')
    | .abort => .abort
    | .throws => .throws
    | .ub => .ub
  | .ok (r', _) => .ok (r', [], c)
  | .abort => .abort
  | .throws => .throws
  | .ub => .ub

end Verif.RelEnd
