import Verif.EndToEnd.Model
import Verif.BsdPath.Model
import Verif.FreeBsd.Model

/-!
# A system call of the sandboxed program on FreeBSD, from its registers to the host and back (model)

As `Verif.EndToEnd`, with the parts that differ on FreeBSD: the frame of the signal handler (`Verif.FreeBsd`), the layout of
the argument tuple (libc++), and the host's safe system calls (`Verif.BsdPath`).  The argument wrappers
(`Verif.ChildArgs`) and the host's dispatcher (`Verif.Callback`) are the same code.

One thread of the child is considered; while it waits for the answer nobody else writes to the shared memory.
-/

namespace Verif.BsdEnd

open Verif.Strings (writeBytes)
open Verif.Callback (Handler Packet Result requestSize)
open Verif.PathSyscall (Call)
open Verif.BsdPath (Entry Log Kernel serve statSize)
open Verif.ChildArgs (Child wrapPtr wrapCStr unwrap)
open Verif.Syscall (Reply)
open Verif.EndToEnd (le ofLe kindOf frameSize reply answerOf)
open Verif.FreeBsd (Regs Info)

/-- As for Linux (`src/libsandbox.cc:300-330`, `src/library_runner.cc:112-118`), with the kernel of FreeBSD and the bytes of the
`struct stat` that it gives (`src/libsandbox.cc:601-604`).  `kernel` and `statBytes` of the Linux world are not used, nor
is `pid`. -/
structure World extends EndToEnd.World where
  bsd : Kernel
  bsdStat : Log → List Byte

/-- The frame: `src/library_runner.cc:649-670`, `include/process_sandbox/callbacks.h:215-285`, with the layout of
`std::tuple` in libc++, first member first.  `pad` are the four bytes that the tuple of `access` leaves unused;
after the mode of `open`, which has two bytes, two are unused. -/
def encode (pad : List Byte) : Call → List Byte
  | .open_ a flags mode => le 8 a.toNat ++ le 4 flags.toNat ++ le 2 mode.toNat ++ pad.take 2
  | .access a mode => le 8 a.toNat ++ le 4 mode.toNat ++ pad
  | .stat a sb => le 8 a.toNat ++ le 8 sb.toNat

/-- `std::get<i>(args)` of the private copy, for the handlers registered at `src/libsandbox.cc:721-729`: `Open`,
`Stat` and `Access`.  The other kinds are not part of this model. -/
def decode (kind : Nat) (bs : List Byte) : Option Call :=
  match kind with
  | 0 => some (.open_ (.ofNat 64 (ofLe (bs.take 8))) (.ofNat 32 (ofLe ((bs.drop 8).take 4)))
      (.ofNat 32 (ofLe ((bs.drop 12).take 2))))
  | 1 => some (.stat (.ofNat 64 (ofLe (bs.take 8))) (.ofNat 64 (ofLe (bs.drop 8))))
  | 2 => some (.access (.ofNat 64 (ofLe (bs.take 8))) (.ofNat 32 (ofLe ((bs.drop 8).take 4))))
  | _ => none

/-- What the path handlers depend on, when the shared memory holds `m` throughout (`src/libsandbox.cc:300-330`). -/
def World.env (w : World) (m : Mem) : BsdPath.Env :=
  ⟨w.hdr, w.region, w.malloc, w.tree, w.bsd, m, m⟩

/-- The handlers of `src/libsandbox.cc:411-431` and `:577-607`, on the private copy of the frame. -/
def served (w : World) (m : Mem) (kind : Nat) (bs : List Byte) : Outcome (Result × Log) :=
  match decode kind bs with
  | some c => serve (w.env m) c
  | none => .ok ({}, [])

/-- What a handler returns (`include/process_sandbox/callbacks.h:146-173`). -/
def servedResult (w : World) (m : Mem) (kind : Nat) (bs : List Byte) : Outcome Result :=
  match served w m kind bs with
  | .ok (r, _) => .ok r
  | .abort => .abort
  | .throws => .throws
  | .ub => .ub

/-- `handlers[kind]->invoke(lib, req, in_fd)`, `src/libsandbox.cc:675`, for the built-in handlers. -/
def run (w : World) (m : Mem) (h : Handler) (q : Callback.Request) (fd : Int) : Outcome Result × List Word :=
  match h with
  | .builtin k => Callback.invoke w.hdr w.region frameSize (fun bs _ => servedResult w m k bs) m q fd
  | _ => (.ok {}, [])

/-- Where a call of the host puts a `struct stat`, if it succeeds (`src/libsandbox.cc:601-604`,
`include/process_sandbox/platform/safe_syscalls-freebsd.h:43-47`). -/
def statTarget (e : Entry) : Option Word :=
  match e.op with
  | .fstat _ sb => if e.ret ≥ 0 then some sb else none
  | .fstatat _ _ sb _ => if e.ret ≥ 0 then some sb else none
  | _ => none

/-- The effect of one call of the host on the shared memory (`src/libsandbox.cc:601-604`). -/
def afterCall (bs : List Byte) (m : Mem) (e : Entry) : Mem :=
  match statTarget e with
  | some sb => writeBytes m sb bs
  | none => m

/-- The memory after the host's calls (`src/libsandbox.cc:593-607`; the other calls write no sandbox memory). -/
def afterCalls (w : World) (log : Log) (m : Mem) : Mem := log.foldl (afterCall (w.bsdStat log)) m

/-- What serving a request does besides giving a result: the calls made, and the memory afterwards.  The handler
runs on the bytes that `invoke` copied (`include/process_sandbox/callbacks.h:158-172`), if it copied any. -/
def effects (w : World) (m : Mem) (p : Packet) : Log × Mem :=
  match Callback.dispatch w.table p.req.kind with
  | some (.builtin k) =>
    let addrs := (run w m (.builtin k) p.req p.fd).2
    if addrs = [] then ([], m)
    else
      match served w m k (addrs.map m) with
      | .ok (_, log) => (log, afterCalls w log m)
      | _ => ([], m)
  | _ => ([], m)

/-- `callback`, `src/library_runner.cc:446-475`: send the request, give up the turn, take the answer.  The host
handles the request (`src/libsandbox.cc:661-681`); if it does not answer, the child waits for ever or is killed,
which is `abort` here. -/
def callback (w : World) (c : Child) (kind : Nat) (data : Word) (fd : Int) : Outcome (Reply × Log × Child) :=
  let p : Packet := ⟨requestSize, ⟨.ofNat 64 kind, .ofNat 64 frameSize, data⟩, fd⟩
  match Callback.handle w.table (fun h q f => (run w c.mem h q f).1) (some p) true with
  | .ok es =>
    match answerOf es with
    | some (i, h) =>
      let (log, m) := effects w c.mem p
      .ok (reply w.toWorld i h, log, { c with mem := m })
    | none => .abort
  | .abort => .abort
  | .throws => .throws
  | .ub => .ub

/-- `syscall_callback_helper` up to the answer, `src/library_runner.cc:666-671`: the tuple is built on the stack,
copied to the heap if need be, and sent; the copy is freed at the end. -/
def send (w : World) (c : Child) (call : Call) : Outcome (Reply × Log × Child) :=
  let c := { c with mem := writeBytes c.mem w.sp (encode w.pad call) }
  match wrapPtr w.bounds c w.sp frameSize with
  | .ok (f, c) =>
    match callback w c (kindOf call) f.arg (-1) with
    | .ok (r, log, c) => .ok (r, log, unwrap false c f frameSize)
    | .abort => .abort
    | .throws => .throws
    | .ub => .ub
  | .abort => .abort
  | .throws => .throws
  | .ub => .ub

/-- `callback_open`, `callback_stat` and `callback_access` with their wrappers, `src/library_runner.cc:698-727`.
`len` is the length of the path string, as `strdup` finds it (`:602`).  The structure of `stat` is the `struct stat` with
which the child was built, whatever the program passes (`:709-715`).  Other requests are not part of this model
(`ub`).  Arguments are converted in order and released in the opposite order. -/
def request (w : World) (c : Child) (len : Nat) (q : Syscall.Request) : Outcome (Reply × Log × Child) :=
  match q.kind, q.args with
  | 0, [.cstr p, .int flags, .int mode] =>
    match wrapCStr w.bounds c p len with
    | .ok (a, c) =>
      match send w c (.open_ a.arg flags mode) with
      | .ok (r, log, c) => .ok (r, log, unwrap false c a (len + 1))
      | e => e
    | .abort => .abort
    | .throws => .throws
    | .ub => .ub
  | 1, [.cstr p, .out sb] =>
    match wrapCStr w.bounds c p len with
    | .ok (a, c) =>
      match wrapPtr w.bounds c sb statSize with
      | .ok (b, c) =>
        match send w c (.stat a.arg b.arg) with
        | .ok (r, log, c) => .ok (r, log, unwrap false (unwrap true c b statSize) a (len + 1))
        | e => e
      | .abort => .abort
      | .throws => .throws
      | .ub => .ub
    | .abort => .abort
    | .throws => .throws
    | .ub => .ub
  | 2, [.cstr p, .int mode] =>
    match wrapCStr w.bounds c p len with
    | .ok (a, c) =>
      match send w c (.access a.arg mode) with
      | .ok (r, log, c) => .ok (r, log, unwrap false c a (len + 1))
      | e => e
    | .abort => .abort
    | .throws => .throws
    | .ub => .ub
  | _, _ => .ub

/-- The host as the signal handler sees it (`src/library_runner.cc:666-693`); where there is no answer the value
plays no part, see `trap`. -/
def hostOf (w : World) (c : Child) (len : Nat) (q : Syscall.Request) : Reply :=
  match request w c len q with
  | .ok (r, _, _) => r
  | _ => ⟨0, none⟩

/-- A system call that Capsicum refused: the handler `emulate` (`src/library_runner.cc:887-895`) with the host behind it.
Gives the registers with which the program goes on, the host's system calls, and the child's memory. -/
def trap (w : World) (c : Child) (len : Nat) (i : Info) (r : Regs) : Outcome (Regs × Log × Child) :=
  match FreeBsd.emulate ⟨hostOf w c len, w.pid, w.str, fun f => f⟩ i r with
  | .ok (r', [q]) =>
    match request w c len q with
    | .ok (_, log, c') => .ok (r', log, c')
    | .abort => .abort
    | .throws => .throws
    | .ub => .ub
  | .ok (r', _) => .ok (r', [], c)
  | .abort => .abort
  | .throws => .throws
  | .ub => .ub

end Verif.BsdEnd
