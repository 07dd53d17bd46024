import Verif.Fd.Table

/-!
# Messages with descriptors: `SocketPairPosix::Socket` (model)
-/

namespace Verif.Socket

open Verif.Fd

/-- One packet on a `SOCK_SEQPACKET` socket (`include/process_sandbox/platform/socketpair_posix.h:238`):
its bytes and the file descriptions attached to it.  The sender chooses both. -/
structure Packet where
  data : List Byte
  fds : List Obj
  deriving Repr, DecidableEq

/-- `CMSG_SPACE(sizeof(int))` and `CMSG_LEN(n * sizeof(int))` on 64-bit Linux: a header of 16 bytes, the
data, padding to a multiple of 8 (`include/process_sandbox/platform/socketpair_posix.h:38`, `:84`, `:114`). -/
def cmsgSpace : Nat := 24
/-- `CMSG_LEN`, as above (`include/process_sandbox/platform/socketpair_posix.h:84`). -/
def cmsgLen (n : Nat) : Nat := 16 + 4 * n

/-- The kernel puts received descriptions into the receiver's table, one number after the other, until
`room` are placed or the table is full; the others are dropped (part of `recvmsg(2)` at
`include/process_sandbox/platform/socketpair_posix.h:105`). -/
def install (lim : Nat) : Nat → Table → List Obj → List Int × Table
  | room + 1, t, o :: os =>
    match lowest lim t with
    | some n =>
      let r := install lim room (t.put n (some o)) os
      ((n : Int) :: r.1, r.2)
    | none => ([], t)
  | _, t, _ => ([], t)

/-- One answer of `recvmsg(2)`. `none` for end of file or an error other than an interrupt
(`include/process_sandbox/platform/socketpair_posix.h:103-110`). -/
inductive Ans where
  | eintr
  | failed
  | packet (p : Packet)
  deriving Repr, DecidableEq

/-- The result of `receive_msg`: its boolean, `*recv_fd`, and the bytes stored
(`include/process_sandbox/platform/socketpair_posix.h:76-121`). -/
structure Got where
  ok : Bool
  fd : Int
  data : List Byte
  deriving Repr, DecidableEq

/-- `receive_msg`, `include/process_sandbox/platform/socketpair_posix.h:76-121`, for a message of `len`
bytes; `want` says whether `recv_fd` is given. With it the control buffer has room for
`(24 - 16) / 4` descriptors, without it for none.  `answers` are those of `recvmsg(2)`, one per
call; an empty list is a call that fails. Data beyond `len` is cut off by the
system, and `ret` is then `len`. -/
def receiveMsg (lim : Nat) (t : Table) (len : Nat) (want : Bool) : List Ans → Got × Table
  | .eintr :: as => receiveMsg lim t len want as
  | .packet p :: _ =>
    if want then
      let r := install lim ((cmsgSpace - 16) / 4) t p.fds
      -- lines 107-119
      let fd := if cmsgLen r.1.length = cmsgLen 1 then r.1.headD (-1) else -1
      (⟨decide ((p.data.take len).length = len), fd, p.data.take len⟩, r.2)
    else (⟨decide ((p.data.take len).length = len), -1, p.data.take len⟩, t)
  | _ => (⟨false, -1, []⟩, t)

/-- `receive` with a handle whose field is `h`, `include/process_sandbox/platform/socketpair_posix.h:183-203`:
only on success is the handle reset (its old descriptor closed) to what was received.
Returns the boolean, the bytes, the field and the table. -/
def receive (lim : Nat) (t : Table) (len : Nat) (h : Int) (as : List Ans) :
    Bool × List Byte × Int × Table :=
  match receiveMsg lim t len true as with
  | (g, t') => if g.ok then (true, g.data, g.fd, close t' h) else (false, g.data, h, t')

/-- `receive` without a handle, `include/process_sandbox/platform/socketpair_posix.h:199-202`. -/
def receivePlain (lim : Nat) (t : Table) (len : Nat) (as : List Ans) : Bool × List Byte × Table :=
  match receiveMsg lim t len false as with
  | (g, t') => (g.ok, g.data, t')

/-- `send_msg`, `include/process_sandbox/platform/socketpair_posix.h:31-68`: the packet that
`sendmsg(2)` is asked to send, with the description `send_fd` refers to if it is not negative
(`none`: the number is not open and the call fails). -/
def sendMsg (t : Table) (data : List Byte) (fd : Int) : Option Packet :=
  if 0 ≤ fd then (t.at fd).map fun o => ⟨data, [o]⟩ else some ⟨data, []⟩

/-- The receiving part of `CallbackDispatcher::handle`, `src/libsandbox.cc:663-671`, and the
destruction of `in_fd` (by the handler it is moved to, or at the end of `handle`): the table after one
request of `len` bytes. -/
def handleReceive (lim : Nat) (t : Table) (len : Nat) (as : List Ans) : Table :=
  match receive lim t len (-1) as with
  | (_, _, h, t') => close t' h

/-- A sequence of requests (`src/libsandbox.cc:661-681`, once for each). -/
def handleAll (lim : Nat) (len : Nat) : Table → List (List Ans) → Table
  | t, [] => t
  | t, as :: rest => handleAll lim len (handleReceive lim t len as) rest

end Verif.Socket
