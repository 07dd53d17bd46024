import Verif.Bounds.Model

/-!
# Callback dispatch in the parent (model)
-/

namespace Verif.Callback

open Verif.Bounds

/-- `struct CallbackRequest`, `include/process_sandbox/callbacks.h:28-49`.  `kind` is an
enumeration with underlying type `size_t` (`include/process_sandbox/callback_numbers.h:22`),
so any 64-bit value may arrive. -/
structure Request where
  kind : Word
  size : Word
  data : Word
  deriving Repr, DecidableEq

/-- `CallbackHandlerBase::Result`, `include/process_sandbox/callbacks.h:75-101`.  `handle` is
the descriptor number, `-1` when there is none. -/
structure Result where
  integer : Int := -ENOSYS
  handle : Int := -1
  deriving Repr, DecidableEq

/-- The addresses read by `memcpy` of `n` bytes from `a`
(`include/process_sandbox/callbacks.h:158-163`). -/
def copyAddrs (a : Word) : Nat → List Word
  | 0 => []
  | n + 1 => a :: copyAddrs (a + 1) n

/-- `CallbackHandler<T>::invoke`, `include/process_sandbox/callbacks.h:146-173`.
`sizeT` is `sizeof(T)`; `rd` is what the copy reads (the sandbox may write at any time, each
address is read once); `fn` is the wrapped function, which is given the private copy and the
descriptor `h` (variants without a descriptor ignore it and it is closed).  Also returns the
list of sandbox addresses read. -/
def invoke (hdr : Word) (r : Region) (sizeT : Nat) (fn : List Byte → Int → Outcome Result)
    (rd : Mem) (req : Request) (h : Int) : Outcome Result × List Word :=
  if req.size ≠ BitVec.ofNat 64 sizeT then (.ok {}, [])
  else if contains hdr r req.data req.size = false then (.ok {}, [])
  else
    let addrs := copyAddrs req.data sizeT
    (fn (addrs.map rd) h, addrs)

/-- What an entry of the handler table is: the default `CallbackHandlerBase`
(`include/process_sandbox/callbacks.h:107-111`), one of the built-in handlers
(`src/libsandbox.cc:721-737`), or a handler given to `register_callback`. -/
inductive Handler where
  | base
  | builtin (kind : Nat)
  | user (h : Nat)
  deriving Repr, DecidableEq

/-- The dispatcher's table and counter, `src/libsandbox.cc:315` and `:686`. -/
structure Table where
  handlers : List Handler := []
  next : Nat := 7
  deriving Repr, DecidableEq

/-- `enlarge_handlers`, `src/libsandbox.cc:612-623`.  The guard is `size >= handlers.size()`,
so `resize` never shrinks. -/
def enlarge (hs : List Handler) (size : Nat) : List Handler :=
  if size ≥ hs.length then hs ++ List.replicate (size - hs.length) .base else hs

/-- `handlers[k] = h`; an index past the end is undefined behaviour
(`src/libsandbox.cc:636`, `:651`, `:695`). -/
def assign (hs : List Handler) (k : Nat) (h : Handler) : Outcome (List Handler) :=
  if k < hs.length then .ok (hs.set k h) else .ub

/-- `register_handler`, `src/libsandbox.cc:630-637` and `:644-656`. -/
def registerHandler (t : Table) (k : Nat) : Outcome Table :=
  match assign (enlarge t.handlers (k + 1)) k (.builtin k) with
  | .ok hs => .ok { t with handlers := hs }
  | _ => .ub

/-- The built-in kinds in the order in which the constructor registers them:
`Open`, `Stat`, `Access`, `OpenAt`, `Bind`, `GetAddrInfo`, `Connect`
(`src/libsandbox.cc:721-737`; numbers from `include/process_sandbox/callback_numbers.h`). -/
def builtinOrder : List Nat := [0, 1, 2, 3, 4, 6, 5]

/-- The registrations of the constructor, `src/libsandbox.cc:721-737`. -/
def construct : Outcome Table :=
  builtinOrder.foldl (fun o k =>
    match o with
    | .ok t => registerHandler t k
    | e => e) (.ok {})

/-- `register_callback`, `src/libsandbox.cc:691-697`.  The counter is an `int`; incrementing
it past `INT_MAX` is undefined behaviour. -/
def registerCallback (t : Table) (h : Nat) : Outcome (Nat × Table) :=
  let n := t.next
  if n ≥ 2 ^ 31 - 1 then .ub
  else
    match assign (enlarge t.handlers (n + 1)) n (.user h) with
    | .ok hs => .ok (n, ⟨hs, n + 1⟩)
    | _ => .ub

/-- A sequence of `register_callback` calls: the numbers returned and the final table
(`src/libsandbox.cc:691-697`). -/
def registerAll (t : Table) : List Nat → Outcome (List Nat × Table)
  | [] => .ok ([], t)
  | h :: hs =>
    match registerCallback t h with
    | .ok (n, t') =>
      match registerAll t' hs with
      | .ok (ns, t'') => .ok (n :: ns, t'')
      | _ => .ub
    | _ => .ub

/-- The choice of handler in `handle`, `src/libsandbox.cc:672-676`: `none` when the kind is
not below the table's size. -/
def dispatch (hs : List Handler) (kind : Word) : Option Handler :=
  if h : kind.toNat < hs.length then some hs[kind.toNat] else none

/-- A message waiting in the callback socket: its length, the request its first 24 bytes
decode to, and the descriptor received with it (`-1` if none).  The socket keeps message
boundaries (`SOCK_SEQPACKET`, `include/process_sandbox/platform/socketpair_posix.h:237`). -/
structure Packet where
  len : Nat
  req : Request
  fd : Int
  deriving Repr, DecidableEq

/-- `sizeof(CallbackRequest)`: three 64-bit fields
(`include/process_sandbox/callbacks.h:28-49`). -/
def requestSize : Nat := 24

/-- Things that happen during `handle` (`src/libsandbox.cc:661-681`): a request is accepted, a
reply is sent, the child is killed. -/
inductive Event where
  | received (req : Request) (fd : Int)
  | replied (integer : Int) (handle : Int)
  | killed
  deriving Repr, DecidableEq

/-- `CallbackDispatcher::handle`, `src/libsandbox.cc:661-681`.
`pkt` is the next message in the socket (`none`: nothing there, so the receive fails).  A
message shorter than a request makes `nonblocking_receive` return false; a longer one is cut
to 24 bytes by the kernel and accepted
(`include/process_sandbox/platform/socketpair_posix.h:76-121`).  `run` invokes a table entry
that is not the default one; `sendOk` says whether the reply could be sent. -/
def handle (hs : List Handler) (run : Handler → Request → Int → Outcome Result)
    (pkt : Option Packet) (sendOk : Bool) : Outcome (List Event) :=
  match pkt with
  | none => .ok []
  | some p =>
    if p.len < requestSize then .ok []
    else
      let ret : Outcome Result :=
        match dispatch hs p.req.kind with
        | none => .ok {}
        | some .base => .ok { integer := -ENOSYS }
        | some h => run h p.req p.fd
      match ret with
      | .ok res =>
        if sendOk then .ok [.received p.req p.fd, .replied res.integer res.handle]
        else .ok [.received p.req p.fd, .killed]
      | .abort => .abort
      | .throws => .throws
      | .ub => .ub

/-- The dispatcher called once per element of a schedule: each element says which message is
in the socket and whether the reply can be sent (calls of `handle` in `Library::send`,
`src/libsandbox.cc:945` and `:985`). -/
def handleAll (hs : List Handler) (run : Handler → Request → Int → Outcome Result) :
    List (Option Packet × Bool) → Outcome (List Event)
  | [] => .ok []
  | (p, ok) :: rest =>
    match handle hs run p ok with
    | .ok ev =>
      match handleAll hs run rest with
      | .ok ev' => .ok (ev ++ ev')
      | e => e
    | e => e

end Verif.Callback
