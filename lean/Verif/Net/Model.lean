import Verif.Strings.Model
import Verif.Callback.Model

/-!
# Network policy and `bind`/`connect` requests (model)
-/

namespace Verif.Net

open Verif.Bounds Verif.Strings Verif.Callback

/-- `NetworkPolicy::NetOperation`, `include/process_sandbox/netpolicy.h:84-103`. -/
inductive Op where
  | bind
  | getAddrInfo
  | connect
  deriving Repr, DecidableEq

/-- `NetworkPolicy::Policy`, `include/process_sandbox/netpolicy.h:108-131`: deny, allow, or a
callback.  A callback is identified by a number; `none` is an empty `std::function`. -/
inductive Policy where
  | deny
  | allow
  | handler (f : Option Nat)
  deriving Repr, DecidableEq

/-- The tuple `policies`, `include/process_sandbox/netpolicy.h:157-161`.  Default
initialisation gives `Deny` (value 0) in each. -/
structure Policies where
  p0 : Policy := .deny
  p1 : Policy := .deny
  p2 : Policy := .deny
  deriving Repr, DecidableEq

/-- `static_cast<int>(Op)`: position of the operation in the enumeration
(`include/process_sandbox/netpolicy.h:84-103`, used at `:182`). -/
def Op.index : Op → Nat
  | .bind => 0
  | .getAddrInfo => 1
  | .connect => 2

/-- `getPolicy`, `include/process_sandbox/netpolicy.h:179-183`. -/
def Policies.get (ps : Policies) (op : Op) : Policy :=
  match op.index with
  | 0 => ps.p0
  | 1 => ps.p1
  | _ => ps.p2

/-- Assignment through `getPolicy`, `include/process_sandbox/netpolicy.h:189-213`. -/
def Policies.set (ps : Policies) (op : Op) (p : Policy) : Policies :=
  match op.index with
  | 0 => { ps with p0 := p }
  | 1 => { ps with p1 := p }
  | _ => { ps with p2 := p }

/-- One configuration call: `deny`, `allow` or `register_handler`
(`include/process_sandbox/netpolicy.h:188-213`). -/
inductive Config where
  | deny (op : Op)
  | allow (op : Op)
  | register (op : Op) (f : Option Nat)
  deriving Repr, DecidableEq

/-- Run a configuration call (`include/process_sandbox/netpolicy.h:188-213`). -/
def Config.run (ps : Policies) : Config → Policies
  | .deny op => ps.set op .deny
  | .allow op => ps.set op .allow
  | .register op f => ps.set op (.handler f)

/-- Run a history of configuration calls, oldest first
(`include/process_sandbox/netpolicy.h:188-213`). -/
def configure (hist : List Config) : Policies := hist.foldl Config.run {}

/-- Who is called by `invoke`: the system function of an operation or a registered callback
(`include/process_sandbox/netpolicy.h:136-137`, `:237`). -/
inductive Callee where
  | system (op : Op)
  | callback (f : Nat)
  deriving Repr, DecidableEq

/-- `NetworkPolicy::invoke`, `include/process_sandbox/netpolicy.h:220-244`, for arguments of type
`α`.  `call` performs a call and gives its result and `errno`.  Returns the result, `errno`, and
the calls made.  Calling an empty `std::function` throws `std::bad_function_call`. -/
def invoke {α : Type} (ps : Policies) (op : Op) (call : Callee → α → Int × Int) (arg : α) :
    Outcome ((Int × Int) × List (Callee × α)) :=
  match ps.get op with
  | .deny => .ok ((-1, ENOSYS), [])
  | .allow => .ok (call (.system op) arg, [(.system op, arg)])
  | .handler (some f) => .ok (call (.callback f) arg, [(.callback f, arg)])
  | .handler none => .throws

/-- The arguments with which `bind`/`connect` policies are invoked: descriptor, the bytes of the
stack buffer, length (`src/libsandbox.cc:474-475`). -/
structure SockArgs where
  fd : Int
  buffer : List Byte
  len : Nat
  deriving Repr, DecidableEq

/-- `maxSaneSockAddrSize`, `src/libsandbox.cc:458`. -/
def maxSaneSockAddrSize : Nat := 4096

/-- Result of a `bind`/`connect` request: the reply, the calls made by the policy, and the
sandbox addresses read (trace of `src/libsandbox.cc:452-477`). -/
structure SockOut where
  result : Outcome Result
  calls : List (Callee × SockArgs)
  reads : List Word
  deriving Repr, DecidableEq

/-- `handle_bind_or_connect`, `src/libsandbox.cc:452-477`.  `h` is the descriptor received with
the request (`-1` if none); `len` is a `socklen_t`; `rd` is what the copy reads. -/
def handleBindOrConnect (hdr : Word) (r : Region) (ps : Policies) (op : Op)
    (call : Callee → SockArgs → Int × Int) (rd : Mem) (h : Int) (addr : Word) (len : BitVec 32) :
    SockOut :=
  if ¬ (h ≥ 0) ∨ len.toNat > maxSaneSockAddrSize ∨
      contains hdr r addr (len.setWidth 64) = false then
    ⟨.ok { integer := -EINVAL }, [], []⟩
  else
    let buffer := List.replicate maxSaneSockAddrSize (0xa5 : Byte)
    let (b, reads) := copyOut rd addr 0 len.toNat buffer
    match b with
    | .ok b =>
      match invoke ps op call ⟨h, b, len.toNat⟩ with
      | .ok ((ret, errno), calls) =>
        ⟨.ok { integer := if ret ≥ 0 then ret else -errno }, calls, reads⟩
      | .abort => ⟨.abort, [], reads⟩
      | .throws => ⟨.throws, [], reads⟩
      | .ub => ⟨.ub, [], reads⟩
    | _ => ⟨.ub, [], reads⟩

end Verif.Net
