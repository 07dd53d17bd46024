import Verif.Start.Model

/-!
# Creating and destroying a sandbox: the host's descriptors (model)
-/

namespace Verif.Start

open Verif.Fd

/-- The host process as far as descriptors matter: its table, the number of the next new object, and the
`ranges` map of the memory service (`src/libsandbox.cc:102-105`): the socket it owns for a sandbox
and the object at the other end. -/
structure Host where
  t : Table
  next : Nat
  svc : List (Int × Nat)

/-- What a `Library` owns: the descriptors of its shared memory (`include/process_sandbox/sandbox.h:555`)
and of its callback socket (`src/libsandbox.cc:327`). -/
structure Lib where
  shm : Int
  cb : Int
  deriving Repr, DecidableEq

/-- How making a sandbox ends: `created`, the host gives up (`assert`/`ftruncate` in
`include/process_sandbox/platform/shm_posix.h:206-209`, `err` in
`include/process_sandbox/platform/socketpair_posix.h:239-242`, or the abort in
`include/process_sandbox/platform/poller_epoll.h:38-41`), or it waits for ever for a
looping `vfork` child. -/
inductive Made where
  | created (h : Host) (l : Lib)
  | gaveUp
  | hung

/-- The descriptors of a new sandbox: the shared memory (`include/process_sandbox/sandbox.h:555`, the
first member initialised at `src/libsandbox.cc:866`) and two socket pairs (`src/libsandbox.cc:880`,
`:885`), as numbers −1 when the limit is reached. -/
def fresh (lim : Nat) (h : Host) : Int × Int × Int × Int × Int × Table :=
  let s := create lim h.t ⟨h.next, true⟩
  let a := create lim s.2 ⟨h.next + 1, true⟩
  let b := create lim a.2 ⟨h.next + 2, true⟩
  let c := create lim b.2 ⟨h.next + 3, true⟩
  let d := create lim c.2 ⟨h.next + 4, true⟩
  (s.1, a.1, b.1, c.1, d.1, d.2)

/-- `Library::Library`, `src/libsandbox.cc:865-932`, with the `vfork` of
`include/process_sandbox/platform/child_process_vfork.h:84-103`: the child works on a copy of the table
and on the same `Handle` fields; after it has executed or exited, the constructor's local
pairs are destroyed (line 932) and with them the second ends, if their `Handle`s still name one. -/
def construct (fuel : Nat) (e : Env) (pagemap : Int) (h : Host) : Made :=
  match fresh e.lim h with
  | (s, a, b, c, d, t) =>
    if s < 0 ∨ a < 0 ∨ b < 0 ∨ c < 0 ∨ d < 0 then .gaveUp
    else
      match startChild fuel e t ⟨s, pagemap, b, d⟩ with
      | (.looping, _) => .hung
      | (_, hs) =>
        .created ⟨close (close t hs.cb) hs.rpc, h.next + 5, (a, h.next + 2) :: h.svc⟩ ⟨hs.shm, c⟩

/-- Whether some descriptor of the table refers to the object (the kernel's condition for not hanging up, reported
at `include/process_sandbox/platform/poller_epoll.h:77`). -/
def openId (lim : Nat) (t : Table) (id : Nat) : Bool :=
  (List.range lim).any fun i => (t i).any (·.id == id)

/-- The memory service notices that a peer is gone and drops its entry, closing its socket
(`src/libsandbox.cc:115-129`, `include/process_sandbox/platform/poller_epoll.h:77-87`).  The system
reports this only when no process has the other end open; here the children have exited. -/
def hangup (lim : Nat) : Table → List (Int × Nat) → Table × List (Int × Nat)
  | t, [] => (t, [])
  | t, (x, peer) :: rest =>
    if openId lim t peer then
      let r := hangup lim t rest
      (r.1, (x, peer) :: r.2)
    else hangup lim (close t x) rest

/-- `Library::~Library`, `src/libsandbox.cc:757-788`, and the destruction of its members, once the child has
exited; then the memory service looks for lost peers. -/
def destroy (lim : Nat) (h : Host) (l : Lib) : Host :=
  let t := close (close h.t l.cb) l.shm
  let r := hangup lim t h.svc
  { h with t := r.1, svc := r.2 }

/-- A sandbox is made and destroyed `n` times (`src/libsandbox.cc:865-932`, `:757-788`). -/
def cycles (fuel : Nat) (e : Env) (pagemap : Int) : Nat → Host → Option Host
  | 0, h => some h
  | n + 1, h =>
    match construct fuel e pagemap h with
    | .created h' l => cycles fuel e pagemap n (destroy e.lim h' l)
    | _ => none

end Verif.Start
