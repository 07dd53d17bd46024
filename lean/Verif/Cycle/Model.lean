import Verif.Make.Model

/-!
# Making and destroying sandboxes, again and again (model)

`Start.cycles` looks at the five descriptors that every sandbox has, in a host with room for them.  Here the whole constructor and everything
that is closed afterwards are put together, for any host.
-/

namespace Verif.Cycle

open Verif.Fd Verif.Start Verif.FileTree

/-- The host and the `ranges` of its memory service (`src/libsandbox.cc:102-105`): the socket that it owns for a sandbox and the object at the other
end. -/
structure World where
  h : Make.Host
  ranges : List (Int × Nat)

/-- `Library::~Library`, `src/libsandbox.cc:757-788`, once the child is gone, and the destruction of the members in the reverse order of
their declaration (`include/process_sandbox/sandbox.h:510-611`): the dispatcher with its socket (`src/libsandbox.cc:327`) and the exported files
(`src/libsandbox.cc:305`), then the shared memory.  After that the memory service drops what has lost its peer (`src/libsandbox.cc:115-129`). -/
def destroy (lim : Nat) (w : World) (m : Make.Made) : World :=
  let t := (handlesOf m.tree).foldl close (close m.t m.cb)
  let r := hangup lim (close t m.shm) ((m.svc, w.h.next + 3) :: w.ranges)
  ⟨⟨r.1, w.h.next + 7, some m.pm, true⟩, r.2⟩

/-- Sandboxes are made and destroyed, one for each set of answers of the system: how many there are, and how the next constructor ended if it
did not return (`src/libsandbox.cc:865-932`, `:757-788`). -/
def cycles (dbg : Bool) (fuel : Nat) (e : Env) (disk : List Byte → Option Obj) : List Make.Sys → World → Nat × Option Make.Out
  | [], _ => (0, none)
  | s :: ss, w =>
    match Make.make dbg fuel e disk s w.h with
    | .made m =>
      let r := cycles dbg fuel e disk ss (destroy e.lim w m)
      (r.1 + 1, r.2)
    | o => (0, some o)

end Verif.Cycle
