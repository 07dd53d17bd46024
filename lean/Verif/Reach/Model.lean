import Verif.Seccomp.Model
import Verif.Authority.Model

/-!
# The descriptors that a sandboxed process ever holds (model)

The system-call filter (`Verif.Seccomp`) and the host's handling of messages (`Verif.Authority`) put together: what the
process can obtain by itself and what it is sent.  A descriptor is represented by where it comes from.  Closing is left
out, so that the list holds everything that the process ever held.

What a call that the kernel executes may give is not the library's but the kernel's: it is the parameter `gives`, which
the specification fills in from the manual.
-/

namespace Verif.Reach

open Verif.Authority (Action Effects Host Seen act)
open Verif.Callback (Event)
open Verif.Rpc (Cfg Range Mapping)

/-- Where a descriptor of the process comes from: it was there at the start, at this number
(`src/libsandbox.cc:790-863`); a call of the process
made it; a call derived or received it by way of another descriptor; it stands for the process itself; the host copied
an exported file (`src/libsandbox.cc:423-428`); the host opened a path relative to an exported directory
(`:414-421`); a handler of the user returned it (`include/process_sandbox/callbacks.h:156-172`); the process had the
kernel look up something that the process named; or none of these. -/
inductive Src where
  | start (n : Nat)
  | new (nr : Nat)
  | via (nr : Nat) (s : Src)
  | itself
  | copy (fd : Int)
  | under (fd : Int) (path : Option (List Byte))
  | handler (h : Nat)
  | named (nr : Nat)
  | unknown
  deriving DecidableEq

/-- The system calls of a request that can have given the descriptor `h`: `dup` of an exported file and `openat2`
(`src/libsandbox.cc:414-429`). -/
def opened (h : Int) (x : PathSyscall.Entry) : Option Src :=
  if x.ret = h then
    match x.op with
    | .dup d => some (.copy d)
    | .openat2 d p _ _ _ => some (.under d p)
    | _ => none
  else none

/-- What the descriptor `h` in a reply may be: what a handler of the user returned, or what a system call of the
request returned (`src/libsandbox.cc:410-431`, `:661-681`); if there is no such handler or call, it is unknown. -/
def sources (e : Effects) (h : Int) : List Src :=
  let l := e.users.map (fun u => Src.handler u.1) ++ e.log.filterMap (opened h)
  if l = [] then [.unknown] else l

/-- The descriptors that an event sends to the process: a reply carries one if it is not negative
(`src/libsandbox.cc:676-680`). -/
def sent (e : Effects) : Event → List Src
  | .replied _ h => if 0 ≤ h then sources e h else []
  | _ => []

/-- The descriptors that the process of sandbox `i` may receive by an action of the host (`src/libsandbox.cc:661-681`;
the process takes it at `src/library_runner.cc:466`).  Replies of the memory service carry none
(`src/libsandbox.cc:243-254`). -/
def arrives (i : Nat) : Action → Seen → List Src
  | .message j _ _, .handled (.ok es) e => if j = i then es.flatMap (sent e) else []
  | _, _ => []

/-- The host together with all descriptors that the process of one sandbox has had (`src/libsandbox.cc:700-738`). -/
structure World (σ : Type) where
  host : Host σ
  held : List Src

/-- What happens: an action of the host or of a sandbox (`src/libsandbox.cc:661-697`, `:151-248`), or a system call of
the process (`include/process_sandbox/platform/sandbox_seccomp-bpf.h:66-478`). -/
inductive Ev where
  | act (a : Action)
  | call (c : Seccomp.Call)

/-- One step.  The kernel decides a call of the process by the filter: it executes it, which may give descriptors; or
it lets the process handle the trap, which changes nothing (what the emulation sends to the host is an action); or it
kills the process, after which there is no step (`include/process_sandbox/platform/sandbox_seccomp-bpf.h:66-478`,
`src/libsandbox.cc:661-681`). -/
inductive Step {σ} (c : Cfg) (R : Range σ) (maps : Nat → Mapping) (debugSandbox : Bool) (i : Nat) (self : Word)
    (gives : Seccomp.Call → List Src → Src → Prop) : World σ → Ev → World σ → Prop where
  | act (w : World σ) (a : Action) (got : List Src) :
      (∀ s ∈ got, s ∈ arrives i a (act c R maps w.host a).1) →
      Step c R maps debugSandbox i self gives w (.act a) ⟨(act c R maps w.host a).2, got ++ w.held⟩
  | exec (w : World σ) (call : Seccomp.Call) (got : List Src) :
      Seccomp.policy debugSandbox self call = .allow ∨ Seccomp.policy debugSandbox self call = .log →
      (∀ s ∈ got, gives call w.held s) →
      Step c R maps debugSandbox i self gives w (.call call) ⟨w.host, got ++ w.held⟩
  | trap (w : World σ) (call : Seccomp.Call) :
      Seccomp.policy debugSandbox self call = .trap →
      Step c R maps debugSandbox i self gives w (.call call) w

/-- A run: steps one after the other, the latest last (`src/libsandbox.cc:109-258`, `:661-697`). -/
inductive Run {σ} (c : Cfg) (R : Range σ) (maps : Nat → Mapping) (debugSandbox : Bool) (i : Nat) (self : Word)
    (gives : Seccomp.Call → List Src → Src → Prop) (w₀ : World σ) : List Ev → World σ → Prop where
  | nil : Run c R maps debugSandbox i self gives w₀ [] w₀
  | snoc (evs : List Ev) (w : World σ) (ev : Ev) (w' : World σ) :
      Run c R maps debugSandbox i self gives w₀ evs w → Step c R maps debugSandbox i self gives w ev w' →
      Run c R maps debugSandbox i self gives w₀ (evs ++ [ev]) w'

end Verif.Reach
