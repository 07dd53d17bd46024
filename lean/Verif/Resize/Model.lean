import Verif.Reach.Model
import Verif.Main.Model

/-!
# The size of the shared memory (model)

The host reads and writes the shared heap and the page map through its mappings.  If somebody makes the objects smaller, the
next access beyond the new end ends the host with `SIGBUS`.  The objects are made without seals
(`include/process_sandbox/platform/shm_posix.h:123`), and the filter lets the sandbox change the size of what it has a
descriptor for (`include/process_sandbox/platform/sandbox_seccomp-bpf.h:161`, `:279`).
-/

namespace Verif.Resize

open Verif.Authority (Action)
open Verif.Fd (Obj Table)
open Verif.Reach (Src World Ev Step)
open Verif.Rpc (Cfg Range Mapping)

/-- The descriptors of `Verif.Reach` together with the sizes of the objects in the kernel
(`include/process_sandbox/platform/shm_posix.h:208` sets them). -/
structure Sizes (σ : Type) where
  world : World σ
  size : Nat → Nat

/-- One step of the host or of the sandbox.  The host changes the size of shared memory only when it makes it
(`include/process_sandbox/platform/shm_posix.h:208`, `:279`); a system call of the sandbox that is executed may change what
the kernel's rule `resizes` says (`include/process_sandbox/platform/sandbox_seccomp-bpf.h:161`, `:279`). -/
inductive SStep {σ} (c : Cfg) (R : Range σ) (maps : Nat → Mapping) (i : Nat) (self : Word)
    (gives : Seccomp.Call → List Src → Src → Prop) (resizes : Seccomp.Call → List Src → Nat → Prop) :
    Sizes σ → Ev → Sizes σ → Prop where
  | act (w w' : World σ) (z : Nat → Nat) (a : Action) :
      Step c R maps false i self gives w (.act a) w' → SStep c R maps i self gives resizes ⟨w, z⟩ (.act a) ⟨w', z⟩
  | call (w w' : World σ) (z z' : Nat → Nat) (call : Seccomp.Call) :
      Step c R maps false i self gives w (.call call) w' →
      (∀ o, z' o ≠ z o → Seccomp.policy false self call = .allow ∧ resizes call w.held o) →
      SStep c R maps i self gives resizes ⟨w, z⟩ (.call call) ⟨w', z'⟩

/-- A run (`src/libsandbox.cc:109-258`, `:661-697`). -/
inductive SRun {σ} (c : Cfg) (R : Range σ) (maps : Nat → Mapping) (i : Nat) (self : Word)
    (gives : Seccomp.Call → List Src → Src → Prop) (resizes : Seccomp.Call → List Src → Nat → Prop) (s₀ : Sizes σ) :
    List Ev → Sizes σ → Prop where
  | nil : SRun c R maps i self gives resizes s₀ [] s₀
  | snoc (evs : List Ev) (s : Sizes σ) (ev : Ev) (s' : Sizes σ) :
      SRun c R maps i self gives resizes s₀ evs s → SStep c R maps i self gives resizes s ev s' →
      SRun c R maps i self gives resizes s₀ (evs ++ [ev]) s'

/-- The sources of the descriptors of a process (`src/library_runner.cc:1066-1070` says which are left when the library is
loaded). -/
def heldOf (t : Table) : List Src := ((List.range 8).filter fun n => (t n).isSome).map .start

end Verif.Resize
