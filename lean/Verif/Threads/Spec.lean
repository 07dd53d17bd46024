import Verif.Token.Spec
import Verif.Threads.Model

/-!
# The call protocol with several threads (specification)
-/

namespace Verif.Threads.Spec
open Verif.Token

/-- All host threads but `i` are outside the protocol. -/
def HostsRest (m : MSt) (i : Nat) : Prop := ∀ k : Nat, k ≠ i → ∀ h : Host, m.hosts[k]? = some h → h = Host.rest

/-- All threads of the sandbox but the main thread and `j` are outside the protocol. -/
def KidsRest (m : MSt) (j : Nat) : Prop := ∀ k : Nat, k ≠ 0 → k ≠ j → ∀ d : Kid, m.kids[k]? = some d → d = Kid.rest

/-- The main thread of the sandbox runs a function or loads the library. -/
def MainRuns (m : MSt) : Prop := ∃ (cs : List (Nat × Option Int)) (e : Option Int), m.kids[0]? = some ⟨cs, .run e⟩

/-- The threads take turns, as if each side had a lock.  A host thread begins a call, or destroys the sandbox, only when
no other host thread is in a call.  A thread of the sandbox other than the main thread begins a callback only when the
main thread is running a function and no other thread is in a callback; the main thread begins a callback or returns only
when no other thread is in a callback.  Also, as with one thread, a handler that runs while the sandbox is still loading
makes no call, and only a loaded sandbox is destroyed. -/
def Turn (m : MSt) : MAct → Prop
  | .host i (.call _) => HostsRest m i ∧ (m.sh.loaded = true ∨ ∀ h : Host, m.hosts[i]? = some h → h.ps = [])
  | .host i .destroy => HostsRest m i ∧ m.sh.loaded = true
  | .host _ _ => True
  | .kid 0 .ask => KidsRest m 0
  | .kid 0 .ret => KidsRest m 0
  | .kid j .ask => KidsRest m j ∧ MainRuns m
  | .kid _ _ => True

/-- All actions of a run take turns. -/
def TurnRun (dbg : Bool) (m : MSt) : List MAct → Prop
  | [] => True
  | a :: as => Turn m a ∧ ∀ m' es, mstep dbg m a = some (m', es) → TurnRun dbg m' as

/-- No thread has aborted. -/
def NoThreadAborts (m : MSt) : Prop := (∀ h ∈ m.hosts, h.pp ≠ .aborted) ∧ ∀ k ∈ m.kids, k.cp ≠ .aborted

end Verif.Threads.Spec
