import Verif.Token.Model

/-!
# The call protocol (specification)

Calls into the sandbox and callbacks out of it form one stack, whose top entry tells which side runs.
-/

namespace Verif.Token.Spec

/-- An entry of the control stack. -/
inductive Item where
  /-- the sandbox is loading -/
  | loading
  /-- call `x` was made and not started -/
  | called (x : Nat)
  /-- a function is running in the sandbox -/
  | running
  /-- the function has returned, its caller has not resumed -/
  | finished
  /-- callback `id` was made and is not handled yet -/
  | asked (id : Nat)
  /-- the host is handling callback `id` -/
  | serving (id : Nat)
  /-- callback `id` was answered with `v`, which the sandbox has not seen yet -/
  | answered (id v : Nat)
  deriving Repr, DecidableEq

/-- Which events are allowed on which stack, and what they make of it. -/
def push : List Item → Ev → Option (List Item)
  | [.loading], .loaded => some []
  | .loading :: s, .ask id => some (.asked id :: .loading :: s)
  | .running :: s, .ask id => some (.asked id :: .running :: s)
  | .asked id :: s, .serve id' => if id = id' then some (.serving id :: s) else none
  | .serving id :: s, .answer id' v => if id = id' then some (.answered id v :: s) else none
  | .answered id v :: s, .got id' id'' v' =>
    if id' = id ∧ id'' = id ∧ v' = v then some s else none
  | [], .enter x => some [.called x]
  | .serving id :: s, .enter x => some (.called x :: .serving id :: s)
  | .called x :: s, .begin x' => if x = x' then some (.running :: s) else none
  | .running :: s, .done => some (.finished :: s)
  | .finished :: s, .leave => some s
  | _, _ => none

/-- The stack after a sequence of events; `none` if control was not passed like a call stack. -/
def replay (st : List Item) : List Ev → Option (List Item)
  | [] => some st
  | e :: es =>
    match push st e with
    | none => none
    | some st' => replay st' es

/-- The actions of a host and a sandbox that co-operate: both run the code of the repository, the
sandbox does not die, and the sandbox is destroyed only when it has loaded.  Between steps of the
protocol the two sides make calls and callbacks in any order; only a handler that runs while the
sandbox is still loading makes no call. -/
def Coop (s : St) : Act → Prop
  | .crash => False
  | .write _ => False
  | .inject _ => False
  | .call _ => s.sh.loaded = true ∨ s.ps = []
  | .destroy => s.sh.loaded = true
  | _ => True

instance (s : St) : DecidablePred (Coop s) := fun a => by
  cases a <;> unfold Coop <;> infer_instance

/-- All actions of a run are co-operative. -/
def CoopRun (dbg : Bool) (s : St) : List Act → Prop
  | [] => True
  | a :: as => Coop s a ∧ ∀ s' es, step dbg s a = some (s', es) → CoopRun dbg s' as

/-- Steps of the protocol itself, and returns of functions and handlers. -/
def work : List Act → Nat
  | [] => 0
  | .parent :: as => work as + 1
  | .child :: as => work as + 1
  | .ret :: as => work as + 1
  | .finish _ :: as => work as + 1
  | _ :: as => work as

/-- Choices made outside the protocol: new calls and callbacks, destruction of the sandbox, and waits
of the sandbox that end without success. -/
def choices : List Act → Nat
  | [] => 0
  | .call _ :: as => choices as + 1
  | .ask :: as => choices as + 1
  | .destroy :: as => choices as + 1
  | .childTimeout :: as => choices as + 1
  | _ :: as => choices as

/-- The host polls in the loading loop, with no callback to handle. -/
def Polling (s : St) : Prop :=
  s.sh.loaded = false ∧ s.sh.depth = 0 ∧ ∃ x, s.pp = .s0 x ∨ s.pp = .l1 x

/-- Neither process was aborted. -/
def NoAbort (s : St) : Prop := s.pp ≠ .aborted ∧ s.cp ≠ .aborted

/-- The sandbox waits for a call or for the answer to a callback, at nesting depth `n`. -/
inductive Parked (n : Int) : CPc → Prop
  | r0 : Parked n (.r0 n)
  | r1 : Parked n (.r1 n)

/-- The host waits: in a call, for a callback or the end of loading, for the exit of the sandbox, or
because it has not called a sandbox that is still loading. -/
def HostWaits (s : St) : Prop :=
  (∃ d, s.pp = .w d) ∨ (∃ x, s.pp = .l2 x) ∨ s.pp = .gone ∨
    (s.sh.loaded = false ∧ ((∃ x, s.pp = .s0 x ∨ s.pp = .l1 x) ∨ (s.pp = .user ∧ s.ps = [])))

/-- The sandbox waits for the host, which has not woken it, or has ended. -/
def SandboxWaits (s : St) : Prop :=
  (∃ n, Parked n s.cp) ∧ s.sh.child = 0 ∨ s.cp = .exited

/-- Nothing is in progress: the header has its initial values except that the sandbox has loaded, and
the sandbox waits for a call. -/
def Idle (s : St) : Prop :=
  s.sh = ⟨0, 0, 0, false, true, false, none⟩ ∧ s.reqs = [] ∧ s.reps = [] ∧ s.cs = [] ∧ Parked 0 s.cp

/-- What the host has in progress, seen from the host alone. -/
inductive HItem where
  | call
  | serving (id : Nat)
  deriving Repr, DecidableEq

/-- Calls and handlers of the host end in the reverse order of their beginning, each answer is for the
request whose handler ends; an exception ends all of them.  Events of the sandbox do not matter. -/
def hpush : List HItem → Ev → Option (List HItem)
  | st, .enter _ => some (.call :: st)
  | .call :: st, .leave => some st
  | _, .leave => none
  | st, .serve id => some (.serving id :: st)
  | .serving id :: st, .answer id' _ => if id = id' then some st else none
  | _, .answer _ _ => none
  | _, .raised => some []
  | st, _ => some st

/-- The host's stack after a sequence of events; `none` if it was not nested properly. -/
def hreplay (st : List HItem) : List Ev → Option (List HItem)
  | [] => some st
  | e :: es =>
    match hpush st e with
    | none => none
    | some st' => hreplay st' es

/-- The sandbox process dies. -/
def kill (s : St) : St := { s with dead := true }

end Verif.Token.Spec
