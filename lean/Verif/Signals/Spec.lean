import Verif.Signals.Model
import Verif.Token.Spec

/-!
# Signal handlers of the sandboxed library (specification)
-/

namespace Verif.Signals.Spec

open Verif.Token Verif.Token.Spec

/-- Every callback that returns has the reply made for it. -/
def OwnReplies (es : List Ev) : Prop := ∀ id id' v, .got id id' v ∈ es → id' = id

/-- The sandbox is at a place where it has control and no callback of its own is under way: in library code (or the
loader), or in the run loop shortly before a function starts or after it has returned. -/
def Quiet (s : St) : Prop :=
  s.sh.shouldExit = false ∧
  match s.cp with
  | .run _ => True
  | .r3 _ (some _) => True
  | .r4 n | .r5 n => s.sh.depth = n
  | _ => False

/-- All actions are co-operative (as in `Verif.Token`), and signals arrive only at quiet places. -/
def QuietRun (dbg : Bool) (s : SSt) : List SAct → Prop
  | [] => True
  | a :: as =>
    (match a with
      | .base b => Coop s.st b
      | .signal => Quiet s.st
      | .sigret => True) ∧ ∀ s' es, sstep dbg s a = some (s', es) → QuietRun dbg s' as

/-- The sandbox waits in its run loop for the host. -/
def Waits (s : St) : Prop :=
  match s.cp with
  | .r0 _ | .r1 _ => True
  | _ => False

/-- The sandbox has begun a callback, or is about to take the reply to one. -/
def InCallback (s : St) : Prop :=
  match s.cp with
  | .k2 _ _ | .k3 _ _ _ | .k4 _ _ _ | .rcv _ _ => True
  | .r2 n | .r3 n none | .r4 n => s.sh.depth < n
  | _ => False

/-- The sandbox has taken the signal to run and has not looked yet what it is for, which is a call. -/
def Woken (s : St) : Prop :=
  match s.cp with
  | .r2 n => s.sh.depth = n
  | _ => False

/-- The sandbox is about to tell the host that a function has returned. -/
def Reports (s : St) : Prop :=
  match s.cp with
  | .r6 _ => True
  | _ => False

/-- No sandbox is being destroyed. -/
def InUse (s : St) : Prop := s.sh.loaded = true ∧ s.sh.shouldExit = false ∧ s.pp ≠ .d1

/-- How often the actions start a handler. -/
def signals : List SAct → Nat
  | [] => 0
  | .signal :: as => signals as + 1
  | _ :: as => signals as

/-- What a handler can do to the rest of the program. -/
inductive Broken (s : SSt) (es : List Ev) : Prop
  /-- a process is aborted -/
  | abort : ¬ NoAbort s.st → Broken s es
  /-- a callback returns with the reply to another one -/
  | reply : ¬ OwnReplies es → Broken s es
  /-- a function that was called before the handler began runs inside it -/
  | inside (x : Nat) : s.frames ≠ [] → .begin x ∈ es → .enter x ∉ es → Broken s es

end Verif.Signals.Spec
