import Verif.Sem.Model

/-!
# The one-bit semaphore (specification)
-/

namespace Verif.Sem.Spec

/-- A thread that is inside `wait` and not asleep. -/
def Active : Pc → Prop
  | .load1 | .cas1 _ | .enter | .load2 | .cas2 _ => True
  | _ => False

instance : DecidablePred Active := fun p => by cases p <;> unfold Active <;> infer_instance

/-- The discipline of the protocol: no thread signals while the semaphore is set. -/
def Alternates (dbg : Bool) (s : St) : List Act → Prop
  | [] => True
  | a :: as =>
    (∀ i, a = .go i → s.threads[i]? = some Pc.add → s.flag = 0) ∧
      ∀ s', step dbg s a = some s' → Alternates dbg s' as

/-- Whether a step increments the flag. -/
def signal1 (s : St) : Act → Nat
  | .go i => if s.threads[i]? = some Pc.add then 1 else 0
  | _ => 0

/-- Whether a step is the return of a successful `wait` to its caller. -/
def success1 (s : St) : Act → Nat
  | .go i => if s.threads[i]? = some (Pc.waited true) then 1 else 0
  | _ => 0

/-- How many waits have succeeded and not yet returned to their callers. -/
def pending (s : St) : Nat := s.threads.count (Pc.waited true)

/-- How often the flag was incremented in a run: the number of signals. -/
def signals (dbg : Bool) (s : St) : List Act → Nat
  | [] => 0
  | a :: as =>
    match step dbg s a with
    | none => 0
    | some s' => signal1 s a + signals dbg s' as

/-- How many waits returned success to their callers in a run. -/
def successes (dbg : Bool) (s : St) : List Act → Nat
  | [] => 0
  | a :: as =>
    match step dbg s a with
    | none => 0
    | some s' => success1 s a + successes dbg s' as

end Verif.Sem.Spec
