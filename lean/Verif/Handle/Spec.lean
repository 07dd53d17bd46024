import Verif.Handle.Model

/-!
# Owned descriptors: the single-owner rule and what it is meant to guarantee
-/

namespace Verif.Handle

open Verif.Fd

/-- The plain numbers the program holds and is responsible for: it gets them from the system and from
`take`, and gives them up when it hands them to an object. -/
abbrev Raw := Int → Bool

def Raw.gain (r : Raw) : Option Int → Raw
  | some x => fun y => (y == x && decide (0 ≤ x)) || r y
  | none => r

def Raw.give (r : Raw) (x : Int) : Raw := fun y => r y && y != x

/-- The single-owner rule: objects are constructed once and used while they live, an object is not moved
to itself, and a number handed to an object is one the program holds (or is negative). -/
def Obeys (s : St) (r : Raw) : Op → Prop
  | .sys _ => True
  | .dflt i => s.v i = none
  | .ctor i x => s.v i = none ∧ (x < 0 ∨ r x = true)
  | .moveCtor i j => s.v i = none ∧ s.v j ≠ none
  | .moveAssign i j => s.v i ≠ none ∧ s.v j ≠ none ∧ i ≠ j
  | .assign i x => s.v i ≠ none ∧ (x < 0 ∨ r x = true)
  | .take i => s.v i ≠ none
  | .destroy i => s.v i ≠ none

instance (s : St) (r : Raw) (op : Op) : Decidable (Obeys s r op) := by
  cases op <;> simp only [Obeys] <;> infer_instance

/-- The program's numbers after an operation. -/
def rawStep (lim : Nat) (s : St) (r : Raw) (op : Op) : Raw :=
  match op with
  | .sys _ => r.gain (step lim s op).2.1
  | .take _ => r.gain (step lim s op).2.1
  | .ctor _ x => r.give x
  | .assign _ x => r.give x
  | _ => r

/-- Every open descriptor has exactly one owner, an object or the program, and owners only have open
descriptors. -/
structure Accounted (s : St) (r : Raw) : Prop where
  openIff : ∀ x : Int, 0 ≤ x → (s.t.at x ≠ none ↔ (r x = true ∨ ∃ i, s.v i = some x))
  excl : ∀ i (x : Int), 0 ≤ x → s.v i = some x → r x = false
  uniq : ∀ i j (x : Int), 0 ≤ x → s.v i = some x → s.v j = some x → i = j

/-- A history: each operation obeys the rule when it is done.  `cs` are the calls of `close`, each with
whether its argument was open. -/
inductive History (lim : Nat) : St → Raw → List Op → St → Raw → List (Int × Bool) → Prop where
  | nil (s r) : History lim s r [] s r []
  | cons {s r op ops s' r' cs} : Obeys s r op →
      History lim (step lim s op).1 (rawStep lim s r op) ops s' r' cs →
      History lim s r (op :: ops) s' r'
        ((step lim s op).2.2.map (fun x => (x, (s.t.at x).isSome)) ++ cs)

end Verif.Handle
