import Verif.Net.Model

/-!
# Network policy (specification)
-/

namespace Verif.Net.Spec

/-- The operation a configuration call is about. -/
def target : Config → Op
  | .deny op => op
  | .allow op => op
  | .register op _ => op

/-- `c` is the last call about `op` in the history. -/
def IsLast (hist : List Config) (op : Op) (c : Config) : Prop :=
  ∃ before after, hist = before ++ c :: after ∧ target c = op ∧ ∀ x ∈ after, target x ≠ op

/-- No call in the history is about `op`. -/
def Untouched (hist : List Config) (op : Op) : Prop := ∀ x ∈ hist, target x ≠ op

end Verif.Net.Spec
