import Verif.Basic

/-!
# C strings (specification)
-/

namespace Verif.Strings.Spec

/-- Memory `m` holds the C string `s` at address `a` (a number): the bytes of `s`, none of
them zero, followed by a zero byte. -/
def CStringAt (m : Nat → Byte) (a : Nat) (s : List Byte) : Prop :=
  (∀ i (h : i < s.length), m (a + i) = s[i] ∧ s[i] ≠ 0) ∧ m (a + s.length) = 0

/-- A terminated buffer: it contains a zero byte. -/
def Terminated (b : List Byte) : Prop := (0 : Byte) ∈ b

end Verif.Strings.Spec
