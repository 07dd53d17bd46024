import Verif.Call.Model

/-!
# Calling a sandboxed function (specification)
-/

namespace Verif.Call.Spec

/-- The sandbox's part of the address space: the addresses from `lo` on below `hi`. -/
structure Heap where
  lo : Nat
  hi : Nat
  ok : hi < 2 ^ 64

/-- An address of the sandbox. -/
def Heap.Has (h : Heap) (a : Word) : Prop := h.lo ≤ a.toNat ∧ a.toNat < h.hi

/-- An address of the `n` bytes at `p`. -/
def Within (p : Word) (n : Nat) (a : Word) : Prop := p.toNat ≤ a.toNat ∧ a.toNat < p.toNat + n

/-- What is wanted of snmalloc: blocks of the asked size inside the sandbox, and never at address 0. -/
def Gives (h : Heap) (alloc : Word → Option Word) : Prop :=
  ∀ sz p, alloc sz = some p → p ≠ 0 ∧ h.lo ≤ p.toNat ∧ p.toNat + sz.toNat ≤ h.hi

/-- The compiler's layout of a frame: the result, then the arguments, inside the structure. -/
def LaidOut (fr : Frame) : Prop := fr.retLen ≤ fr.argOff ∧ fr.argOff + fr.argLen ≤ fr.size.toNat

/-- A change of memory that stays inside the sandbox. -/
def Inside (h : Heap) (f : Mem → Mem) : Prop := ∀ m a, ¬ h.Has a → f m a = m a

/-- The loads of `bs` at `a` and the following addresses, in that order. -/
def loads (a : Word) (bs : List Byte) : List Ev :=
  bs.zipIdx.map fun (b, i) => .read (a + BitVec.ofNat 64 i) b

/-- The pointers that were freed. -/
def frees (t : List Ev) : List Word := t.filterMap fun | .free p => some p | _ => none

/-- The addresses that were loaded from or stored to. -/
def touched (t : List Ev) : List Word := t.filterMap fun | .write a _ => some a | .read a _ => some a | _ => none

/-- The messages sent to the sandbox. -/
def sent (t : List Ev) : List (Nat × Word) := t.filterMap fun | .send i p => some (i, p) | _ => none

end Verif.Call.Spec
