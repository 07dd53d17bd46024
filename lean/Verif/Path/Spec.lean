import Verif.Basic

/-!
# Paths (specification)

Independent notions: joining names with separators, resolving a list of names with a
stack, and walking a directory tree.
-/

namespace Verif.Path.Spec

/-- Drop one trailing separator, if there is one. -/
def dropTrailingSlash (s : List Byte) : List Byte :=
  if s.getLast? = some 47 then s.dropLast else s

/-- Resolve a list of names from left to right with a stack (most recent name first):
empty names are ignored, `..` removes the most recent name and fails if there is none, any
other name is pushed. -/
def resolve : List (List Byte) → List (List Byte) → Option (List (List Byte))
  | stack, [] => some stack.reverse
  | stack, c :: cs =>
    if c = [] then resolve stack cs
    else if c = [46, 46] then
      match stack with
      | [] => none
      | _ :: st => resolve st cs
    else resolve (c :: stack) cs

/-- The number of `..` names in a list. -/
def ups (cs : List (List Byte)) : Nat := cs.countP (fun c => c == [46, 46])

/-- The number of ordinary (non-empty, not `..`) names in a list. -/
def downs (cs : List (List Byte)) : Nat := cs.countP (fun c => !(c == [46, 46]) && !(c == []))

/-- A path never climbs above its start: in no prefix do the `..` outnumber the names. -/
def NeverClimbs (cs : List (List Byte)) : Prop := ∀ p, p <+: cs → ups p ≤ downs p

/-- A symlink-free directory tree: nodes with named children, where going up from a child
reached by an ordinary name leads back. -/
structure Tree where
  Node : Type
  child : Node → List Byte → Option Node
  parent : Node → Node
  up_down : ∀ n c m, child n c = some m → parent m = n

/-- One POSIX resolution step: an empty name and `.` stay, `..` goes to the parent. -/
def Tree.step (t : Tree) (n : t.Node) (c : List Byte) : Option t.Node :=
  if c = [] ∨ c = [46] then some n
  else if c = [46, 46] then some (t.parent n)
  else t.child n c

/-- POSIX resolution of a list of names from a node. -/
def Tree.walk (t : Tree) : t.Node → List (List Byte) → Option t.Node
  | n, [] => some n
  | n, c :: cs => (t.step n c).bind (fun m => t.walk m cs)

end Verif.Path.Spec
