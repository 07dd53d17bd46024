import Verif.Whole.Model
import Verif.Run.Spec

/-!
# What a program that uses a sandboxed library should do (specification)

A machine without frames and messages: a call of a function of the library runs the function at once, on the memory as the
program left it, and the function's own calls are those of the ideal machine of `Verif.Run`.
-/

namespace Verif.Whole

open Verif.Run (Worlds Event Ideal Host Same Blind Steps Blocks)
open Verif.Call (Frame)
open Verif.Call.Spec (Heap Within)

/-- The memory of the program, the memory of the library (of which only the part outside the heap is its own), what has
happened, and the results so far. -/
structure Linked where
  mem : Mem
  own : Mem
  past : List Event
  results : List (List Byte)

/-- The memory `m` with another's bytes in the heap. -/
def IsMerge (h : Heap) (shared own m : Mem) : Prop :=
  ∀ x, (h.Has x → m x = shared x) ∧ (¬ h.Has x → m x = own x)

/-- From one call of the library to the next: the program computes, then the function runs to its end with the arguments
that it was given, on the heap as it is, and the program goes on with its result. -/
inductive Called (L : Lib) (W : Worlds) (H : Host) (S : Word → Prop) (n : Nat) (Q : Client) (k : Nat) :
    Linked → Linked → Prop where
  | mk (s : Linked) (m start t idx args f m' mem) : Q s.results s.mem = (m, some (idx, args)) → L.fns[idx]? = some f →
      args.length = f.frame.argLen → IsMerge L.heap m s.own start →
      Steps W H S n (f.body args) k ⟨start, f.entry, s.past⟩ t → f.body args t.mem t.regs = (m', .stop) →
      IsMerge L.heap m' m mem →
      Called L W H S n Q k s
        ⟨mem, m', t.past, s.results ++ [if f.frame.isVoid then [] else f.result t.mem t.regs]⟩

/-- So many calls of the library, with so many calls of its own in each. -/
inductive Calls (L : Lib) (W : Worlds) (H : Host) (S : Word → Prop) (n : Nat) (Q : Client) :
    List Nat → Linked → Linked → Prop where
  | none (s) : Calls L W H S n Q [] s s
  | more (k ks s s' s'') : Called L W H S n Q k s s' → Calls L W H S n Q ks s' s'' → Calls L W H S n Q (k :: ks) s s''

/-- What of the sandbox's memory neither of the two programs has been given, seen from the host: only the heap is shared. -/
def Unused (h : Heap) (S : Word → Prop) : Word → Prop := fun x => h.Has x ∧ S x

/-- The host's program does not look at memory of the heap that it has not been given. -/
def Discreet (h : Heap) (S : Word → Prop) (Q : Client) : Prop :=
  ∀ rs m m', Same (Unused h S) m m' → Same (Unused h S) (Q rs m).1 (Q rs m').1 ∧ (Q rs m).2 = (Q rs m').2

/-- A function that looks at nothing but its memory, and whose result has the size that the compiler gave it. -/
structure Sound (S : Word → Prop) (f : Fn) : Prop where
  laid : Call.Spec.LaidOut f.frame
  blind : ∀ args, Blind S (f.body args)
  length : ∀ m r, (f.result m r).length = f.frame.retLen
  result : ∀ m m' r, Same S m m' → f.result m r = f.result m' r

/-- What the allocators give during a call of the library: a frame for each function in unused memory of the heap, and
blocks for each call that the function makes. -/
structure Room (L : Lib) (W : Worlds) (S : Word → Prop) (n : Nat) (live : List Word)
    (p : (Word → Option Word) × List (List Word)) (k : Nat) : Prop where
  gives : Call.Spec.Gives L.heap p.1
  frame : ∀ f ∈ L.fns, ∃ cf, p.1 f.frame.size = some cf ∧ ∀ x, Within cf f.frame.size.toNat x → S x
  enough : k ≤ p.2.length
  blocks : ∀ b ∈ p.2, Blocks W S n live b

/-- The two machines are at the same point. -/
structure Matches (L : Lib) (S : Word → Prop) (live : List Word) (rs : List (List Byte)) (s : Sys) (t : Linked) : Prop where
  mem : Same (Unused L.heap S) s.world.mem t.mem
  quiet : s.world.env = fun _ m => m
  own : Same S s.child.own t.own
  live : s.child.live = live
  past : s.child.past.map Event.plain = t.past
  results : rs = t.results

end Verif.Whole
