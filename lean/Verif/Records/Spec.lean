import Verif.Records.Model

/-!
# Slab records of several threads of the sandbox (specification)
-/

namespace Verif.Records

/-- A correct allocator for one thread: `I s L` says that in state `s` exactly the blocks of `L` are out.  It never gives a
block that is out, and takes back what it gave. -/
structure Sound {σ : Type} (R : Rng σ) (I : σ → (Word → Prop) → Prop) : Prop where
  some : ∀ {s L a s'}, I s L → R.alloc s = (some a, s') → ¬ L a ∧ I s' (fun x => L x ∨ x = a)
  none : ∀ {s L s'}, I s L → R.alloc s = (none, s') → I s' L
  free : ∀ {s L a}, I s L → L a → I (R.free s a) (fun x => L x ∧ x ≠ a)

/-- What an action does with `metadata_range`. -/
inductive RangeOp where
  | enter (t : Nat)
  | leave (t : Nat)

/-- The operation on `metadata_range`, if the action is part of one. -/
def Act.rangeOp : Act → Option RangeOp
  | .allocEnter t | .backEnter t | .freeEnter t _ => some (.enter t)
  | .allocLeave t | .backLeave t | .freeLeave t => some (.leave t)
  | .allocReq _ | .freeReq _ => none

/-- The operations on `metadata_range` do not overlap; `cur` is the thread that is inside at the beginning. -/
def Serial (cur : Option Nat) : List Act → Prop
  | [] => True
  | a :: as =>
    match a.rangeOp with
    | none => Serial cur as
    | some (.enter t) => cur = none ∧ Serial (some t) as
    | some (.leave t) => cur = some t ∧ Serial none as

/-- The thread of an action. -/
def Act.thread : Act → Nat
  | .allocEnter t | .allocLeave t | .allocReq t | .backEnter t | .backLeave t | .freeEnter t _ | .freeLeave t
  | .freeReq t => t

/-- The record a thread works with: one it was given and has not yet put into a chunk, or one it is about to give back. -/
def Pc.record {σ} : Pc σ → Option Word
  | .allocReq ms | .back ms | .backIn ms _ | .freeIn _ ms _ => some ms
  | _ => none

/-- A simple allocator: a list of free blocks, the last freed first. -/
def stack : Rng (List Word) where
  alloc
    | [] => (none, [])
    | a :: as => (some a, as)
  free s a := a :: s

/-- The blocks of the list are different from one another and not out. -/
def stackInv (s : List Word) (L : Word → Prop) : Prop := s.Nodup ∧ ∀ x ∈ s, ¬ L x

theorem stack_sound : Sound stack stackInv where
  some := by
    intro s L a s' h e
    cases s with
    | nil => simp [stack] at e
    | cons b s =>
      simp only [stack, Prod.mk.injEq, Option.some.injEq] at e
      obtain ⟨rfl, rfl⟩ := e
      obtain ⟨h1, h2⟩ := h
      simp only [List.nodup_cons, List.mem_cons] at h1 h2
      refine ⟨h2 _ (.inl rfl), h1.2, fun x hx hL => ?_⟩
      rcases hL with hL | rfl
      · exact h2 _ (.inr hx) hL
      · exact h1.1 hx
  none := by
    intro s L s' h e
    cases s with
    | nil => simp only [stack, Prod.mk.injEq, true_and] at e; subst e; exact h
    | cons b s => simp [stack] at e
  free := by
    intro s L a h ha
    refine ⟨?_, fun x hx hL => ?_⟩
    · simp only [stack, List.nodup_cons]
      exact ⟨fun hm => h.2 _ hm ha, h.1⟩
    · simp only [stack, List.mem_cons] at hx
      rcases hx with rfl | hx
      · exact hL.2 rfl
      · exact h.2 _ hx hL.1

end Verif.Records
