import Verif.Pool.Model
import Verif.Records.Spec

/-!
# The allocators of several threads of the sandbox (specification)
-/

namespace Verif.Pool

/-- A correct range for one thread: `I s C L` says that in state `s` it has been given the chunks of `C` and exactly the
blocks of `L` are out.  It never gives a block that is out, and all its blocks lie in its chunks.  It needs chunks that
are `good` (aligned) and new. -/
structure Sound {σ : Type} (R : Rng σ) (good : Word → Prop) (inChunk : Word → Word → Prop)
    (I : σ → (Word → Prop) → (Word → Prop) → Prop) : Prop where
  take : ∀ {s C L a s'}, I s C L → R.take s = some (a, s') → ¬ L a ∧ I s' C (fun x => L x ∨ x = a)
  fill : ∀ {s C L c}, I s C L → R.take s = none → good c → ¬ C c →
    ¬ L (R.fill s c).1 ∧ I (R.fill s c).2 (fun x => C x ∨ x = c) (fun x => L x ∨ x = (R.fill s c).1)
  within : ∀ {s C L a}, I s C L → L a → ∃ c, C c ∧ inChunk c a

/-- The host gives good chunks only, each to one user at a time. -/
structure GoodHost {τ : Type} (H : Records.Rng τ) (good : Word → Prop) (J : τ → (Word → Prop) → Prop) : Prop where
  sound : Records.Sound H J
  good : ∀ {h G c h'}, J h G → H.alloc h = (some c, h') → good c

/-- The thread is in `allocator_range`. -/
def Pc.busy {σ} : Pc σ → Prop
  | .inside _ | .asked _ _ => True
  | _ => False

/-- No thread enters `allocator_range` while another is in it. -/
def SerialRun {σ τ} (R : Rng σ) (H : Records.Rng τ) (s : St σ τ) : List Act → Prop
  | [] => True
  | a :: as => ∀ s', step R H s a = some s' →
    (∀ t, a = .acquire t → s.pool = [] → ∀ u, ¬ (s.pc u).busy) ∧ SerialRun R H s' as

/-- The thread that wants an allocator. -/
def Act.wants : Act → Option Nat
  | .acquire t => some t
  | _ => none

/-- A simple range: the blocks that are left.  A chunk `c` holds the blocks `c` and `c + 1`. -/
def pairs : Rng (List Word) where
  take
    | [] => none
    | a :: as => some (a, as)
  fill s c := (c, (c + 1) :: s)

/-- A chunk of `pairs` is even. -/
def even (c : Word) : Prop := c &&& 1 = 0

/-- The block `a` lies in the chunk `c`. -/
def half (c a : Word) : Prop := a &&& ~~~1 = c

/-- The blocks of `pairs` lie in its chunks, what is left is not out. -/
def pairsInv (s : List Word) (C L : Word → Prop) : Prop :=
  s.Nodup ∧ (∀ x ∈ s, ¬ L x) ∧ ∀ x, x ∈ s ∨ L x → C (x &&& ~~~1)

theorem pairs_sound : Sound pairs even half pairsInv where
  take := by
    intro s C L a s' h e
    cases s with
    | nil => simp [pairs] at e
    | cons b s =>
      simp only [pairs, Option.some.injEq, Prod.mk.injEq] at e
      obtain ⟨rfl, rfl⟩ := e
      obtain ⟨h1, h2, h3⟩ := h
      refine ⟨h2 _ (by simp), ?_, ?_, ?_⟩ <;> grind
  fill := by
    intro s C L c h e hg hc
    cases s with
    | cons b s => simp [pairs] at e
    | nil =>
      obtain ⟨h1, h2, h3⟩ := h
      have e0 : c &&& ~~~1 = c := by
        have : c = (c &&& 1) ||| (c &&& ~~~1) := by
          have e : (1 ||| ~~~1 : Word) = BitVec.allOnes 64 := by decide
          rw [← BitVec.and_or_distrib_left, e, BitVec.and_allOnes]
        unfold even at hg
        rw [hg] at this
        simpa using this.symm
      have e1 : (c + 1) &&& ~~~1 = c := by
        have h1 : c + 1 = c ||| 1 := by
          unfold even at hg
          rw [BitVec.add_eq_or_of_and_eq_zero _ _ hg]
        rw [h1, BitVec.and_comm, BitVec.and_or_distrib_left, BitVec.and_comm, e0]
        simp
      simp only [pairs]
      have n0 : ¬ L c := fun hL => hc (e0 ▸ h3 c (.inr hL))
      have n1 : ¬ L (c + 1) := fun hL => hc (e1 ▸ h3 _ (.inr hL))
      have ne : c + 1 ≠ c := by bv_omega
      refine ⟨n0, ?_, ?_, ?_⟩ <;> grind
  within := by
    intro s C L a h ha
    exact ⟨_, h.2.2 a (.inr ha), rfl⟩

/-- A host whose chunks are even. -/
def evenInv (s : List Word) (L : Word → Prop) : Prop := Records.stackInv s L ∧ (∀ x ∈ s, even x) ∧ ∀ x, L x → even x

theorem even_host : GoodHost Records.stack even evenInv where
  sound := {
    some := by
      intro s L a s' h e
      obtain ⟨n1, n2⟩ := Records.stack_sound.some h.1 e
      cases s with
      | nil => simp [Records.stack] at e
      | cons b s =>
        simp only [Records.stack, Option.some.injEq, Prod.mk.injEq] at e
        obtain ⟨rfl, rfl⟩ := e
        refine ⟨n1, n2, ?_, ?_⟩ <;> grind [evenInv]
    none := by
      intro s L s' h e
      have n2 := Records.stack_sound.none h.1 e
      cases s with
      | nil => simp only [Records.stack, Prod.mk.injEq, true_and] at e; subst e; exact h
      | cons b s => simp [Records.stack] at e
    free := by
      intro s L a h ha
      refine ⟨Records.stack_sound.free h.1 ha, ?_, fun x hx => h.2.2 x hx.1⟩
      intro x hx
      simp only [Records.stack, List.mem_cons] at hx
      rcases hx with rfl | hx
      · exact h.2.2 _ ha
      · exact h.2.1 _ hx }
  good := by
    intro s L a s' h e
    cases s with
    | nil => simp [Records.stack] at e
    | cons b s =>
      simp only [Records.stack, Option.some.injEq, Prod.mk.injEq] at e
      exact e.1 ▸ h.2.1 b (by simp)

end Verif.Pool
