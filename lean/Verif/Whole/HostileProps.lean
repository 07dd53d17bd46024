import Verif.Whole.Hostile
import Verif.Call.Props

/-!
# How far a hostile library reaches into the program that uses it
-/

namespace Verif.Whole.Hostile

open Verif.Call (Frame World Sandbox Result callOp)
open Verif.Call.Spec (Heap Gives LaidOut Inside)

/-! ### Specification -/

/-- The program on its own: each call is answered with the next of the given results, and nothing else happens.  The calls
that it makes, and the memory then. -/
def solo (Q : Client) : List Result → List Result → Mem → List (Nat × List Byte) × Mem
  | [], _, m => ([], m)
  | r :: todo, rs, m =>
    match (Q rs m).2 with
    | none => ([], m)
    | some c => (c :: (solo Q todo (rs ++ [r]) (Q rs m).1).1, (solo Q todo (rs ++ [r]) (Q rs m).1).2)

/-- The same memory outside the heap. -/
def SameOwn (h : Heap) (m m' : Mem) : Prop := ∀ x, ¬ h.Has x → m x = m' x

/-- The program does not look into the heap, except to pass things on: its own memory and its calls do not depend on what
is there. -/
def Reclusive (h : Heap) (Q : Client) : Prop :=
  ∀ rs m m', SameOwn h m m' → SameOwn h (Q rs m).1 (Q rs m').1 ∧ (Q rs m).2 = (Q rs m').2

/-- What an attack can be: the allocator gives blocks of the heap, and the sandbox and its threads change nothing but the
heap. -/
structure Possible (h : Heap) (a : Attack) : Prop where
  gives : Gives h a.alloc
  sandbox : ∀ i p, Inside h fun m => (a.sandbox i p m).2
  env : ∀ t, Inside h (a.env t)

/-- The program makes calls with arguments of the right size. -/
def Typed (frames : Nat → Frame) (Q : Client) : Prop :=
  (∀ i, LaidOut (frames i)) ∧ ∀ rs m idx args, (Q rs m).2 = some (idx, args) → args.length = (frames idx).argLen

/-- A result that a call of this function can have: as many bytes as its result has. -/
def Fits (fr : Frame) : Result → Prop
  | .returned bs => bs.length = if fr.isVoid then 0 else fr.retLen
  | _ => True

/-! ## C95 -/

theorem call_fits (alloc : Word → Option Word) (sb : Sandbox) (idx : Nat) (fr : Frame) (args : List Byte) (w : World) :
    Fits fr (callOp alloc sb idx fr args w).1 := by
  simp only [callOp]
  split
  · trivial
  · rename_i cf _
    split
    · trivial
    · rename_i w3 _
      simp only [Call.finish]
      split
      · rename_i hv
        simp [Fits, hv]
      · rename_i hv
        simp only [Fits, hv, Bool.false_eq_true, if_false]
        exact (Call.reads_spec w3 cf fr.retLen).1

/-- **C95.**  A program of the host uses a library that is hostile: it answers anything, ends whenever it likes, and its
threads write to the heap at any time.  If the program does not look into the heap, then whatever the library does can be
told from the results of the calls alone: the program makes exactly the calls, with exactly the arguments, and has exactly
the memory outside the heap that it would have on its own if its calls came to these results.  And every result that is
not an exception has the size that the program expects. -/
theorem influence_through_results {h : Heap} {frames : Nat → Frame} {Q : Client} (hQ : Reclusive h Q)
    (ht : Typed frames Q) {as : List Attack} (ha : ∀ a ∈ as, Possible h a) (rs : List Result) (w : World) (m : Mem)
    (hm : SameOwn h w.mem m) :
    ∃ more, (play frames Q as rs w).2.1 = rs ++ more ∧
      (play frames Q as rs w).1 = (solo Q more rs m).1 ∧
      SameOwn h (play frames Q as rs w).2.2.mem (solo Q more rs m).2 ∧
      more.length = (play frames Q as rs w).1.length ∧
      ∀ p ∈ (play frames Q as rs w).1.zip more, Fits (frames p.1.1) p.2 := by
  induction as generalizing rs w m with
  | nil => exact ⟨[], by simp [play], rfl, hm, rfl, by simp [play]⟩
  | cons a as ih =>
    obtain ⟨q1, q2⟩ := hQ rs _ _ hm
    simp only [play]
    cases hc : (Q rs w.mem).2 with
    | none => exact ⟨[], by simp, rfl, hm, rfl, by simp⟩
    | some c =>
      obtain ⟨idx, args⟩ := c
      have hp := ha a List.mem_cons_self
      have hlen := ht.2 _ _ _ _ hc
      have hk := Call.call_keeps_host_memory h a.alloc hp.gives a.sandbox idx (hp.sandbox idx) (frames idx) (ht.1 idx)
        args hlen { w with mem := (Q rs w.mem).1, env := a.env } hp.env
      have hf := call_fits a.alloc a.sandbox idx (frames idx) args { w with mem := (Q rs w.mem).1, env := a.env }
      simp only
      generalize callOp a.alloc a.sandbox idx (frames idx) args { w with mem := (Q rs w.mem).1, env := a.env } = r at hk hf
      obtain ⟨more, i1, i2, i3, i4, i5⟩ := ih (fun b hb => ha b (List.mem_cons_of_mem _ hb)) (rs ++ [r.1]) r.2 (Q rs m).1
        (fun x hx => (hk x hx).trans (q1 x hx))
      rw [hc] at q2
      refine ⟨r.1 :: more, by rw [i1]; simp, ?_, ?_, by simp [i4], ?_⟩
      · simp only [solo, ← q2, i2]
      · simp only [solo, ← q2]
        exact i3
      · intro p hp
        simp only [List.zip_cons_cons, List.mem_cons] at hp
        rcases hp with rfl | hp
        · exact hf
        · exact i5 p hp

/-- **C95, two libraries.**  Two libraries, of which at least one is perhaps hostile, that give the program the same
results cannot be told apart by it: same calls, same memory of its own. -/
theorem same_results_same_program {h : Heap} {frames : Nat → Frame} {Q : Client} (hQ : Reclusive h Q)
    (ht : Typed frames Q) {as as' : List Attack} (ha : ∀ a ∈ as, Possible h a) (ha' : ∀ a ∈ as', Possible h a)
    (rs : List Result) (w w' : World) (hm : SameOwn h w.mem w'.mem)
    (hr : (play frames Q as rs w).2.1 = (play frames Q as' rs w').2.1) :
    (play frames Q as rs w).1 = (play frames Q as' rs w').1 ∧
      SameOwn h (play frames Q as rs w).2.2.mem (play frames Q as' rs w').2.2.mem := by
  obtain ⟨more, i1, i2, i3, _⟩ := influence_through_results hQ ht ha rs w w.mem (fun _ _ => rfl)
  obtain ⟨more', j1, j2, j3, _⟩ := influence_through_results hQ ht ha' rs w' w.mem (fun x hx => (hm x hx).symm)
  have : more = more' := by
    rw [i1, j1] at hr
    exact List.append_cancel_left hr
  subst this
  exact ⟨i2.trans j2.symm, fun x hx => (i3 x hx).trans (j3 x hx).symm⟩

/-- **C95, a program that looks.**  Whether or not it looks into the heap, its memory outside is what it makes of it
itself: after each call it is as the program left it before the call. -/
theorem own_memory_is_own {h : Heap} {frames : Nat → Frame} {Q : Client} (ht : Typed frames Q) {a : Attack}
    (ha : Possible h a) (rs : List Result) (w : World) (hc : (Q rs w.mem).2 ≠ none) :
    SameOwn h (play frames Q [a] rs w).2.2.mem (Q rs w.mem).1 := by
  simp only [play]
  cases hq : (Q rs w.mem).2 with
  | none => exact absurd hq hc
  | some c =>
    obtain ⟨idx, args⟩ := c
    exact Call.call_keeps_host_memory h a.alloc ha.gives a.sandbox idx (ha.sandbox idx) (frames idx) (ht.1 idx)
      args (ht.2 _ _ _ _ hq) { w with mem := (Q rs w.mem).1, env := a.env } ha.env

/-! ### A case that meets the conditions -/

/-- A program that counts in its own memory the results that begin with 7, until there are three results, and passes each
result on to the next call. -/
def exClient : Client := fun rs m =>
  (fun x => if x = 0x300 then .ofNat (rs.filter fun r => match r with | .returned (7 :: _) => true | _ => false).length
    else m x,
  if rs.length < 3 then some (0, match rs.getLast? with
    | some (.returned [a, b, c, d]) => [a, b, c, d]
    | _ => [1, 2, 3, 4]) else none)

/-- A sandbox that answers 7 and overwrites the heap before every load of the host; the third time, it ends. -/
def exAttack (i : Nat) : Attack where
  alloc := Call.exAlloc
  sandbox := fun _ p m => (if i = 2 then .threw else .back, fun x => if x = p then 7 else m x)
  env := fun t m x => if x = 0x10803 then .ofNat t else m x

/-- The writes of the example stay in the heap if the frame is there; elsewhere the sandbox has no memory. -/
def exAttack' (i : Nat) : Attack :=
  { exAttack i with sandbox := fun j p m =>
      if 0x10000 ≤ p.toNat ∧ p.toNat < 0x20000 then (exAttack i).sandbox j p m else (.threw, m) }

theorem exPossible (i : Nat) : Possible Call.exHeap (exAttack' i) where
  gives := Call.exAlloc_gives
  sandbox := by
    intro j p m x hx
    simp only [exAttack']
    split
    · rename_i hp
      show (if x = p then 7 else m x) = m x
      rw [if_neg]
      rintro rfl
      exact hx hp
    · rfl
  env := by
    intro t m x hx
    show (if x = 0x10803 then _ else m x) = m x
    rw [if_neg]
    rintro rfl
    exact hx ⟨by decide, by decide⟩

theorem exReclusive : Reclusive Call.exHeap exClient := by
  intro rs m m' h
  refine ⟨fun x hx => ?_, rfl⟩
  simp only [exClient]
  split
  · rfl
  · exact h x hx

theorem exTyped : Typed (fun _ => Call.exFrame) exClient := by
  have hl : LaidOut Call.exFrame := ⟨by decide, by decide⟩
  refine ⟨fun _ => hl, fun rs m idx args h => ?_⟩
  simp only [exClient] at h
  split at h
  · simp only [Option.some.injEq, Prod.mk.injEq] at h
    rw [← h.2]
    split <;> rfl
  · cases h

/-- The attack does something: the results are 7 and what the threads have written meanwhile, and the program counts them. -/
example : (play (fun _ => Call.exFrame) exClient [exAttack' 0, exAttack' 1, exAttack' 2] [] ⟨fun _ => 0, [], fun _ m => m⟩).2.1 =
      [.returned [7, 0, 0, 16], .returned [7, 0, 0, 34], .sendThrew] ∧
    (play (fun _ => Call.exFrame) exClient [exAttack' 0, exAttack' 1, exAttack' 2] []
      ⟨fun _ => 0, [], fun _ m => m⟩).2.2.mem 0x300 = 2 := by
  decide +kernel

end Verif.Whole.Hostile
