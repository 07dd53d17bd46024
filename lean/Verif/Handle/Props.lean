import Verif.Handle.Spec

/-!
# Owned descriptors: theorems
-/

namespace Verif.Handle

open Verif.Fd

theorem at_put (t : Table) (n : Nat) (o : Option Obj) (x : Int) :
    (t.put n o).at x = if x = n then o else t.at x := by
  unfold Table.at Table.put
  by_cases h : x = n
  · subst h; simp
  · by_cases h' : 0 ≤ x
    · have : x.toNat ≠ n := by omega
      simp [h, h', this]
    · simp [h, h']

theorem at_close (t : Table) (y x : Int) (hy : 0 ≤ y) :
    (close t y).at x = if x = y then none else t.at x := by
  unfold close
  rw [if_pos hy, at_put]
  have : (y.toNat : Int) = y := by omega
  rw [this]

theorem at_neg (t : Table) (x : Int) (h : x < 0) : t.at x = none := by
  unfold Table.at; rw [if_neg (by omega)]

theorem give_eq (r : Raw) (x y : Int) : r.give x y = true ↔ (r y = true ∧ y ≠ x) := by
  simp [Raw.give]

theorem gain_eq (r : Raw) (x y : Int) :
    r.gain (some x) y = true ↔ ((y = x ∧ 0 ≤ x) ∨ r y = true) := by
  simp [Raw.gain]

/-- One operation that obeys the rule keeps the accounts, and closes only open descriptors. -/
theorem step_accounted {lim s r op} (h : Accounted s r) (ho : Obeys s r op) :
    Accounted (step lim s op).1 (rawStep lim s r op) ∧
      ∀ x ∈ (step lim s op).2.2, (s.t.at x).isSome := by
  obtain ⟨h1, h2, h3⟩ := h
  cases op with
  | sys o =>
    simp only [step, rawStep, create]
    cases hl : lowest lim s.t with
    | none =>
      refine ⟨⟨?_, ?_, ?_⟩, by simp⟩ <;> grind [give_eq, gain_eq]
    | some n =>
      have hn := (lowest_some.1 hl).2.1
      have hat : s.t.at n = none := by simp [Table.at, hn]
      have := h1 n (by omega)
      refine ⟨⟨?_, ?_, ?_⟩, by simp⟩
      · intro x hx; rw [at_put]; grind [give_eq, gain_eq]
      · grind [give_eq, gain_eq]
      · grind [give_eq, gain_eq]
  | dflt i =>
    simp only [Obeys] at ho
    simp only [step, rawStep, St.setv]
    refine ⟨⟨?_, ?_, ?_⟩, by simp⟩ <;> grind [give_eq, gain_eq]
  | ctor i x =>
    simp only [Obeys] at ho
    simp only [step, rawStep, St.setv]
    refine ⟨⟨?_, ?_, ?_⟩, by simp⟩ <;> grind [give_eq, gain_eq]
  | moveCtor i j =>
    simp only [Obeys] at ho
    obtain ⟨h4, h5⟩ := ho
    cases hj : s.v j with
    | none => exact absurd hj h5
    | some y =>
      simp only [step, rawStep, St.setv, hj]
      refine ⟨⟨?_, ?_, ?_⟩, by simp⟩ <;> grind [give_eq, gain_eq]
  | moveAssign i j =>
    simp only [Obeys] at ho
    obtain ⟨h4, h5, h6⟩ := ho
    cases hj : s.v j with
    | none => exact absurd hj h5
    | some y =>
    cases hi : s.v i with
    | none => exact absurd hi h4
    | some x =>
      simp only [step, rawStep, St.setv, hi, hj, reset]
      by_cases hx : 0 ≤ x
      · simp only [if_pos hx]
        have := h1 x hx
        refine ⟨⟨?_, ?_, ?_⟩, ?_⟩
        · intro z hz; rw [at_close _ _ _ hx]; grind [give_eq, gain_eq]
        · grind [give_eq, gain_eq]
        · grind [give_eq, gain_eq]
        · simp only [List.mem_singleton]; rintro z rfl; rw [Option.isSome_iff_ne_none]; grind [give_eq, gain_eq]
      · simp only [if_neg hx]
        refine ⟨⟨?_, ?_, ?_⟩, by simp⟩ <;> grind [give_eq, gain_eq]
  | assign i y =>
    simp only [Obeys] at ho
    obtain ⟨h4, h5⟩ := ho
    cases hi : s.v i with
    | none => exact absurd hi h4
    | some x =>
      simp only [step, rawStep, St.setv, hi, reset]
      by_cases hx : 0 ≤ x
      · simp only [if_pos hx]
        have := h1 x hx
        refine ⟨⟨?_, ?_, ?_⟩, ?_⟩
        · intro z hz; rw [at_close _ _ _ hx]; grind [give_eq, gain_eq]
        · grind [give_eq, gain_eq]
        · grind [give_eq, gain_eq]
        · simp only [List.mem_singleton]; rintro z rfl; rw [Option.isSome_iff_ne_none]; grind [give_eq, gain_eq]
      · simp only [if_neg hx]
        refine ⟨⟨?_, ?_, ?_⟩, by simp⟩ <;> grind [give_eq, gain_eq]
  | take i =>
    simp only [Obeys] at ho
    cases hi : s.v i with
    | none => exact absurd hi ho
    | some x =>
      simp only [step, rawStep, St.setv, hi]
      refine ⟨⟨?_, ?_, ?_⟩, by simp⟩ <;> grind [give_eq, gain_eq]
  | destroy i =>
    simp only [Obeys] at ho
    cases hi : s.v i with
    | none => exact absurd hi ho
    | some x =>
      simp only [step, rawStep, St.setv, hi, reset]
      by_cases hx : 0 ≤ x
      · simp only [if_pos hx]
        have := h1 x hx
        refine ⟨⟨?_, ?_, ?_⟩, ?_⟩
        · intro z hz; rw [at_close _ _ _ hx]; grind [give_eq, gain_eq]
        · grind [give_eq, gain_eq]
        · grind [give_eq, gain_eq]
        · simp only [List.mem_singleton]; rintro z rfl; rw [Option.isSome_iff_ne_none]; grind [give_eq, gain_eq]
      · simp only [if_neg hx]
        refine ⟨⟨?_, ?_, ?_⟩, by simp⟩ <;> grind [give_eq, gain_eq]

/-! ## C39 -/

/-- **C39, accounts.**  In every history that obeys the single-owner rule, every open descriptor has
exactly one owner at every moment (apply this to the prefixes of a history), and no call of `close`
is given a number that is not open, so nothing is closed twice. -/
theorem closed_once {lim s r ops s' r' cs} (h : Accounted s r) (hist : History lim s r ops s' r' cs) :
    Accounted s' r' ∧ ∀ c ∈ cs, c.2 = true := by
  induction hist with
  | nil => exact ⟨h, by simp⟩
  | cons ho _ ih =>
    obtain ⟨h1, h2⟩ := step_accounted h ho
    obtain ⟨h3, h4⟩ := ih h1
    refine ⟨h3, fun c hc => ?_⟩
    rcases List.mem_append.1 hc with hc | hc
    · obtain ⟨x, hx, rfl⟩ := List.mem_map.1 hc
      exact h2 x hx
    · exact h4 c hc

/-- **C39, not closed while owned.**  What an operation closes belongs afterwards to no object and not
to the program. -/
theorem closed_not_owned {lim s r op} (h : Accounted s r) (ho : Obeys s r op) :
    ∀ x ∈ (step lim s op).2.2, rawStep lim s r op x = false ∧ ∀ i, (step lim s op).1.v i ≠ some x := by
  intro x hx
  have hacc := (step_accounted (lim := lim) h ho).1
  have hnn : 0 ≤ x ∧ (step lim s op).1.t.at x = none := by
    cases op with
    | sys => simp [step] at hx
    | dflt => simp [step] at hx
    | ctor => simp [step] at hx
    | moveCtor i j => simp only [step] at hx; split at hx <;> simp at hx
    | take i => simp only [step] at hx; split at hx <;> simp at hx
    | moveAssign i j =>
      simp only [step] at hx ⊢
      split at hx
      · rename_i a b _ _
        simp only [reset] at hx ⊢
        split at hx
        · rename_i ha
          simp at hx; subst hx
          simp [ha, St.setv, at_close _ _ _ ha]
        · simp at hx
      · simp at hx
    | assign i y =>
      simp only [step] at hx ⊢
      split at hx
      · rename_i a _
        simp only [reset] at hx ⊢
        split at hx
        · rename_i ha
          simp at hx; subst hx
          simp [ha, St.setv, at_close _ _ _ ha]
        · simp at hx
      · simp at hx
    | destroy i =>
      simp only [step] at hx ⊢
      split at hx
      · rename_i a _
        simp only [reset] at hx ⊢
        split at hx
        · rename_i ha
          simp at hx; subst hx
          simp [ha, St.setv, at_close _ _ _ ha]
        · simp at hx
      · simp at hx
  have := hacc.openIff x hnn.1
  grind

/-- **C39, nothing is lost.**  When no object is left, exactly the descriptors the program still holds
(those it got from the system or from `take` and did not hand over) are open. -/
theorem all_closed {lim s r ops s' r' cs} (h : Accounted s r) (hist : History lim s r ops s' r' cs)
    (hnone : ∀ i, s'.v i = none) (x : Int) (hx : 0 ≤ x) : s'.t.at x ≠ none ↔ r' x = true := by
  have := (closed_once h hist).1.openIff x hx
  simp [hnone] at this
  exact this

/-- The rule is needed: handing an object the number it already owns closes the descriptor and keeps the
number, which is then closed a second time. -/
theorem reset_same_number_twice :
    ∃ (s : St) (r : Raw), Accounted s r ∧
      (step 8 s (.assign 0 3)).2.2 = [3] ∧
      (step 8 (step 8 s (.assign 0 3)).1 (.destroy 0)).2.2 = [3] ∧
      ((step 8 s (.assign 0 3)).1.t.at 3) = none := by
  refine ⟨⟨fun i => if i = 3 then some ⟨0, true⟩ else none, fun i => if i = 0 then some 3 else none⟩,
    fun _ => false, ⟨?_, ?_, ?_⟩, by decide, by decide, by decide⟩
  · intro x hx
    simp only [Table.at, if_pos hx]
    by_cases h : x = 3
    · subst h
      simp
    · have : x.toNat ≠ 3 := by omega
      simp [this]
      omega
  · intros; rfl
  · intro i j x _ h1 h2
    simp only at h1 h2
    split at h1 <;> split at h2 <;> simp_all

/-- Moving an object to itself releases its descriptor. -/
theorem self_move_closes (lim : Nat) (s : St) (i : Nat) (x : Int) (hx : 0 ≤ x) (hv : s.v i = some x) :
    (step lim s (.moveAssign i i)).2.2 = [x] ∧ (step lim s (.moveAssign i i)).1.v i = some (-1) := by
  simp [step, hv, reset, hx, St.setv]

/-- The numbers that the program hands to objects in a list of operations. -/
def handed : List Op → List Int
  | [] => []
  | .ctor _ x :: ops => x :: handed ops
  | .assign _ x :: ops => x :: handed ops
  | _ :: ops => handed ops

/-- **C39, empty objects.**  An object holds a number that was handed to one, or -1: an object that was made without a
number, moved from or taken from holds -1 and no other number. -/
theorem empty_is_minus_one {lim s r ops s' r' cs} (hist : History lim s r ops s' r' cs) (hs : ∀ i, s.v i = none)
    (i : Nat) (x : Int) (hx : s'.v i = some x) : x = -1 ∨ x ∈ handed ops := by
  have key : ∀ {lim s r ops s' r' cs}, History lim s r ops s' r' cs → ∀ P : Int → Prop, P (-1) →
      (∀ i x, s.v i = some x → P x) → (∀ x ∈ handed ops, P x) → ∀ i x, s'.v i = some x → P x := by
    intro lim s r ops s' r' cs hist P h1
    induction hist with
    | nil => intro h _; exact h
    | @cons s r op ops s' r' cs ho _ ih =>
      intro h h2
      refine ih ?_ (fun x hx => h2 x (by cases op <;> simp [handed, hx]))
      intro i x hx
      clear ih hist
      cases op <;> simp only [step, reset, St.setv] at hx <;> (repeat' split at hx) <;>
        simp only [handed, List.mem_cons, forall_eq_or_imp] at * <;> (repeat' split at hx) <;> grind
  exact key hist (fun x => x = -1 ∨ x ∈ handed ops) (.inl rfl) (fun i x h => by rw [hs] at h; cases h)
    (fun x h => .inr h) i x hx

/-! ### A history that meets the hypotheses -/

/-- Nothing open, no object. -/
def s0 : St := ⟨fun _ => none, fun _ => none⟩

theorem s0_accounted : Accounted s0 (fun _ => false) :=
  ⟨fun x _ => by simp [s0, Table.at], fun _ _ _ h => by simp [s0] at h,
    fun _ _ _ _ h => by simp [s0] at h⟩

/-- Open, own, move to another object, take back, own again, destroy all. -/
def exOps : List Op :=
  [.sys ⟨7, true⟩, .ctor 0 0, .dflt 1, .moveAssign 1 0, .sys ⟨8, true⟩, .assign 1 1, .take 1,
   .destroy 0, .destroy 1]

example : ∃ s' r' cs, History 8 s0 (fun _ => false) exOps s' r' cs ∧ cs = [(0, true)] ∧
    (∀ i, s'.v i = none) ∧ s'.t.at 1 ≠ none ∧ r' 1 = true := by
  refine ⟨_, _, _, .cons (by decide) (.cons (by decide) (.cons (by decide) (.cons (by decide)
    (.cons (by decide) (.cons (by decide) (.cons (by decide) (.cons (by decide) (.cons (by decide)
    (.nil _ _))))))))), by decide, ?_, by decide, by decide⟩
  intro i
  simp only [step, reset, St.setv, s0, create, lowest]
  grind

/-- An object that was made without a number. -/
example : ∃ s' r' cs, History 8 s0 (fun _ => false) [.dflt 0] s' r' cs ∧ s'.v 0 = some (-1) :=
  ⟨_, _, _, .cons (by decide) (.nil _ _), by decide⟩

end Verif.Handle
