import Verif.Throw.Lemmas

/-!
# Handlers that throw (property C100)
-/

namespace Verif.Throw
open Verif.Token (St Sh PPc CPc From init)
open Verif.Token.Spec (Item Parked Coop Polling HostWaits SandboxWaits NoAbort)
open Spec

theorem pend_wake (s : St) (c : CPc) (hc : pend c = []) : pend (Token.wakeParent s c).cp = [] := by
  unfold Token.wakeParent; split
  · exact hc
  · rfl

theorem wakeParent_cs (s : St) (c : CPc) : (Token.wakeParent s c).cs = s.cs ∧ (Token.wakeParent s c).next = s.next := by
  unfold Token.wakeParent; split <;> exact ⟨rfl, rfl⟩

/-- The numbers of the callbacks that are not finished. -/
def pending (s : St) : List Nat := pend s.cp ++ s.cs.map (·.1)

theorem parentStep_pending {dbg : Bool} {s s' : St} {es : List Token.Ev} (h : Token.parentStep dbg s = some (s', es)) :
    s'.cp = s.cp ∧ s'.cs = s.cs ∧ s'.next = s.next ∧ (∀ id, .ask id ∉ es) ∧ ∀ a b v, .got a b v ∉ es := by
  unfold Token.parentStep at h
  split at h <;> (try split at h) <;> (try split at h) <;>
    simp only [Option.some.injEq, Prod.mk.injEq, reduceCtorEq] at h <;>
    first
    | (obtain ⟨rfl, rfl⟩ := h; simp [Token.wakeChild]; try split <;> simp)
    | (simp only [Token.startHandler] at h; split at h <;>
       (simp only [Prod.mk.injEq] at h; obtain ⟨rfl, rfl⟩ := h; simp))

theorem childStep_pending {dbg : Bool} {s s' : St} {es : List Token.Ev} (h : Token.childStep dbg s = some (s', es)) :
    s'.next = s.next ∧ (∀ id, .ask id ∉ es) ∧
      ((pending s' = pending s ∧ ∀ a b v, .got a b v ∉ es) ∨
       ∃ id b v, pending s = id :: pending s' ∧ es = [.got id b v]) := by
  unfold Token.childStep at h
  split at h <;> rename_i hcp <;> (try split at h) <;> (try split at h) <;>
    simp only [Option.some.injEq, Prod.mk.injEq, reduceCtorEq] at h <;>
    (obtain ⟨rfl, rfl⟩ := h) <;>
    simp_all [pending, pend, Token.wakeParent] <;> (try split <;> simp)

/-- What a step does to the callbacks that are not finished. -/
theorem step_pending {dbg : Bool} {s s' : St} {a : Token.Act} {es : List Token.Ev} (h : Token.step dbg s a = some (s', es)) :
    (s'.next = s.next ∧ pending s' = pending s ∧ (∀ id, .ask id ∉ es) ∧ ∀ a b v, .got a b v ∉ es) ∨
    (s'.next = s.next + 1 ∧ pending s' = s.next :: pending s ∧ es = [.ask s.next]) ∨
    (∃ id b v, s'.next = s.next ∧ pending s = id :: pending s' ∧ es = [.got id b v]) := by
  cases a <;> simp only [Token.step] at h
  case parent =>
    obtain ⟨h1, h2, h3, h4, h5⟩ := parentStep_pending h
    exact Or.inl ⟨h3, by simp [pending, h1, h2], h4, h5⟩
  case child =>
    split at h
    · cases h
    · obtain ⟨h1, h2, h3 | ⟨id, b, v, h3, h4⟩⟩ := childStep_pending h
      · exact Or.inl ⟨h1, h3.1, h2, h3.2⟩
      · exact Or.inr (Or.inr ⟨id, b, v, h1, h3, h4⟩)
  all_goals
    (try split at h) <;> (try split at h) <;>
    simp only [Option.some.injEq, Prod.mk.injEq, reduceCtorEq] at h <;>
    (obtain ⟨rfl, rfl⟩ := h) <;> simp_all [pending, pend]

theorem Sorted.prim {dbg : Bool} {s s' : St} {a : Token.Act} {es : List Token.Ev} (hs : Sorted s)
    (h : Token.step dbg s a = some (s', es)) : Sorted s' := by
  replace hs : (s.next :: pending s).Pairwise (· > ·) := hs
  change (s'.next :: pending s').Pairwise (· > ·)
  rcases step_pending h with ⟨h1, h2, -⟩ | ⟨h1, h2, -⟩ | ⟨id, b, v, h1, h2, -⟩
  · rw [h1, h2]; exact hs
  · rw [h1, h2]
    refine List.pairwise_cons.2 ⟨?_, hs⟩
    intro x hx
    rcases List.mem_cons.1 hx with rfl | hx
    · omega
    · have := (List.pairwise_cons.1 hs).1 x hx
      omega
  · rw [h1]
    rw [h2] at hs
    obtain ⟨h3, h4⟩ := List.pairwise_cons.1 hs
    exact List.pairwise_cons.2 ⟨fun x hx => h3 x (List.mem_cons_of_mem _ hx), (List.pairwise_cons.1 h4).2⟩

theorem Base.of {ps cs σ n} (h : Token.Base ps cs σ n) : Base ps cs σ n := by
  induction h with
  | nil => exact .nil
  | cons id _ ih => exact .cons id ih

/-- Once the sandbox has loaded, the configurations of runs without exceptions are among those here. -/
theorem Inv.of {s : St} {σ : List Item} (h : Token.Inv s σ) (hl : s.sh.loaded = true) : Inv s σ := by
  cases h <;> first
    | exact absurd hl Bool.false_ne_true
    | (have hb := Base.of ‹Token.Base _ _ _ _›
       clear hl
       first
       | (exact .ready hb ‹_› ‹_›)
       | (thr_tac))
    | (refine .late ?_; assumption)
    | (cases ‹Token.Ending _› <;> thr_tac)
    | (cases ‹Token.Closing _› <;> thr_tac)
    | (cases ‹Token.Closed _› <;> thr_tac)
    | thr_tac

/-- The state and the control stack, before and after the sandbox has loaded. -/
def TInv (s : St) (σ : List Item) : Prop := (s.sh.loaded = false ∧ Token.Inv s σ) ∨ Inv s σ

theorem tinv_init : TInv init [.loading] := Or.inl ⟨rfl, Token.inv_init⟩

theorem sorted_init : Sorted init := by simp [Sorted, init, pend]

theorem Inv.user {s : St} {σ : List Item} (h : Inv s σ) (hu : s.pp = .user) :
    ∃ n, Base s.ps s.cs σ n ∧ Parked n s.cp ∧ s.sh = ⟨0, 0, n, false, true, false, none⟩ ∧ s.reqs = [] ∧ s.reps = [] ∧
      s.dead = false := by
  cases h <;> first
    | exact ⟨_, ‹_›, ‹_›, rfl, rfl, rfl, rfl⟩
    | (exact absurd hu (by simp))

theorem Inv.loaded {s : St} {σ : List Item} (h : Inv s σ) : s.sh.loaded = true := by
  cases h <;> rfl

theorem Inv.ready' {s : St} {σ : List Item} {n : Int} (hu : s.pp = .user) (hb : Base s.ps s.cs σ n) (hc : Parked n s.cp)
    (hs : s.sh = ⟨0, 0, n, false, true, false, none⟩) (h1 : s.reqs = []) (h2 : s.reps = []) (h3 : s.dead = false) : Inv s σ := by
  rcases s with ⟨sh, reqs, reps, nx, dead, ps, pp, cs, cp⟩
  simp only at hu hs h1 h2 h3
  subst hu hs h1 h2 h3
  exact .ready hb .user hc

theorem Base.unwind {ps cs σ n} (h : Base ps cs σ n) : ∀ k ≤ ps.length, ∃ σ', Spec.unwind k σ = some σ' ∧
    Base (ps.drop k) cs σ' n := by
  induction h with
  | nil => intro k hk; simp at hk; subst hk; exact ⟨_, rfl, .nil⟩
  | cons id h ih =>
    intro k hk
    rcases k with _ | k
    · exact ⟨_, rfl, .cons id h⟩
    · obtain ⟨σ', h1, h2⟩ := ih k (by simpa using hk)
      exact ⟨σ', h1, .lost id h2⟩
  | lost id h ih =>
    intro k hk
    obtain ⟨σ', h1, h2⟩ := ih k hk
    exact ⟨σ', h1, .lost id h2⟩

theorem replay_prim (σ : List Item) (es : List Token.Ev) : replay σ (es.map .prim) = Token.Spec.replay σ es := by
  induction es generalizing σ with
  | nil => rfl
  | cons e es ih =>
    simp only [List.map_cons, replay, Token.Spec.replay, push]
    split <;> simp_all

theorem replay_append {σ σ' : List Item} {es : List Ev} (h : replay σ es = some σ') (es' : List Ev) :
    replay σ (es ++ es') = replay σ' es' := by
  induction es generalizing σ with
  | nil => simp only [replay, Option.some.injEq] at h; subst h; rfl
  | cons e es ih =>
    simp only [List.cons_append, replay] at h ⊢
    split at h
    · cases h
    · exact ih h

theorem tinv_step {dbg : Bool} {s s' : St} {a : Act} {es : List Ev} {σ : List Item} (hI : TInv s σ) (hs : Sorted s)
    (ha : Proper s a) (h : step dbg s a = some (s', es)) :
    ∃ σ', replay σ es = some σ' ∧ TInv s' σ' ∧ Sorted s' := by
  cases a with
  | prim a =>
    simp only [step, Option.map_eq_some_iff] at h
    obtain ⟨⟨s1, es1⟩, h1, h2⟩ := h
    simp only [Prod.mk.injEq] at h2
    obtain ⟨rfl, rfl⟩ := h2
    have hc : Coop s a := by
      cases a <;> first | exact ha | exact ha.1
    rw [replay_prim]
    rcases hI with ⟨hl, hI⟩ | hI
    · obtain ⟨σ', hr, hI'⟩ := Token.inv_step hI hc h1
      refine ⟨σ', hr, ?_, hs.prim h1⟩
      by_cases hl' : s1.sh.loaded = true
      · exact Or.inr (Inv.of hI' hl')
      · exact Or.inl ⟨by simpa using hl', hI'⟩
    · obtain ⟨σ', hr, hI'⟩ := inv_prim hI hs hc (fun v hv => by subst hv; exact ha.2) h1
      exact ⟨σ', hr, Or.inr hI', hs.prim h1⟩
  | raise k =>
    simp only [step] at h
    split at h
    case isFalse => cases h
    case isTrue hk =>
    simp only [Option.some.injEq, Prod.mk.injEq] at h
    obtain ⟨rfl, rfl⟩ := h
    replace ha : s.sh.loaded = true := ha
    rcases hI with ⟨hl, -⟩ | hI
    · rw [ha] at hl; cases hl
    · obtain ⟨n, hb, hc, h1, h2, h3, h4⟩ := hI.user hk.1
      obtain ⟨σ', hu, hb'⟩ := hb.unwind k hk.2.2
      refine ⟨σ', by simp [replay, push, hu], Or.inr ?_, hs⟩
      exact Inv.ready' (s := { s with ps := s.ps.drop k }) hk.1 hb' hc h1 h2 h3 h4

theorem run_cons {dbg : Bool} {s s' : St} {a : Act} {as : List Act} {es : List Ev} (h : run dbg s (a :: as) = some (s', es)) :
    ∃ s1 es1 es2, step dbg s a = some (s1, es1) ∧ run dbg s1 as = some (s', es2) ∧ es = es1 ++ es2 := by
  simp only [run] at h
  rcases h1 : step dbg s a with _ | ⟨s1, es1⟩
  · simp [h1] at h
  · simp only [h1] at h
    rcases h2 : run dbg s1 as with _ | ⟨s2, es2⟩
    · simp [h2] at h
    · simp only [h2, Option.some.injEq, Prod.mk.injEq] at h
      obtain ⟨rfl, rfl⟩ := h
      exact ⟨s1, es1, es2, rfl, h2, rfl⟩

theorem tinv_run {dbg : Bool} (as : List Act) {s s' : St} {es : List Ev} {σ : List Item}
    (hI : TInv s σ) (hs : Sorted s) (hc : ProperRun dbg s as) (h : run dbg s as = some (s', es)) :
    ∃ σ', replay σ es = some σ' ∧ TInv s' σ' ∧ Sorted s' := by
  induction as generalizing s σ es with
  | nil => simp [run] at h; obtain ⟨rfl, rfl⟩ := h; exact ⟨σ, rfl, hI, hs⟩
  | cons a as ih =>
    obtain ⟨s1, es1, es2, h1, h2, rfl⟩ := run_cons h
    obtain ⟨σ1, hr1, hI1, hs1⟩ := tinv_step hI hs hc.1 h1
    obtain ⟨σ2, hr2, hI2, hs2⟩ := ih hI1 hs1 (hc.2 _ _ h1) h2
    exact ⟨σ2, by rw [replay_append hr1]; exact hr2, hI2, hs2⟩

/-- Splits an instance of the invariant into single program counters. -/
macro "thr_cases" h:ident : tactic => `(tactic| (
    cases $h:ident <;> (try cases ‹Token.Ready _ _›) <;>
    (try cases ‹Parked _ _›) <;> (try cases ‹Ending _ _›) <;> (try cases ‹Closing _ _›) <;>
    (try cases ‹Closed _ _›)))

/-- **C100** (control passes like a call stack with exceptions).  In every run of a host and a sandbox that co-operate, in which handlers
may throw (once the sandbox has loaded) and the exceptions may be caught at any level, as long as a handler that has caught one from a
callback further in does not itself return an answer: neither process aborts, and the events form a call stack from which an exception
removes the handlers it leaves together with the functions they were serving. -/
theorem throw_control_stack_partial (dbg : Bool) (as : List Act) (s : St) (es : List Ev)
    (hc : ProperRun dbg init as) (h : run dbg init as = some (s, es)) :
    NoAbort s ∧ ∃ σ, replay [.loading] es = some σ := by
  obtain ⟨σ, hr, hI, -⟩ := tinv_run as tinv_init sorted_init hc h
  refine ⟨?_, σ, hr⟩
  rcases hI with ⟨-, hI⟩ | hI
  · inv_cases hI <;> simp [NoAbort]
  · thr_cases hI <;> simp [NoAbort]

/-- **C100** (no deadlock).  In such runs, unless the host runs its own code or the sandbox has been destroyed, some side can take a step
that is not mere polling. -/
theorem throw_no_deadlock (dbg : Bool) (as : List Act) (s : St) (es : List Ev)
    (hc : ProperRun dbg init as) (h : run dbg init as = some (s, es)) :
    s.pp = .user ∨ (s.pp = .gone ∧ s.cp = .exited) ∨
      ∃ a, (a = .parent ∨ a = .child ∨ a = .ret) ∧ (Token.step dbg s a).isSome ∧ ¬ (a = .parent ∧ Polling s) := by
  obtain ⟨σ, hr, hI, -⟩ := tinv_run as tinv_init sorted_init hc h
  rcases hI with ⟨-, hI⟩ | hI
  · exact Token.inv_live dbg hI
  · exact inv_live dbg hI

/-- **C100** (calls return).  Once the sandbox has loaded, the number of steps is bounded in terms of the number of calls and callbacks made:
exceptions leave no call hanging. -/
theorem throw_calls_terminate (dbg : Bool) (as : List Act) (s : St) (es : List Ev)
    (hc : ProperRun dbg init as) (h : run dbg init as = some (s, es)) (hl : s.sh.loaded = true) :
    ∃ B, ∀ bs s' es', ProperRun dbg s bs → run dbg s bs = some (s', es') → work bs ≤ B + 24 * choices bs := by
  obtain ⟨σ, -, hI, hs⟩ := tinv_run as tinv_init sorted_init hc h
  rcases hI with ⟨hl', -⟩ | hI
  · rw [hl] at hl'; cases hl'
  refine ⟨rank s, fun bs s' es' hcb hb => ?_⟩
  suffices work bs + rank s' ≤ rank s + 24 * choices bs by omega
  clear hc h hl
  induction bs generalizing s σ es' with
  | nil => simp [run] at hb; obtain ⟨rfl, rfl⟩ := hb; simp [work, choices]
  | cons a bs ih =>
    obtain ⟨s1, es1, es2, h1, h2, rfl⟩ := run_cons hb
    obtain ⟨σ1, -, hI1, hs1⟩ := tinv_step (Or.inr hI) hs hcb.1 h1
    have hk : work [a] + rank s1 ≤ rank s + 24 * choices [a] ∧ s1.sh.loaded = true := by
      cases a with
      | prim a =>
        simp only [step, Option.map_eq_some_iff] at h1
        obtain ⟨⟨s2, es2⟩, h1, h3⟩ := h1
        simp only [Prod.mk.injEq] at h3
        obtain ⟨rfl, rfl⟩ := h3
        have hc : Coop s a := by
          have := hcb.1
          cases a <;> first | exact this | exact this.1
        obtain ⟨σ2, -, hI2⟩ := inv_prim hI hs hc (fun v hv => by subst hv; exact hcb.1.2) h1
        have := rank_prim hI hc h1
        exact ⟨by simpa [work, choices] using this, hI2.loaded⟩
      | raise k =>
        simp only [step] at h1
        split at h1
        case isFalse => cases h1
        case isTrue hk =>
        simp only [Option.some.injEq, Prod.mk.injEq] at h1
        obtain ⟨rfl, rfl⟩ := h1
        refine ⟨?_, hI.loaded⟩
        simp only [work, choices, rank, rankP, hk.1, List.length_drop]
        omega
    rcases hI1 with ⟨hl', -⟩ | hI1
    · rw [hk.2] at hl'; cases hl'
    have := ih s1 σ1 hs1 hI1 es2 (hcb.2 _ _ h1) h2
    have hk := hk.1
    cases a <;> simp only [work, choices] at hk ⊢ <;> omega

/-! ## Replies and abandoned callbacks -/

theorem push_answered {st st' : List Item} {e : Ev} {id v : Nat} (h : push st e = some st')
    (hm : Item.answered id v ∈ st') : Item.answered id v ∈ st ∨ e = .prim (.answer id v) := by
  cases e with
  | prim e =>
    rcases Token.push_answered h hm with h | h
    · exact Or.inl h
    · exact Or.inr (by rw [h])
  | threw k =>
    refine Or.inl ?_
    replace h : unwind k st = some st' := h
    induction k generalizing st with
    | zero => simp only [unwind, Option.some.injEq] at h; subst h; exact hm
    | succ k ih =>
      unfold unwind at h
      split at h <;> grind

theorem replay_got {st st' : List Item} (pre : List Ev) {post : List Ev} {id id' v : Nat}
    (h : replay st (pre ++ .prim (.got id id' v) :: post) = some st') :
    id' = id ∧ (Item.answered id v ∈ st ∨ .prim (.answer id v) ∈ pre) := by
  induction pre generalizing st with
  | nil =>
    simp only [List.nil_append, replay, push] at h
    rcases hp : Token.Spec.push st (.got id id' v) with _ | s1
    · simp [hp] at h
    · unfold Token.Spec.push at hp
      split at hp <;> grind
  | cons e pre ih =>
    simp only [List.cons_append, replay] at h
    rcases hp : push st e with _ | s1
    · simp [hp] at h
    · simp only [hp] at h
      obtain ⟨h1, h2⟩ := ih h
      refine ⟨h1, ?_⟩
      rcases h2 with h2 | h2
      · rcases push_answered hp h2 with h3 | h3
        · exact Or.inl h3
        · exact Or.inr (by simp [h3])
      · exact Or.inr (List.mem_cons_of_mem _ h2)

/-- **C100** (own reply).  In such runs, whatever was thrown before, the reply that a callback reads was made for its own request. -/
theorem throw_own_reply (dbg : Bool) (as : List Act) (s : St) (pre post : List Ev) (id id' v : Nat)
    (hc : ProperRun dbg init as) (h : run dbg init as = some (s, pre ++ .prim (.got id id' v) :: post)) :
    id' = id ∧ .prim (.answer id v) ∈ pre := by
  obtain ⟨σ, hr, -⟩ := tinv_run as tinv_init sorted_init hc h
  obtain ⟨h1, h2⟩ := replay_got pre hr
  exact ⟨h1, by simpa using h2⟩

/-- The callbacks on the control stack. -/
def ids : List Item → List Nat
  | [] => []
  | .asked id :: st => id :: ids st
  | .serving id :: st => id :: ids st
  | .answered id _ :: st => id :: ids st
  | _ :: st => ids st

theorem unwind_ids : ∀ {k : Nat} {st st' : List Item}, unwind k st = some st' → ids st' = (ids st).drop k := by
  intro k
  induction k with
  | zero => intro st st' h; simp only [unwind, Option.some.injEq] at h; subst h; rfl
  | succ k ih =>
    intro st st' h
    unfold unwind at h
    split at h
    · simp_all
    · rename_i h1; cases h1
      simpa [ids] using ih h
    · cases h

theorem push_ids {st st' : List Item} {e : Ev} (h : push st e = some st') :
    (∃ id, e = .prim (.ask id) ∧ ids st' = id :: ids st) ∨ (∃ id b v, e = .prim (.got id b v) ∧ ids st = id :: ids st') ∨
    (∃ k, e = .threw k ∧ ids st' = (ids st).drop k) ∨
    ((∀ id, e ≠ .prim (.ask id)) ∧ (∀ a b v, e ≠ .prim (.got a b v)) ∧ (∀ k, e ≠ .threw k) ∧ ids st' = ids st) := by
  cases e with
  | threw k => exact Or.inr (Or.inr (Or.inl ⟨k, rfl, unwind_ids h⟩))
  | prim e =>
    simp only [push] at h
    unfold Token.Spec.push at h
    split at h <;> (try split at h) <;> simp only [Option.some.injEq, reduceCtorEq] at h <;> subst h <;> simp_all [ids]

/-- A callback that is not on the stack returns only after it was made. -/
theorem no_got {st st' : List Item} {es : List Ev} {id : Nat} (h : replay st es = some st') (hi : id ∉ ids st)
    (ha : .prim (.ask id) ∉ es) : ∀ b v, .prim (.got id b v) ∉ es := by
  induction es generalizing st with
  | nil => simp
  | cons e es ih =>
    simp only [replay] at h
    rcases hp : push st e with _ | s1
    · simp [hp] at h
    · simp only [hp] at h
      have ha' : .prim (.ask id) ∉ es := fun hm => ha (List.mem_cons_of_mem _ hm)
      have hne : e ≠ .prim (.ask id) := fun he => ha (by simp [he])
      have key : id ∉ ids s1 ∧ ∀ b v, e ≠ .prim (.got id b v) := by
        rcases push_ids hp with ⟨i, rfl, h1⟩ | ⟨i, b, v, rfl, h1⟩ | ⟨k, rfl, h1⟩ | ⟨h1, h2, h3, h4⟩
        · refine ⟨?_, by simp⟩
          rw [h1]
          simp only [List.mem_cons, not_or]
          exact ⟨fun he => hne (by rw [he]), hi⟩
        · rw [h1] at hi
          simp only [List.mem_cons, not_or] at hi
          refine ⟨hi.2, fun b' v' he => ?_⟩
          simp only [Ev.prim.injEq, Token.Ev.got.injEq] at he
          exact hi.1 he.1.symm
        · exact ⟨fun hm => hi (List.mem_of_mem_drop (h1 ▸ hm)), by simp⟩
        · exact ⟨h4 ▸ hi, fun b v he => h2 _ _ _ he⟩
      intro b v hm
      rcases List.mem_cons.1 hm with he | hm
      · exact key.2 b v he.symm
      · exact ih h key.1 ha' b v hm

/-- New callbacks get new numbers. -/
theorem run_asks {dbg : Bool} (as : List Act) {s s' : St} {es : List Ev} (h : run dbg s as = some (s', es)) :
    s.next ≤ s'.next ∧ ∀ id, .prim (.ask id) ∈ es → s.next ≤ id := by
  induction as generalizing s es with
  | nil => simp [run] at h; obtain ⟨rfl, rfl⟩ := h; simp
  | cons a as ih =>
    obtain ⟨s1, es1, es2, h1, h2, rfl⟩ := run_cons h
    obtain ⟨h3, h4⟩ := ih h2
    have : s.next ≤ s1.next ∧ ∀ id, .prim (.ask id) ∈ es1 → s.next ≤ id := by
      cases a with
      | prim a =>
        simp only [step, Option.map_eq_some_iff] at h1
        obtain ⟨⟨s2, es3⟩, h1, h5⟩ := h1
        simp only [Prod.mk.injEq] at h5
        obtain ⟨rfl, rfl⟩ := h5
        rcases step_pending h1 with ⟨h6, -, h7, -⟩ | ⟨h6, -, h7⟩ | ⟨i, b, v, h6, -, h7⟩
        · exact ⟨by omega, fun id hm => absurd (by simpa using hm) (h7 id)⟩
        · subst h7
          refine ⟨by omega, fun id hm => ?_⟩
          simp at hm
          omega
        · subst h7
          exact ⟨by omega, fun id hm => by simp at hm⟩
      | raise k =>
        simp only [step] at h1
        split at h1
        · simp only [Option.some.injEq, Prod.mk.injEq] at h1
          obtain ⟨rfl, rfl⟩ := h1
          simp
        · cases h1
    refine ⟨by omega, fun id hm => ?_⟩
    rcases List.mem_append.1 hm with hm | hm
    · exact this.2 id hm
    · have := h4 id hm
      omega

theorem Base.ids_eq {ps cs σ n} (h : Base ps cs σ n) : ids σ = ps.map (·.2) := by
  induction h with
  | nil => rfl
  | cons id _ ih => simp [ids, ih]
  | lost id _ ih => exact ih

theorem Base.sub {ps cs σ n} (h : Base ps cs σ n) : (ps.map (·.2)).Sublist (cs.map (·.1)) := by
  induction h with
  | nil => simp
  | cons id _ ih => simpa using ih
  | lost id _ ih => exact ih.trans (by simp)

/-- **C100** (abandoned callbacks never return).  When an exception ends the handlers of some callbacks, these callbacks never return in
the sandbox, whatever the two sides do afterwards: the functions that made them stay suspended for the rest of the sandbox's life. -/
theorem abandoned_never_return (dbg : Bool) (as : List Act) (s : St) (es : List Ev) (hc : ProperRun dbg init as)
    (h : run dbg init as = some (s, es)) (k : Nat) (bs : List Act) (s' : St) (es' : List Ev)
    (hcb : ProperRun dbg s (.raise k :: bs)) (hb : run dbg s (.raise k :: bs) = some (s', es')) (f : From) (id : Nat)
    (hid : (f, id) ∈ s.ps.take k) (b v : Nat) : .prim (.got id b v) ∉ es' := by
  obtain ⟨σ, -, hI, hs⟩ := tinv_run as tinv_init sorted_init hc h
  obtain ⟨s1, es1, es2, h1, h2, rfl⟩ := run_cons hb
  have hl : s.sh.loaded = true := hcb.1
  rcases hI with ⟨hl', -⟩ | hI
  · rw [hl] at hl'; cases hl'
  obtain ⟨σ1, hr1, hI1, hs1⟩ := tinv_step (Or.inr hI) hs hcb.1 h1
  obtain ⟨σ2, hr2, -, -⟩ := tinv_run bs hI1 hs1 (hcb.2 _ _ h1) h2
  simp only [step] at h1
  split at h1
  case isFalse => cases h1
  case isTrue hk =>
  simp only [Option.some.injEq, Prod.mk.injEq] at h1
  obtain ⟨rfl, rfl⟩ := h1
  obtain ⟨n, hbase, -⟩ := hI.user hk.1
  simp only [List.cons_append, List.nil_append, List.mem_cons, reduceCtorEq, false_or]
  have hd : (s.ps.map (·.2)).Nodup := hbase.sub.nodup hs.nodup
  have hu : unwind k σ = some σ1 := by
    simp only [replay, push] at hr1
    split at hr1 <;> simp_all
  have hnot : id ∉ ids σ1 := by
    rw [unwind_ids hu, hbase.ids_eq]
    intro hm
    rw [← List.map_drop] at hm
    have hm' : id ∈ (s.ps.take k).map (·.2) := List.mem_map.2 ⟨_, hid, rfl⟩
    rw [← List.take_append_drop k s.ps, List.map_append, List.nodup_append] at hd
    exact hd.2.2 id hm' id hm rfl
  refine no_got hr2 hnot (fun hm => ?_) b v
  have h3 := (run_asks bs h2).2 id hm
  have h4 : id ∈ s.cs.map (·.1) := hbase.mem (f, id) (List.mem_of_mem_take hid)
  have h5 := (List.pairwise_cons.1 hs).1 id (List.mem_append_right _ h4)
  simp only at h3
  omega

/-- Callbacks made in a run. -/
def asks (es : List Ev) : Nat := es.countP fun | .prim (.ask _) => true | _ => false

/-- Callbacks that have returned in a run. -/
def gots (es : List Ev) : Nat := es.countP fun | .prim (.got _ _ _) => true | _ => false

theorem unwind_len : ∀ {k : Nat} {st st' : List Item}, unwind k st = some st' → (ids st).length = k + (ids st').length := by
  intro k
  induction k with
  | zero => intro st st' h; simp only [unwind, Option.some.injEq] at h; subst h; simp
  | succ k ih =>
    intro st st' h
    unfold unwind at h
    split at h
    · simp_all
    · rename_i h1; cases h1
      have := ih h
      simp [ids]
      omega
    · cases h

theorem replay_count {st st' : List Item} {es : List Ev} (h : replay st es = some st') :
    (ids st).length + asks es = (ids st').length + gots es + abandoned es := by
  induction es generalizing st with
  | nil => simp only [replay, Option.some.injEq] at h; subst h; simp [asks, gots, abandoned]
  | cons e es ih =>
    simp only [replay] at h
    rcases hp : push st e with _ | s1
    · simp [hp] at h
    · simp only [hp] at h
      have h1 := ih h
      simp only [asks, gots, List.countP_cons] at h1 ⊢
      have hq := hp
      rcases push_ids hp with ⟨i, rfl, h2⟩ | ⟨i, b, v, rfl, h2⟩ | ⟨k, rfl, -⟩ | ⟨h2, h3, h4, h5⟩
      · simp [abandoned, h2] at h1 ⊢; omega
      · simp [abandoned, h2] at h1 ⊢; omega
      · have := unwind_len (st := st) (st' := s1) (k := k) hq
        simp [abandoned] at h1 ⊢; omega
      · cases e with
        | threw k => exact absurd rfl (h4 k)
        | prim e => cases e <;> simp_all [abandoned]

theorem run_count {dbg : Bool} (as : List Act) {s s' : St} {es : List Ev} (h : run dbg s as = some (s', es)) :
    (pending s).length + asks es = (pending s').length + gots es := by
  induction as generalizing s es with
  | nil => simp [run] at h; obtain ⟨rfl, rfl⟩ := h; simp [asks, gots]
  | cons a as ih =>
    obtain ⟨s1, es1, es2, h1, h2, rfl⟩ := run_cons h
    have h3 := ih h2
    have : (pending s).length + asks es1 = (pending s1).length + gots es1 := by
      cases a with
      | prim a =>
        simp only [step, Option.map_eq_some_iff] at h1
        obtain ⟨⟨s2, es3⟩, h1, h5⟩ := h1
        simp only [Prod.mk.injEq] at h5
        obtain ⟨rfl, rfl⟩ := h5
        rcases step_pending h1 with ⟨-, h6, h7, h8⟩ | ⟨-, h6, h7⟩ | ⟨i, b, v, -, h6, h7⟩
        · have e1 : asks (es3.map .prim) = 0 := by
            simp only [asks, List.countP_eq_zero, List.mem_map, forall_exists_index, and_imp]
            rintro _ e he rfl
            cases e <;> simp
            exact h7 _ he
          have e2 : gots (es3.map .prim) = 0 := by
            simp only [gots, List.countP_eq_zero, List.mem_map, forall_exists_index, and_imp]
            rintro _ e he rfl
            cases e <;> simp
            exact h8 _ _ _ he
          rw [h6, e1, e2]
        · subst h7; simp [h6, asks, gots]
        · subst h7; simp [h6, asks, gots]
      | raise k =>
        simp only [step] at h1
        split at h1
        · simp only [Option.some.injEq, Prod.mk.injEq] at h1
          obtain ⟨rfl, rfl⟩ := h1
          simp [asks, gots, pending]
        · cases h1
    simp only [asks, gots, List.countP_append] at h3 this ⊢
    omega

/-- **C100** (the depth counts what was abandoned).  Whenever the host runs its own code, the callback depth in the header is the number of
callbacks it is handling plus the number of all callbacks that exceptions have ever abandoned: each exception costs the sandbox the stack
of the functions it leaves behind, for good. -/
theorem throw_depth (dbg : Bool) (as : List Act) (s : St) (es : List Ev)
    (hc : ProperRun dbg init as) (h : run dbg init as = some (s, es)) (hu : s.pp = .user) (hl : s.sh.loaded = true) :
    s.sh.depth = (s.ps.length + abandoned es : Nat) ∧ s.cs.length = s.ps.length + abandoned es := by
  obtain ⟨σ, hr, hI, hs⟩ := tinv_run as tinv_init sorted_init hc h
  rcases hI with ⟨hl', -⟩ | hI
  · rw [hl] at hl'; cases hl'
  obtain ⟨n, hb, hp, hsh, -⟩ := hI.user hu
  have h1 := replay_count hr
  have h2 := run_count as h
  have h3 : (pending s).length = s.cs.length := by
    have : pend s.cp = [] := by generalize s.cp = c at hp; cases hp <;> rfl
    simp [pending, this]
  have h4 : (pending init).length = 0 := rfl
  have h5 : (ids [.loading]).length = 0 := rfl
  have h6 : (ids σ).length = s.ps.length := by rw [hb.ids_eq]; simp
  have h7 := hb.len
  refine ⟨?_, by omega⟩
  rw [hsh]
  simp only
  omega

/-- **C100** (usable between calls).  Between calls, whatever was thrown before, the sandbox waits for the next call with both semaphores
clear, no message, no request and no reply left over. -/
theorem throw_idle (dbg : Bool) (as : List Act) (s : St) (es : List Ev)
    (hc : ProperRun dbg init as) (h : run dbg init as = some (s, es)) (hu : s.pp = .user) (hp : s.ps = [])
    (hl : s.sh.loaded = true) :
    s.sh = ⟨0, 0, (abandoned es : Nat), false, true, false, none⟩ ∧ s.reqs = [] ∧ s.reps = [] ∧
      Parked (abandoned es : Nat) s.cp ∧ replay [.loading] es = some [] := by
  have hd := throw_depth dbg as s es hc h hu hl
  obtain ⟨σ, hr, hI, hs⟩ := tinv_run as tinv_init sorted_init hc h
  rcases hI with ⟨hl', -⟩ | hI
  · rw [hl] at hl'; cases hl'
  obtain ⟨n, hb, hpk, hsh, h1, h2, -⟩ := hI.user hu
  rw [hp] at hb
  obtain rfl := hb.empty
  have hn : n = (abandoned es : Nat) := by
    have := hd.1
    rw [hsh, hp] at this
    simpa using this
  subst hn
  exact ⟨hsh, h1, h2, hpk, hr⟩

/-! ## A handler that catches and answers -/

/-- The host is about to let the sandbox read the answer `v` to callback `id`, but the sandbox waits in callback `a`. -/
inductive Wrong (id v a : Nat) : St → Prop
  | h3 {nx ps cs m n e c} (hc : Parked n c) :
      Wrong id v a ⟨⟨0, 0, n, false, true, false, none⟩, [], [(id, v)], nx, false, ps, .h3 m, (a, e) :: cs, c⟩
  | h4 {nx ps cs m n e c} (hc : Parked n c) :
      Wrong id v a ⟨⟨0, 0, n - 1, false, true, false, none⟩, [], [(id, v)], nx, false, ps, .h4 m, (a, e) :: cs, c⟩
  | h5 {nx ps cs m n e c} (hc : Parked n c) :
      Wrong id v a ⟨⟨0, 0, n - 1, true, true, false, none⟩, [], [(id, v)], nx, false, ps, .h5 m, (a, e) :: cs, c⟩
  | woken {nx ps cs m n e c} (hc : Parked n c) :
      Wrong id v a ⟨⟨1, 0, n - 1, true, true, false, none⟩, [], [(id, v)], nx, false, ps, .w m, (a, e) :: cs, c⟩
  | r2 {nx ps cs m n e} :
      Wrong id v a ⟨⟨0, 0, n - 1, true, true, false, none⟩, [], [(id, v)], nx, false, ps, .w m, (a, e) :: cs, .r2 n⟩
  | r3 {nx ps cs m n e} :
      Wrong id v a ⟨⟨0, 0, n - 1, true, true, false, none⟩, [], [(id, v)], nx, false, ps, .w m, (a, e) :: cs, .r3 n none⟩
  | r4 {nx ps cs m n e} :
      Wrong id v a ⟨⟨0, 0, n - 1, true, true, false, none⟩, [], [(id, v)], nx, false, ps, .w m, (a, e) :: cs, .r4 n⟩
  | rcv {nx ps cs m n e} :
      Wrong id v a ⟨⟨0, 0, n - 1, true, true, false, none⟩, [], [(id, v)], nx, false, ps, .w m, cs, .rcv a e⟩

theorem pred_ne (n : Int) : (n - 1 = n) = False := eq_false (by omega)

set_option linter.unusedSimpArgs false in
theorem wrong_step {dbg : Bool} {id v a : Nat} {s s' : St} {act : Token.Act} {es : List Token.Ev} (hw : Wrong id v a s)
    (hc : Coop s act) (h : Token.step dbg s act = some (s', es)) : (es = [] ∧ Wrong id v a s') ∨ es = [.got a id v] := by
  cases hw <;> (try cases ‹Parked _ _›) <;> cases act <;>
    simp [Token.step, Token.parentStep, Token.childStep, Coop, Token.wakeChild, Token.wakeParent, Token.startHandler, pred_ne] at h hc <;>
    (try (obtain ⟨h1, h2⟩ := h; subst h1; subst h2)) <;>
    first
    | exact Or.inr rfl
    | exact Or.inl ⟨rfl, .h3 .r0⟩
    | exact Or.inl ⟨rfl, .h3 .r1⟩
    | exact Or.inl ⟨rfl, .h4 .r0⟩
    | exact Or.inl ⟨rfl, .h4 .r1⟩
    | exact Or.inl ⟨rfl, .h5 .r0⟩
    | exact Or.inl ⟨rfl, .h5 .r1⟩
    | exact Or.inl ⟨rfl, .woken .r0⟩
    | exact Or.inl ⟨rfl, .woken .r1⟩
    | exact Or.inl ⟨rfl, .r2⟩
    | exact Or.inl ⟨rfl, .r3⟩
    | exact Or.inl ⟨rfl, .r4⟩
    | exact Or.inl ⟨rfl, .rcv⟩

theorem wrong_user {id v a : Nat} {s : St} (hw : Wrong id v a s) : s.pp ≠ .user := by
  cases hw <;> simp

theorem wrong_run {dbg : Bool} {id v a : Nat} (bs : List Act) {s s' : St} {es : List Ev} (hw : Wrong id v a s)
    (hc : ProperRun dbg s bs) (h : run dbg s bs = some (s', es)) :
    (es = [] ∧ Wrong id v a s') ∨ ∃ es', es = .prim (.got a id v) :: es' := by
  induction bs generalizing s es with
  | nil => simp [run] at h; obtain ⟨rfl, rfl⟩ := h; exact Or.inl ⟨rfl, hw⟩
  | cons b bs ih =>
    obtain ⟨s1, es1, es2, h1, h2, rfl⟩ := run_cons h
    cases b with
    | raise k =>
      simp only [step] at h1
      split at h1
      · rename_i hk; exact absurd hk.1 (wrong_user hw)
      · cases h1
    | prim b =>
      have hcb : Coop s b := by
        have := hc.1
        cases b <;> first | exact this | exact this.1
      have hn := hc.2 _ _ h1
      simp only [step, Option.map_eq_some_iff] at h1
      obtain ⟨⟨s2, es3⟩, h1, h5⟩ := h1
      simp only [Prod.mk.injEq] at h5
      obtain ⟨rfl, rfl⟩ := h5
      rcases wrong_step hw hcb h1 with ⟨rfl, hw'⟩ | rfl
      · simpa using ih hw' hn h2
      · exact Or.inr ⟨es2, rfl⟩

/-- **C100** (a handler that has caught an exception must not answer).  After a proper run, let the handler of callback `id` have caught an
exception that left the handler of a callback further in, so that the sandbox waits in another callback, the innermost one, `a`.  If the
handler returns `v`, then the next thing that happens in the sandbox is that callback `a` returns, with the answer `v` meant for
`id`. -/
theorem caught_answer_misdelivered (dbg : Bool) (as : List Act) (s : St) (es : List Ev) (hc : ProperRun dbg init as)
    (h : run dbg init as = some (s, es)) (hl : s.sh.loaded = true) (f : From) (id : Nat) (ps : List (From × Nat))
    (hps : s.ps = (f, id) :: ps) (hn : ¬ Innermost s) (v : Nat) (s1 s2 : St) (es1 es2 : List Ev) (bs : List Act)
    (h1 : step dbg s (.prim (.finish v)) = some (s1, es1)) (hcb : ProperRun dbg s1 bs) (h2 : run dbg s1 bs = some (s2, es2)) :
    ∃ a ≠ id, s.cs.head?.map (·.1) = some a ∧ (es2 = [] ∨ ∃ es', es2 = .prim (.got a id v) :: es') := by
  obtain ⟨σ, hr, hI, hs⟩ := tinv_run as tinv_init sorted_init hc h
  rcases hI with ⟨hl', -⟩ | hI
  · rw [hl] at hl'; cases hl'
  have hu : s.pp = .user := by
    simp only [step, Token.step, Option.map_eq_some_iff] at h1
    obtain ⟨r, h3, -⟩ := h1
    split at h3
    · assumption
    · cases h3
  obtain ⟨n, hb, hp, hsh, hrq, hrp, hdd⟩ := hI.user hu
  rcases s with ⟨sh, reqs, reps, nx, dead, ps', pp, cs, cp⟩
  simp only at hu hb hp hsh hrq hrp hdd hps hl
  subst hu hsh hrq hrp hdd hps
  have hne : ∃ a e cs', cs = (a, e) :: cs' := by
    have := hb.le
    rcases cs with _ | ⟨⟨a, e⟩, cs'⟩
    · simp at this
    · exact ⟨a, e, cs', rfl⟩
  obtain ⟨a, e, cs', rfl⟩ := hne
  have ha : a ≠ id := fun he => hn (by simp [Innermost, he])
  refine ⟨a, ha, rfl, ?_⟩
  obtain ⟨m, σ', rfl, rfl⟩ := hb.top
  simp [step, Token.step] at h1
  obtain ⟨rfl, rfl⟩ := h1
  rcases wrong_run bs (Wrong.h3 hp) hcb h2 with ⟨he, -⟩ | he
  · exact Or.inl he
  · exact Or.inr he

/-! ## Hangs -/

/-- The host waits for the sandbox in a call, and the sandbox waits for a reply that is not coming. -/
def Dead (s : St) : Prop := (∃ d, s.pp = .w d) ∧ s.sh.parent = 0 ∧ s.dead = false ∧ (∃ id e, s.cp = .rcv id e) ∧ s.reps = []

theorem dead_step {dbg : Bool} {s s' : St} {act : Token.Act} {es : List Token.Ev} (hw : Dead s)
    (hc : Coop s act) (h : Token.step dbg s act = some (s', es)) : es = [] ∧ s' = s := by
  obtain ⟨⟨d, h1⟩, h2, h3, ⟨id, e, h4⟩, h5⟩ := hw
  cases act <;>
    simp [Token.step, Token.parentStep, Token.childStep, Coop, h1, h2, h3, h4, h5] at h hc
  all_goals (obtain ⟨rfl, rfl⟩ := h; exact ⟨rfl, rfl⟩)

/-- In such a state nothing ever happens again. -/
theorem dead_run {dbg : Bool} (bs : List Act) {s s' : St} {es : List Ev} (hw : Dead s)
    (hc : ProperRun dbg s bs) (h : run dbg s bs = some (s', es)) : es = [] ∧ s' = s := by
  induction bs generalizing es with
  | nil => simp [run] at h; obtain ⟨rfl, rfl⟩ := h; exact ⟨rfl, rfl⟩
  | cons b bs ih =>
    obtain ⟨s1, es1, es2, h1, h2, rfl⟩ := run_cons h
    cases b with
    | raise k =>
      simp only [step] at h1
      split at h1
      · rename_i hk
        obtain ⟨⟨d, h3⟩, -⟩ := hw
        rw [h3] at hk; simp at hk
      · cases h1
    | prim b =>
      have hcb : Coop s b := by
        have := hc.1
        cases b <;> first | exact this | exact this.1
      have hn := hc.2 _ _ h1
      simp only [step, Option.map_eq_some_iff] at h1
      obtain ⟨⟨s2, es3⟩, h1, h5⟩ := h1
      simp only [Prod.mk.injEq] at h5
      obtain ⟨rfl, rfl⟩ := h5
      obtain ⟨rfl, rfl⟩ := dead_step hw hcb h1
      simpa using ih hn h2

/-- The sandbox waits in a callback that its loader made and that was abandoned; the host has not called, or waits in a call for the sandbox
to load. -/
inductive LoadLost : St → Prop
  | mk {nx id c p} (hc : Parked 1 c) (hp : p = .user ∨ ∃ x, p = .s0 x ∨ p = .l1 x ∨ p = .l2 x) :
      LoadLost ⟨⟨0, 0, 1, false, false, false, none⟩, [], [], nx, false, [], p, [(id, none)], c⟩

theorem loadLost_step {dbg : Bool} {s s' : St} {act : Token.Act} {es : List Token.Ev} (hw : LoadLost s)
    (hc : Coop s act) (h : Token.step dbg s act = some (s', es)) : es = [] ∧ LoadLost s' := by
  rcases hw with ⟨hp, hq⟩
  cases hp <;> rcases hq with rfl | ⟨x, rfl | rfl | rfl⟩ <;> cases act <;>
    simp [Token.step, Token.parentStep, Token.childStep, Coop] at h hc <;>
    (try (obtain ⟨h1, h2⟩ := h; subst h1; subst h2)) <;>
    exact ⟨rfl, by constructor <;> first | exact .r0 | exact .r1 | simp⟩

theorem loadLost_run {dbg : Bool} (bs : List Token.Act) {s s' : St} {es : List Token.Ev} (hw : LoadLost s)
    (hc : Token.Spec.CoopRun dbg s bs) (h : Token.run dbg s bs = some (s', es)) : es = [] ∧ LoadLost s' := by
  induction bs generalizing s es with
  | nil => simp [Token.run] at h; obtain ⟨rfl, rfl⟩ := h; exact ⟨rfl, hw⟩
  | cons b bs ih =>
    simp only [Token.run] at h
    rcases h1 : Token.step dbg s b with _ | ⟨s1, es1⟩
    · simp [h1] at h
    · simp only [h1] at h
      rcases h2 : Token.run dbg s1 bs with _ | ⟨s2, es2⟩
      · simp [h2] at h
      · simp only [h2, Option.some.injEq, Prod.mk.injEq] at h
        obtain ⟨rfl, rfl⟩ := h
        obtain ⟨rfl, hw'⟩ := loadLost_step hw hc.1 h1
        obtain ⟨rfl, hw''⟩ := ih hw' (hc.2 _ _ h1) h2
        exact ⟨rfl, hw''⟩

/-- **C100** (an exception while the library loads).  If a handler throws while the sandbox is loading, in any run of a host and a sandbox
that co-operate, then the sandbox never loads, and every call the host makes afterwards waits for ever: no event happens again. -/
theorem load_throw_hangs (dbg : Bool) (as : List Token.Act) (s : St) (es : List Token.Ev) (hc : Token.Spec.CoopRun dbg init as)
    (h : Token.run dbg init as = some (s, es)) (hl : s.sh.loaded = false) (k : Nat) (s1 : St) (es1 : List Ev)
    (h1 : step dbg s (.raise k) = some (s1, es1)) (bs : List Token.Act) (s2 : St) (es2 : List Token.Ev)
    (hcb : Token.Spec.CoopRun dbg s1 bs) (h2 : Token.run dbg s1 bs = some (s2, es2)) :
    es2 = [] ∧ s2.sh.loaded = false ∧ (s2.pp = .user ∨ ∃ x, s2.pp = .s0 x ∨ s2.pp = .l1 x ∨ s2.pp = .l2 x) := by
  obtain ⟨σ, -, hI⟩ := Token.inv_run as Token.inv_init hc h
  simp only [step] at h1
  split at h1
  case isFalse => cases h1
  case isTrue hk =>
  simp only [Option.some.injEq, Prod.mk.injEq] at h1
  obtain ⟨rfl, rfl⟩ := h1
  have hL : LoadLost { s with ps := s.ps.drop k } := by
    obtain ⟨hu, hk1, hk2⟩ := hk
    have hk3 := Nat.lt_of_lt_of_le hk1 hk2
    cases hI <;> first
      | contradiction
      | (exact absurd hl Bool.noConfusion)
      | (exact absurd hk3 (Nat.lt_irrefl 0))
      | skip
    case lserve hcc =>
      have hk4 : k = 1 := by simp at hk2; omega
      subst hk4
      exact .mk hcc (Or.inl rfl)
  obtain ⟨rfl, hw⟩ := loadLost_run bs hL hcb h2
  refine ⟨rfl, ?_⟩
  cases hw with
  | mk hc hp => exact ⟨rfl, hp⟩

/-! ## Concrete runs -/

/-- The sandbox loads; call 10 makes callback 1, whose handler makes call 11, which makes callback 2; its handler runs. -/
def exTwo : List Act :=
  (Token.exLoad ++ Token.exEnter ++ Token.exAsk ++ .call 11 :: Token.exEnter ++ Token.exAsk).map .prim

/-- The handler throws, and the caller of call 10 catches; then they make call 12. -/
def exOut : List Act := exTwo ++ .raise 2 :: (.call 12 :: Token.exEnter ++ Token.exReturn).map .prim

/-- The handler throws, and the handler of callback 1 catches; it makes call 12, and then throws itself; the sandbox is destroyed. -/
def exIn : List Act :=
  exTwo ++ .raise 1 :: (.call 12 :: Token.exEnter ++ Token.exReturn).map .prim ++
    .raise 1 :: (Token.Act.destroy :: List.replicate 4 Token.Act.parent ++ List.replicate 7 Token.Act.child).map .prim

/-- The handler throws, the handler of callback 1 catches and answers 71. Function 11 goes on with this answer and returns. -/
def exHang : List Act :=
  exTwo ++ .raise 1 :: (Token.exAnswer 71 ++ Token.Act.ret :: List.replicate 4 .child ++ List.replicate 6 Token.Act.parent ++
    List.replicate 4 Token.Act.child).map .prim

/-- Decides whether all actions of a run are proper. -/
def properCheck (dbg : Bool) (s : St) : List Act → Bool
  | [] => true
  | a :: as => decide (Proper s a) && match step dbg s a with
    | none => true
    | some (s', _) => properCheck dbg s' as

theorem properRun_of_check {dbg : Bool} (as : List Act) {s : St} (h : properCheck dbg s as = true) : ProperRun dbg s as := by
  induction as generalizing s with
  | nil => trivial
  | cons a as ih =>
    simp only [properCheck, Bool.and_eq_true, decide_eq_true_eq] at h
    refine ⟨h.1, fun s' es hs => ?_⟩
    rw [hs] at h
    exact ih h.2

/-- What happens in the two proper runs: call 12 works both times. -/
theorem ex_events (dbg : Bool) :
    (run dbg init exOut).map (fun r => (r.2.drop 13, r.1.pp, r.1.ps, r.1.sh.depth)) =
      some ([.threw 2, .prim (.enter 12), .prim (.begin 12), .prim .done, .prim .leave], .user, [], 2) ∧
    (run dbg init exIn).map (fun r => (r.2.drop 13, r.1.pp, r.1.cp)) =
      some ([.threw 1, .prim (.enter 12), .prim (.begin 12), .prim .done, .prim .leave, .threw 1], .gone, .exited) := by
  cases dbg <;> decide +kernel

/-- The hypotheses of `throw_control_stack_partial`, `throw_no_deadlock`, `throw_calls_terminate`, `throw_depth` and `throw_idle` hold of the first
run, with two callbacks abandoned. -/
example (dbg : Bool) : ∃ s es, ProperRun dbg init exOut ∧ run dbg init exOut = some (s, es) ∧ s.pp = .user ∧ s.ps = [] ∧
    s.sh.loaded = true ∧ abandoned es = 2 := by
  have h : (run dbg init exOut).map (fun r => (r.1.pp, r.1.ps, r.1.sh.loaded, abandoned r.2)) = some (.user, [], true, 2) := by
    cases dbg <;> decide +kernel
  rcases hr : run dbg init exOut with _ | ⟨s, es⟩
  · simp [hr] at h
  · simp [hr] at h
    exact ⟨s, es, properRun_of_check _ (by cases dbg <;> decide +kernel), rfl, h⟩

example (dbg : Bool) : ProperRun dbg init exIn := properRun_of_check _ (by cases dbg <;> decide +kernel)

/-- The hypotheses of `abandoned_never_return` hold for callbacks 1 and 2. -/
example (dbg : Bool) : ∃ s es bs s' es', ProperRun dbg init exTwo ∧ run dbg init exTwo = some (s, es) ∧
    ProperRun dbg s (.raise 2 :: bs) ∧ run dbg s (.raise 2 :: bs) = some (s', es') ∧ s.ps.take 2 = [(.send 1, 2), (.send 0, 1)] := by
  let bs : List Act := (.call 12 :: Token.exEnter ++ Token.exReturn).map .prim
  have h : (run dbg init exTwo).map (fun r => (properCheck dbg r.1 (.raise 2 :: bs), (run dbg r.1 (.raise 2 :: bs)).isSome, r.1.ps.take 2)) =
      some (true, true, [(.send 1, 2), (.send 0, 1)]) := by
    cases dbg <;> decide +kernel
  rcases hr : run dbg init exTwo with _ | ⟨s, es⟩
  · simp [hr] at h
  · simp [hr] at h
    obtain ⟨⟨s', es'⟩, he⟩ := Option.isSome_iff_exists.1 h.2.1
    exact ⟨s, es, bs, s', es', properRun_of_check _ (by cases dbg <;> decide +kernel), rfl, properRun_of_check _ h.1, he, h.2.2⟩

/-- The hypotheses of `throw_own_reply` hold in a run in which, after an exception, a new call makes a callback that is answered. -/
example (dbg : Bool) : ∃ as s pre post, ProperRun dbg init as ∧ .threw 2 ∈ pre ∧
    run dbg init as = some (s, pre ++ .prim (.got 3 3 73) :: post) := by
  let as := exTwo ++ .raise 2 :: (.call 12 :: Token.exEnter ++ Token.exAsk ++ Token.exAnswer 73).map .prim
  have h : (run dbg init as).map (fun r => (r.2.drop 13)) = some [.threw 2, .prim (.enter 12), .prim (.begin 12), .prim (.ask 3),
      .prim (.serve 3), .prim (.answer 3 73), .prim (.got 3 3 73)] := by
    cases dbg <;> decide +kernel
  rcases hr : run dbg init as with _ | ⟨s, es⟩
  · simp [hr] at h
  · simp only [hr, Option.map_some, Option.some.injEq] at h
    have he := List.take_append_drop 13 es
    rw [h] at he
    refine ⟨as, s, es.take 13 ++ [.threw 2, .prim (.enter 12), .prim (.begin 12), .prim (.ask 3), .prim (.serve 3),
      .prim (.answer 3 73)], [], properRun_of_check _ (by cases dbg <;> decide +kernel), by simp, ?_⟩
    rw [hr]
    simp only [Option.some.injEq, Prod.mk.injEq, true_and, List.append_assoc]
    exact he.symm

/-- The hypotheses of `caught_answer_misdelivered` hold when the handler of callback 1 has caught the exception of the handler of
callback 2. -/
example (dbg : Bool) : ∃ as s es ps s1 es1, ProperRun dbg init as ∧ run dbg init as = some (s, es) ∧ s.sh.loaded = true ∧
    s.ps = (.send 0, 1) :: ps ∧ ¬ Innermost s ∧ step dbg s (.prim (.finish 71)) = some (s1, es1) := by
  have h : (run dbg init (exTwo ++ [.raise 1])).map (fun r => (r.1.sh.loaded, r.1.ps, decide (Innermost r.1),
      (step dbg r.1 (.prim (.finish 71))).isSome)) = some (true, [(.send 0, 1)], false, true) := by
    cases dbg <;> decide +kernel
  rcases hr : run dbg init (exTwo ++ [.raise 1]) with _ | ⟨s, es⟩
  · simp [hr] at h
  · simp only [hr, Option.map_some, Option.some.injEq, Prod.mk.injEq, decide_eq_false_iff_not] at h
    obtain ⟨⟨s1, es1⟩, he⟩ := Option.isSome_iff_exists.1 h.2.2.2
    exact ⟨_, s, es, [], s1, es1, properRun_of_check _ (by cases dbg <;> decide +kernel), hr, h.1, h.2.1, h.2.2.1, he⟩

/-- **C100** (the full property fails: a caught exception can hang both sides).  Callback 2 of call 11, made by the handler of callback 1, ends
with an exception; the handler of callback 1 catches it and answers 71.  Callback 2 returns 71 in the sandbox, function 11 returns, and
the host takes this for a callback without a request; then callback 1 waits for a reply that was already read, and the host waits
for the sandbox in call 10, for ever. -/
theorem caught_exception_hangs (dbg : Bool) : ∃ s es, run dbg init exHang = some (s, es) ∧
    es.drop 13 = [.threw 1, .prim (.answer 1 71), .prim (.got 2 1 71), .prim .done] ∧
    ∀ bs s' es', ProperRun dbg s bs → run dbg s bs = some (s', es') → es' = [] ∧ s' = s := by
  have h : (run dbg init exHang).map (fun r => (r.2.drop 13, r.1.pp, r.1.cp)) =
      some ([.threw 1, .prim (.answer 1 71), .prim (.got 2 1 71), .prim .done], .w 0, .rcv 1 (some 0)) := by
    cases dbg <;> decide +kernel
  have h' : (run dbg init exHang).map (fun r => (r.1.sh.parent, r.1.dead, r.1.reps)) = some (0, false, []) := by
    cases dbg <;> decide +kernel
  rcases hr : run dbg init exHang with _ | ⟨s, es⟩
  · simp [hr] at h
  · simp only [hr, Option.map_some, Option.some.injEq, Prod.mk.injEq] at h h'
    obtain ⟨h1, h2, h3⟩ := h
    obtain ⟨h4, h5, h6⟩ := h'
    exact ⟨s, es, rfl, h1, fun bs s' es' hc hb => dead_run bs ⟨⟨_, h2⟩, h4, h5, ⟨_, _, h3⟩, h6⟩ hc hb⟩

/-- The hypotheses of `load_throw_hangs` hold when the handler of a callback of the loader throws, and call 10 is made again. -/
example (dbg : Bool) : ∃ as s es s1 es1 bs s2 es2, Token.Spec.CoopRun dbg init as ∧ Token.run dbg init as = some (s, es) ∧
    s.sh.loaded = false ∧ step dbg s (.raise 1) = some (s1, es1) ∧ Token.Spec.CoopRun dbg s1 bs ∧
    Token.run dbg s1 bs = some (s2, es2) ∧ s2.pp = .l2 10 := by
  let as : List Token.Act := [.call 10, .parent, .ask, .parent, .child, .parent, .parent, .child, .child, .child, .parent, .parent]
  let bs : List Token.Act := [.call 10, .parent, .parent]
  have h : (Token.run dbg init as).map (fun r => (r.1.sh.loaded, (step dbg r.1 (.raise 1)).map fun q =>
      (Token.coopCheck dbg q.1 bs, (Token.run dbg q.1 bs).map (·.1.pp)))) = some (false, some (true, some (.l2 10))) := by
    cases dbg <;> decide +kernel
  rcases hr : Token.run dbg init as with _ | ⟨s, es⟩
  · simp [hr] at h
  · simp only [hr, Option.map_some, Option.some.injEq, Prod.mk.injEq, Option.map_eq_some_iff] at h
    obtain ⟨h1, ⟨s1, es1⟩, h2, h3, ⟨s2, es2⟩, h4, h5⟩ := h
    exact ⟨as, s, es, s1, es1, bs, s2, es2, Token.coopRun_of_check _ (by cases dbg <;> decide +kernel), hr, h1, h2,
      Token.coopRun_of_check _ h3, h4, h5⟩

end Verif.Throw
