import Verif.Token.Lemmas

/-!
# The call protocol (properties C29 to C32)
-/

namespace Verif.Token
open Spec

theorem inv_run {dbg : Bool} (as : List Act) {s s' : St} {es : List Ev} {σ : List Item}
    (hI : Inv s σ) (hc : CoopRun dbg s as) (h : run dbg s as = some (s', es)) :
    ∃ σ', replay σ es = some σ' ∧ Inv s' σ' := by
  induction as generalizing s σ es with
  | nil => simp [run] at h; obtain ⟨rfl, rfl⟩ := h; exact ⟨σ, rfl, hI⟩
  | cons a as ih =>
    simp only [run] at h
    rcases h1 : step dbg s a with _ | ⟨s1, es1⟩
    · simp [h1] at h
    · simp only [h1] at h
      rcases h2 : run dbg s1 as with _ | ⟨s2, es2⟩
      · simp [h2] at h
      · simp only [h2, Option.some.injEq, Prod.mk.injEq] at h
        obtain ⟨rfl, rfl⟩ := h
        obtain ⟨σ1, hr1, hI1⟩ := inv_step hI hc.1 h1
        obtain ⟨σ2, hr2, hI2⟩ := ih hI1 (hc.2 _ _ h1) h2
        refine ⟨σ2, ?_, hI2⟩
        clear h1 h2 hI hI1 hI2 ih
        induction es1 generalizing σ with
        | nil => simp [replay] at hr1; subst hr1; exact hr2
        | cons e es1 ih =>
          simp only [replay, List.cons_append] at hr1 ⊢
          rcases hp : push σ e with _ | σ'
          · simp [hp] at hr1
          · simp only [hp] at hr1 ⊢
            exact ih hr1

/-- Splits an instance of the invariant into single program counters. -/
macro "inv_cases" h:ident : tactic => `(tactic| (
    cases $h:ident <;>
    (try cases ‹Free2 _›) <;> (try cases ‹Free _›) <;> (try cases ‹Ready _ _›) <;>
    (try cases ‹Parked _ _›) <;> (try cases ‹Ending _›) <;> (try cases ‹Closing _›) <;>
    (try cases ‹Closed _›)))

/-- **C29** (control passes like a call stack).  In every run of a host and a sandbox that co-operate,
however calls and callbacks nest and however the two processes are scheduled: neither process aborts
(so no semaphore is ever signalled while set, and no assertion fails, in either build), and the events
form a call stack: each function starts only for its call, each call returns to its caller only after
its function has returned, each callback is handled and answered before the sandbox continues. -/
theorem control_stack (dbg : Bool) (as : List Act) (s : St) (es : List Ev)
    (hc : CoopRun dbg init as) (h : run dbg init as = some (s, es)) :
    NoAbort s ∧ ∃ σ, replay [.loading] es = some σ := by
  obtain ⟨σ, hr, hI⟩ := inv_run as inv_init hc h
  refine ⟨?_, σ, hr⟩
  inv_cases hI <;> simp [NoAbort]

/-- **C29** (one token).  At most one of the two semaphores is set, and each is 0 or 1. -/
theorem token_unique (dbg : Bool) (as : List Act) (s : St) (es : List Ev)
    (hc : CoopRun dbg init as) (h : run dbg init as = some (s, es)) :
    s.sh.child + s.sh.parent ≤ 1 := by
  obtain ⟨σ, -, hI⟩ := inv_run as inv_init hc h
  inv_cases hI <;> simp

/-- **C29** (one side runs).  At any time the host waits for the sandbox (in a call, in the loading
loop, for its exit, or because it has not made its first call yet), or the sandbox waits for the host
with its semaphore clear, or has ended. -/
theorem one_side_runs (dbg : Bool) (as : List Act) (s : St) (es : List Ev)
    (hc : CoopRun dbg init as) (h : run dbg init as = some (s, es)) : HostWaits s ∨ SandboxWaits s := by
  obtain ⟨σ, -, hI⟩ := inv_run as inv_init hc h
  inv_cases hI <;> simp [HostWaits, SandboxWaits] <;>
    first | exact ⟨_, .r0⟩ | exact ⟨_, .r1⟩

/-- **C29** (depth restored).  Whenever the host runs its own code, be it the outermost caller or a
callback handler, the callback depth in the header is the number of callbacks it is handling: a call
returns with the depth it found. -/
theorem depth_restored (dbg : Bool) (as : List Act) (s : St) (es : List Ev)
    (hc : CoopRun dbg init as) (h : run dbg init as = some (s, es)) (hu : s.pp = .user)
    (hl : s.sh.loaded = true ∨ s.ps ≠ []) : s.sh.depth = (s.ps.length : Int) := by
  obtain ⟨σ, -, hI⟩ := inv_run as inv_init hc h
  inv_cases hI <;> simp at hu hl ⊢ <;> exact Base.depth ‹_›

/-- **C29** (idle at the end).  When no call is in progress and the sandbox has loaded, the sandbox
waits for the next call, both semaphores are clear, the depth is zero, no message or reply is pending,
and the control stack is empty. -/
theorem idle_between_calls (dbg : Bool) (as : List Act) (s : St) (es : List Ev)
    (hc : CoopRun dbg init as) (h : run dbg init as = some (s, es)) (hu : s.pp = .user)
    (hp : s.ps = []) (hl : s.sh.loaded = true) :
    Idle s ∧ replay [.loading] es = some [] := by
  obtain ⟨σ, hr, hI⟩ := inv_run as inv_init hc h
  rw [hr]
  inv_cases hI <;> simp at hu hl hp ⊢ <;> subst hp <;> cases ‹Base _ _ _ _› <;>
    simp [Idle] <;> first | exact .r0 | exact .r1

/-- **C29** (no deadlock).  Unless the host runs its own code or the sandbox has been destroyed, some
side can take a step that is not mere polling: a step of the protocol, or the function running in the
sandbox can return. -/
theorem no_deadlock (dbg : Bool) (as : List Act) (s : St) (es : List Ev)
    (hc : CoopRun dbg init as) (h : run dbg init as = some (s, es)) :
    s.pp = .user ∨ (s.pp = .gone ∧ s.cp = .exited) ∨
      ∃ a, (a = .parent ∨ a = .child ∨ a = .ret) ∧ (step dbg s a).isSome ∧
        ¬ (a = .parent ∧ Polling s) := by
  obtain ⟨σ, -, hI⟩ := inv_run as inv_init hc h
  exact inv_live dbg hI

theorem rank_run {dbg : Bool} (bs : List Act) {s s' : St} {es : List Ev} {σ : List Item}
    (hI : Inv s σ) (hl : s.sh.loaded = true) (hc : CoopRun dbg s bs)
    (h : run dbg s bs = some (s', es)) : work bs + rank s' ≤ rank s + 24 * choices bs := by
  induction bs generalizing s σ es with
  | nil => simp [run] at h; obtain ⟨rfl, rfl⟩ := h; simp [work, choices]
  | cons a as ih =>
    simp only [run] at h
    rcases h1 : step dbg s a with _ | ⟨s1, es1⟩
    · simp [h1] at h
    · simp only [h1] at h
      rcases h2 : run dbg s1 as with _ | ⟨s2, es2⟩
      · simp [h2] at h
      · simp only [h2, Option.some.injEq, Prod.mk.injEq] at h
        obtain ⟨rfl, rfl⟩ := h
        obtain ⟨σ1, hr1, hI1⟩ := inv_step hI hc.1 h1
        obtain ⟨hl1, hk⟩ := rank_step hI hl hc.1 h1
        have := ih hI1 hl1 (hc.2 _ _ h1) h2
        cases a <;> simp only [work, choices] at hk ⊢ <;> omega

/-- **C29** (calls return).  Once the sandbox has loaded, the number of steps that the two sides can
take, including the returns of functions and handlers, is bounded in terms of the number of calls and
callbacks they make: with a finite nesting, under every schedule, all calls return. -/
theorem calls_terminate (dbg : Bool) (as : List Act) (s : St) (es : List Ev)
    (hc : CoopRun dbg init as) (h : run dbg init as = some (s, es)) (hl : s.sh.loaded = true) :
    ∃ B, ∀ bs s' es', CoopRun dbg s bs → run dbg s bs = some (s', es') →
      work bs ≤ B + 24 * choices bs := by
  obtain ⟨σ, -, hI⟩ := inv_run as inv_init hc h
  refine ⟨rank s, fun bs s' es' hcb hb => ?_⟩
  have := rank_run bs hI hl hcb hb
  omega

/-! ## Each callback receives its own reply -/

theorem push_answered {st st' : List Item} {e : Ev} {id v : Nat} (h : push st e = some st')
    (hm : Item.answered id v ∈ st') : Item.answered id v ∈ st ∨ e = .answer id v := by
  unfold push at h
  split at h <;> grind

theorem replay_got {st st' : List Item} (pre : List Ev) {post : List Ev} {id id' v : Nat}
    (h : replay st (pre ++ .got id id' v :: post) = some st') :
    id' = id ∧ (Item.answered id v ∈ st ∨ .answer id v ∈ pre) := by
  induction pre generalizing st with
  | nil =>
    simp only [List.nil_append, replay] at h
    rcases hp : push st (.got id id' v) with _ | s1
    · simp [hp] at h
    · unfold push at hp
      split at hp <;> grind
  | cons e pre ih =>
    simp only [List.cons_append, replay] at h
    rcases hp : push st e with _ | s1
    · simp [hp] at h
    · simp only [hp] at h
      obtain ⟨h1, h2⟩ := ih h
      refine ⟨h1, ?_⟩
      rcases h2 with h2 | h2
      · rcases push_answered hp h2 with h3 | h3
        · exact Or.inl h3
        · exact Or.inr (by simp [h3])
      · exact Or.inr (List.mem_cons_of_mem _ h2)

/-- **C30** (own reply).  In every run of a host and a sandbox that co-operate, the reply that a
callback reads was made for its own request, and its value is the one the host's handler gave as its
answer to that request earlier. -/
theorem own_reply (dbg : Bool) (as : List Act) (s : St) (pre post : List Ev) (id id' v : Nat)
    (hc : CoopRun dbg init as) (h : run dbg init as = some (s, pre ++ .got id id' v :: post)) :
    id' = id ∧ .answer id v ∈ pre := by
  obtain ⟨σ, hr, -⟩ := inv_run as inv_init hc h
  obtain ⟨h1, h2⟩ := replay_got pre hr
  exact ⟨h1, by simpa using h2⟩

/-- The number of a callback request. -/
def askOf : Ev → Option Nat
  | .ask id => some id
  | _ => none

theorem startHandler_asks (s : St) (f : From) (p : PPc) :
    (startHandler s f p).2.filterMap askOf = [] ∧ (startHandler s f p).1.next = s.next := by
  unfold startHandler
  split <;> simp [askOf]

theorem wakeChild_next (s : St) (p : PPc) : (wakeChild s p).next = s.next := by
  unfold wakeChild; split <;> rfl

theorem wakeParent_next (s : St) (c : CPc) : (wakeParent s c).next = s.next := by
  unfold wakeParent; split <;> rfl

theorem parentStep_asks {dbg : Bool} {s s' : St} {es : List Ev} (h : parentStep dbg s = some (s', es)) :
    es.filterMap askOf = [] ∧ s'.next = s.next := by
  unfold parentStep at h
  split at h <;> (try split at h) <;> (try split at h) <;>
    simp only [Option.some.injEq, Prod.mk.injEq, reduceCtorEq] at h <;>
    first
    | (obtain ⟨rfl, rfl⟩ := h; simp [askOf, wakeChild_next]; done)
    | (have h1 := startHandler_asks s (.load ‹Nat›) (.l4 ‹Nat›)
       rw [h] at h1; exact h1)
    | (have h1 := startHandler_asks s (.send ‹Int›) (.h3 ‹Int›)
       rw [h] at h1; exact h1)

theorem childStep_asks {dbg : Bool} {s s' : St} {es : List Ev} (h : childStep dbg s = some (s', es)) :
    es.filterMap askOf = [] ∧ s'.next = s.next := by
  unfold childStep at h
  split at h <;> (try split at h) <;> (try split at h) <;>
    simp only [Option.some.injEq, Prod.mk.injEq, reduceCtorEq] at h <;>
    (obtain ⟨rfl, rfl⟩ := h; simp [askOf, wakeParent_next])

theorem step_asks {dbg : Bool} {s s' : St} {a : Act} {es : List Ev} (h : step dbg s a = some (s', es)) :
    es.filterMap askOf = List.range' s.next (s'.next - s.next) ∧ s.next ≤ s'.next := by
  cases a <;> simp only [step] at h
  case parent => have := parentStep_asks h; simp [this]
  case child =>
    split at h
    · simp at h
    · have := childStep_asks h; simp [this]
  all_goals
    (try split at h) <;> (try split at h) <;>
    simp only [Option.some.injEq, Prod.mk.injEq, reduceCtorEq] at h <;>
    (obtain ⟨rfl, rfl⟩ := h; simp [askOf])

theorem run_asks {dbg : Bool} (as : List Act) {s s' : St} {es : List Ev}
    (h : run dbg s as = some (s', es)) :
    es.filterMap askOf = List.range' s.next (s'.next - s.next) ∧ s.next ≤ s'.next := by
  induction as generalizing s es with
  | nil => simp [run] at h; obtain ⟨rfl, rfl⟩ := h; simp
  | cons a as ih =>
    simp only [run] at h
    rcases h1 : step dbg s a with _ | ⟨s1, es1⟩
    · simp [h1] at h
    · simp only [h1] at h
      rcases h2 : run dbg s1 as with _ | ⟨s2, es2⟩
      · simp [h2] at h
      · simp only [h2, Option.some.injEq, Prod.mk.injEq] at h
        obtain ⟨rfl, rfl⟩ := h
        obtain ⟨e1, l1⟩ := step_asks h1
        obtain ⟨e2, l2⟩ := ih h2
        refine ⟨?_, by omega⟩
        rw [List.filterMap_append, e1, e2]
        have : s2.next - s.next = (s1.next - s.next) + (s2.next - s1.next) := by omega
        rw [this, ← List.range'_append_1]
        congr 2
        omega

/-- **C30** (requests are told apart).  No two callbacks of a run have the same number, so that
`own_reply` identifies the request. -/
theorem requests_distinct (dbg : Bool) (as : List Act) (s : St) (es : List Ev)
    (h : run dbg init as = some (s, es)) : (es.filterMap askOf).Nodup := by
  rw [(run_asks as h).1]
  exact List.nodup_range'

/-! ## A concrete run

The loader makes a callback (number 0, answered 70) while the host polls, and finishes.  Call 10 runs a
function that makes callback 1; its handler makes call 11, which makes callback 2 (answered 72) and
returns; callback 1 is answered 71; call 10 returns. -/

/-- The loading phase. -/
def exLoad : List Act :=
  [.call 10, .parent, .ask, .parent, .child, .parent, .parent, .child, .child, .child, .parent, .parent,
   .finish 70, .parent, .parent, .parent] ++ List.replicate 5 .child ++ [.ret, .child, .child]

/-- From the loading loop (or from the handler's call) to the start of the function. -/
def exEnter : List Act := List.replicate 6 .parent ++ List.replicate 3 .child

/-- A callback, up to the start of its handler. -/
def exAsk : List Act := .ask :: List.replicate 4 .child ++ List.replicate 3 .parent

/-- The answer to a callback, up to the continuation of the function. -/
def exAnswer (v : Nat) : List Act := .finish v :: List.replicate 3 .parent ++ List.replicate 5 .child

/-- The return of a function, up to the continuation of its caller. -/
def exReturn : List Act := .ret :: List.replicate 4 .child ++ List.replicate 2 .parent

/-- The whole run. -/
def exRun : List Act :=
  exLoad ++ exEnter ++ exAsk ++ .call 11 :: exEnter ++ exAsk ++ exAnswer 72 ++ exReturn ++ exAnswer 71 ++
    exReturn

/-- The run is possible, in both builds, and ends idle. -/
theorem exRun_runs (dbg : Bool) :
    (run dbg init exRun).map (·.2) = some
      [.ask 0, .serve 0, .answer 0 70, .got 0 0 70, .loaded,
       .enter 10, .begin 10, .ask 1, .serve 1,
         .enter 11, .begin 11, .ask 2, .serve 2, .answer 2 72, .got 2 2 72, .done, .leave,
       .answer 1 71, .got 1 1 71, .done, .leave] ∧
    (run dbg init exRun).map (·.1.pp) = some .user := by
  cases dbg <;> decide +kernel

/-- Decides whether all actions of a run are co-operative. -/
def coopCheck (dbg : Bool) (s : St) : List Act → Bool
  | [] => true
  | a :: as => decide (Coop s a) && match step dbg s a with
    | none => true
    | some (s', _) => coopCheck dbg s' as

theorem coopRun_of_check {dbg : Bool} (as : List Act) {s : St} (h : coopCheck dbg s as = true) :
    CoopRun dbg s as := by
  induction as generalizing s with
  | nil => trivial
  | cons a as ih =>
    simp only [coopCheck, Bool.and_eq_true, decide_eq_true_eq] at h
    refine ⟨h.1, fun s' es hs => ?_⟩
    rw [hs] at h
    exact ih h.2

theorem exRun_coop (dbg : Bool) : CoopRun dbg init exRun :=
  coopRun_of_check _ (by cases dbg <;> decide +kernel)

/-- The hypotheses of `control_stack`, `token_unique`, `one_side_runs`, `no_deadlock`, `depth_restored`,
`idle_between_calls` and `calls_terminate` hold of the run above. -/
example (dbg : Bool) : ∃ s es, CoopRun dbg init exRun ∧ run dbg init exRun = some (s, es) ∧
    s.pp = .user ∧ s.ps = [] ∧ s.sh.loaded = true := by
  have h : (run dbg init exRun).map (fun r => (r.1.pp, r.1.ps, r.1.sh.loaded)) =
      some (.user, [], true) := by cases dbg <;> decide +kernel
  rcases hr : run dbg init exRun with _ | ⟨s, es⟩
  · simp [hr] at h
  · simp [hr] at h
    exact ⟨s, es, exRun_coop dbg, rfl, h⟩

/-- The hypotheses of `depth_restored` hold inside a nested handler (depth 2). -/
example (dbg : Bool) : ∃ as s es, CoopRun dbg init as ∧ run dbg init as = some (s, es) ∧
    s.pp = .user ∧ s.ps.length = 2 ∧ s.sh.depth = 2 := by
  let as := exLoad ++ exEnter ++ exAsk ++ .call 11 :: exEnter ++ exAsk
  have h : (run dbg init as).map (fun r => (r.1.pp, r.1.ps.length, r.1.sh.depth)) =
      some (.user, 2, 2) := by cases dbg <;> decide +kernel
  rcases hr : run dbg init as with _ | ⟨s, es⟩
  · simp [hr] at h
  · simp [hr] at h
    exact ⟨as, s, es, coopRun_of_check _ (by cases dbg <;> decide +kernel), hr, h⟩

/-- The hypotheses of `own_reply` hold for the inner callback of the run above. -/
example (dbg : Bool) : ∃ s pre post, CoopRun dbg init exRun ∧
    run dbg init exRun = some (s, pre ++ .got 2 2 72 :: post) := by
  have h := (exRun_runs dbg).1
  rcases hr : run dbg init exRun with _ | ⟨s, es⟩
  · simp [hr] at h
  · simp [hr] at h
    subst h
    exact ⟨s, [.ask 0, .serve 0, .answer 0 70, .got 0 0 70, .loaded, .enter 10, .begin 10, .ask 1,
      .serve 1, .enter 11, .begin 11, .ask 2, .serve 2, .answer 2 72], _, exRun_coop dbg, rfl⟩

end Verif.Token
