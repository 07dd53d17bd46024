import Verif.Token.Props

/-!
# The call protocol when the sandbox crashes or is hostile (properties C31 and C32)
-/

namespace Verif.Token
open Spec

/-! ## Crash -/

theorem startHandler_kill (s : St) (f : From) (p : PPc) :
    startHandler (kill s) f p = (kill (startHandler s f p).1, (startHandler s f p).2) := by
  unfold startHandler kill
  dsimp only
  cases s.reqs <;> rfl

theorem wakeChild_kill (s : St) (p : PPc) : wakeChild (kill s) p = kill (wakeChild s p) := by
  unfold wakeChild kill
  dsimp only
  split <;> rfl

theorem parentStep_kill (dbg : Bool) (s : St) :
    parentStep dbg (kill s) = (parentStep dbg s).map fun r => (kill r.1, r.2) := by
  obtain ⟨sh, reqs, reps, next, dead, ps, pp, cs, cp⟩ := s
  cases pp <;> simp only [parentStep, startHandler_kill, wakeChild_kill] <;>
    simp only [kill, Option.map_some, Option.map_none] <;>
    grind

/-- After the death of a loaded sandbox the host's state is one that it could have reached with a
living sandbox that does nothing, until an exception is raised or the sandbox is destroyed. -/
def DeadInv (s : St) : Prop :=
  (∃ s0 σ, Inv s0 σ ∧ s0.sh.loaded = true ∧ s = kill s0) ∨ (s.dead = true ∧ s.pp = .gone)

theorem replay_no_raised {st st' : List Item} (es : List Ev) (h : replay st es = some st') :
    Ev.raised ∉ es := by
  induction es generalizing st with
  | nil => simp
  | cons e es ih =>
    simp only [replay] at h
    rcases hp : push st e with _ | s1
    · simp [hp] at h
    · simp only [hp] at h
      intro hm
      rcases List.mem_cons.1 hm with rfl | hm
      · unfold push at hp
        split at hp <;> grind
      · exact ih h hm

theorem Inv.alive {s : St} {σ : List Item} (h : Inv s σ) : s.dead = false := by
  cases h <;> rfl

theorem dead_step {dbg : Bool} {s s' : St} {a : Act} {es : List Ev} (hI : DeadInv s)
    (h : step dbg s a = some (s', es)) :
    (es = [.raised] ∧ s'.pp = .user ∧ s'.ps = []) ∨ (DeadInv s' ∧ .raised ∉ es) := by
  rcases hI with ⟨s0, σ, hI, hl, rfl⟩ | ⟨hd, hg⟩
  · have hcoop : ∀ b s1 es1, Coop s0 b → step dbg s0 b = some (s1, es1) →
        DeadInv (kill s1) ∧ Ev.raised ∉ es1 := by
      intro b s1 es1 hb h1
      obtain ⟨σ1, hr1, hI1⟩ := inv_step hI hb h1
      exact ⟨Or.inl ⟨s1, σ1, hI1, (rank_step hI hl hb h1).1, rfl⟩, replay_no_raised _ hr1⟩
    cases a with
    | parent =>
      simp only [step, parentStep_kill] at h
      rcases h1 : parentStep dbg s0 with _ | ⟨s1, es1⟩
      · simp [h1] at h
      · simp [h1] at h
        obtain ⟨rfl, rfl⟩ := h
        exact Or.inr (hcoop .parent s1 es1 trivial h1)
    | call x =>
      simp only [step] at h
      by_cases hu : s0.pp = .user
      · simp [kill, hu] at h
        obtain ⟨rfl, rfl⟩ := h
        exact Or.inr (hcoop (.call x) { s0 with pp := .s0 x } [] (Or.inl hl) (by simp [step, hu]))
      · simp [kill, hu] at h
    | finish v =>
      rcases hp : s0.ps with _ | ⟨⟨f, id⟩, ps⟩
      · simp [step, kill, hp] at h
      · by_cases hu : s0.pp = .user
        · have h1 := hcoop (.finish v) _ _ trivial (by simp only [step, hu, hp]; rfl)
          simp only [step, kill, hp, hu, Option.some.injEq, Prod.mk.injEq] at h
          obtain ⟨rfl, rfl⟩ := h
          exact Or.inr h1
        · have : (kill s0).pp ≠ .user := hu
          simp only [step] at h
          split at h
          · simp_all
          · cases h
    | destroy =>
      simp only [step] at h
      split at h
      · simp [kill] at h
        obtain ⟨rfl, rfl⟩ := h
        exact Or.inr ⟨Or.inr ⟨rfl, rfl⟩, by simp⟩
      · cases h
    | timeout =>
      simp only [step] at h
      split at h
      · simp [kill] at h
        obtain ⟨rfl, rfl⟩ := h
        exact Or.inl ⟨rfl, rfl, rfl⟩
      · cases h
    | child => simp [step, kill] at h
    | ask =>
      simp only [step, kill] at h
      split at h <;> simp at h
    | ret =>
      simp only [step, kill] at h
      split at h <;> simp at h
    | childTimeout =>
      simp only [step, kill] at h
      split at h <;> simp at h
    | crash =>
      simp [step] at h
      obtain ⟨rfl, rfl⟩ := h
      exact Or.inr ⟨Or.inl ⟨s0, σ, hI, hl, rfl⟩, by simp⟩
    | write sh => simp [step, kill] at h
    | inject id => simp [step, kill] at h
  · right
    cases a <;> simp [step, parentStep, hd, hg] at h
    case ret => split at h <;> simp at h
    case ask => split at h <;> simp at h
    case childTimeout => split at h <;> simp at h
    case crash =>
      obtain ⟨rfl, rfl⟩ := h
      exact ⟨Or.inr ⟨rfl, rfl⟩, by simp⟩

theorem dead_run {dbg : Bool} (bs : List Act) {s s' : St} {es : List Ev} (hI : DeadInv s)
    (h : run dbg s bs = some (s', es)) (hr : .raised ∉ es) : DeadInv s' := by
  induction bs generalizing s es with
  | nil => simp [run] at h; obtain ⟨rfl, rfl⟩ := h; exact hI
  | cons a as ih =>
    simp only [run] at h
    rcases h1 : step dbg s a with _ | ⟨s1, es1⟩
    · simp [h1] at h
    · simp only [h1] at h
      rcases h2 : run dbg s1 as with _ | ⟨s2, es2⟩
      · simp [h2] at h
      · simp only [h2, Option.some.injEq, Prod.mk.injEq] at h
        obtain ⟨rfl, rfl⟩ := h
        simp only [List.mem_append, not_or] at hr
        rcases dead_step hI h1 with ⟨rfl, -⟩ | ⟨hI1, -⟩
        · exact absurd (by simp) hr.1
        · exact ih hI1 h2 hr.2

theorem DeadInv.safe {s : St} (h : DeadInv s) : s.pp ≠ .aborted := by
  rcases h with ⟨s0, σ, hI, hl, rfl⟩ | ⟨-, hg⟩
  · inv_cases hI <;> simp [kill]
  · simp [hg]

theorem DeadInv.moves {s : St} (dbg : Bool) (h : DeadInv s) :
    s.pp = .user ∨ s.pp = .gone ∨ (step dbg s .parent).isSome ∨
      ∃ s', step dbg s .timeout = some (s', [.raised]) ∧ s'.pp = .user ∧ s'.ps = [] := by
  rcases h with ⟨s0, σ, hI, hl, rfl⟩ | ⟨-, hg⟩
  · inv_cases hI <;> simp [kill, step, parentStep] at hl ⊢ <;> split <;> simp
  · exact Or.inr (Or.inl hg)

/-- **C31** (a crash is reported), in part.  Let a loaded sandbox die at any point of any co-operative
run.  As long as no exception has been raised since, the host is never aborted, and unless it runs its
own code (the call has returned) or has destroyed the sandbox, it can take its next step, or its timed
wait raises the exception, which ends all calls in progress.

Missing, because false: that later calls raise as well (`later_call_aborts`), and that the first call
raises if the sandbox dies while it loads (`loading_crash_hangs`). -/
theorem crash_reported_partial (dbg : Bool) (as : List Act) (s : St) (es : List Ev)
    (hc : CoopRun dbg init as) (h : run dbg init as = some (s, es)) (hl : s.sh.loaded = true)
    (bs : List Act) (s' : St) (es' : List Ev) (hb : run dbg (kill s) bs = some (s', es'))
    (hr : .raised ∉ es') :
    s'.pp ≠ .aborted ∧
      (s'.pp = .user ∨ s'.pp = .gone ∨ (step dbg s' .parent).isSome ∨
        ∃ s'', step dbg s' .timeout = some (s'', [.raised]) ∧ s''.pp = .user ∧ s''.ps = []) := by
  obtain ⟨σ, -, hI⟩ := inv_run as inv_init hc h
  have hd : DeadInv s' := dead_run bs (Or.inl ⟨s, σ, hI, hl, rfl⟩) hb hr
  exact ⟨hd.safe, hd.moves dbg⟩

/-- Bound on the host's steps after the sandbox has died. -/
def rankD (s : St) : Nat := if s.pp = .gone then 0 else rank s

theorem rank_kill (s : St) : rank (kill s) = rank s := rfl

theorem dead_rank {dbg : Bool} {s s' : St} {a : Act} {es : List Ev} (hI : DeadInv s)
    (h : step dbg s a = some (s', es)) (hr : .raised ∉ es) :
    work [a] + rankD s' ≤ rankD s + 24 * choices [a] := by
  rcases hI with ⟨s0, σ, hI, hl, rfl⟩ | ⟨hd, hg⟩
  · have hcoop : ∀ b s1 es1, Coop s0 b → step dbg s0 b = some (s1, es1) → s0.pp ≠ .gone →
        work [b] + rankD (kill s1) ≤ rankD (kill s0) + 24 * choices [b] := by
      intro b s1 es1 hb h1 hn
      have h2 := (rank_step hI hl hb h1).2
      have h3 : rankD (kill s1) ≤ rank s1 := by
        unfold rankD
        split
        · omega
        · rw [rank_kill]; exact Nat.le_refl _
      have h4 : rankD (kill s0) = rank s0 := by
        unfold rankD
        rw [if_neg (by exact hn), rank_kill]
      omega
    cases a with
    | parent =>
      simp only [step, parentStep_kill] at h
      rcases h1 : parentStep dbg s0 with _ | ⟨s1, es1⟩
      · simp [h1] at h
      · simp [h1] at h
        obtain ⟨rfl, rfl⟩ := h
        refine hcoop .parent s1 es1 trivial h1 ?_
        intro hg
        simp [parentStep, hg] at h1
    | call x =>
      simp only [step] at h
      by_cases hu : s0.pp = .user
      · simp [kill, hu] at h
        obtain ⟨rfl, rfl⟩ := h
        exact hcoop (.call x) { s0 with pp := .s0 x } [] (Or.inl hl) (by simp [step, hu])
          (by simp [hu])
      · simp [kill, hu] at h
    | finish v =>
      rcases hp : s0.ps with _ | ⟨⟨f, id⟩, ps⟩
      · simp [step, kill, hp] at h
      · by_cases hu : s0.pp = .user
        · have h1 := hcoop (.finish v) _ _ trivial (by simp only [step, hu, hp]; rfl) (by simp [hu])
          simp only [step, kill, hp, hu, Option.some.injEq, Prod.mk.injEq] at h
          obtain ⟨rfl, rfl⟩ := h
          exact h1
        · have : (kill s0).pp ≠ .user := hu
          simp only [step] at h
          split at h
          · simp_all
          · cases h
    | destroy =>
      simp only [step] at h
      split at h
      · simp [kill] at h
        obtain ⟨rfl, rfl⟩ := h
        simp [rankD, work, choices]
      · cases h
    | timeout =>
      simp only [step] at h
      split at h
      · simp [kill] at h
        obtain ⟨rfl, rfl⟩ := h
        simp at hr
      · cases h
    | child => simp [step, kill] at h
    | ask =>
      simp only [step, kill] at h
      split at h <;> simp at h
    | ret =>
      simp only [step, kill] at h
      split at h <;> simp at h
    | childTimeout =>
      simp only [step, kill] at h
      split at h <;> simp at h
    | crash =>
      simp [step] at h
      obtain ⟨rfl, rfl⟩ := h
      simp only [work, choices]
      exact Nat.le_of_eq (Nat.zero_add _)
    | write sh => simp [step, kill] at h
    | inject id => simp [step, kill] at h
  · cases a <;> simp [step, parentStep, hd, hg] at h
    case ret => split at h <;> simp at h
    case ask => split at h <;> simp at h
    case childTimeout => split at h <;> simp at h
    case crash =>
      obtain ⟨rfl, rfl⟩ := h
      simp [work, choices, rankD, hg]

/-- **C31** (no endless wait), in part: see `crash_reported_partial` for what is missing.  After the
death of a loaded sandbox, the number of steps of the host before the exception is bounded in terms of
the new calls that it makes: the host does not hang. -/
theorem crash_bounded_partial (dbg : Bool) (as : List Act) (s : St) (es : List Ev)
    (hc : CoopRun dbg init as) (h : run dbg init as = some (s, es)) (hl : s.sh.loaded = true) :
    ∃ B, ∀ bs s' es', run dbg (kill s) bs = some (s', es') → .raised ∉ es' →
      work bs ≤ B + 24 * choices bs := by
  obtain ⟨σ, -, hI⟩ := inv_run as inv_init hc h
  have hD : DeadInv (kill s) := Or.inl ⟨s, σ, hI, hl, rfl⟩
  refine ⟨rankD (kill s), ?_⟩
  generalize kill s = t at hD
  suffices hs : ∀ bs t s' es', DeadInv t → run dbg t bs = some (s', es') → Ev.raised ∉ es' →
      work bs + rankD s' ≤ rankD t + 24 * choices bs by
    intro bs s' es' hb hr
    have := hs bs t s' es' hD hb hr
    omega
  intro bs
  induction bs with
  | nil => intro t s' es' _ h _; simp [run] at h; obtain ⟨rfl, rfl⟩ := h; simp [work, choices]
  | cons a as ih =>
    intro t s' es' hD h hr
    simp only [run] at h
    rcases h1 : step dbg t a with _ | ⟨s1, es1⟩
    · simp [h1] at h
    · simp only [h1] at h
      rcases h2 : run dbg s1 as with _ | ⟨s2, es2⟩
      · simp [h2] at h
      · simp only [h2, Option.some.injEq, Prod.mk.injEq] at h
        obtain ⟨rfl, rfl⟩ := h
        simp only [List.mem_append, not_or] at hr
        have hk := dead_rank hD h1 hr.1
        rcases dead_step hD h1 with ⟨rfl, -⟩ | ⟨hI1, -⟩
        · exact absurd (by simp) hr.1
        · have := ih _ _ _ hI1 h2 hr.2
          cases a <;> simp only [work, choices] at hk ⊢ <;> omega

/-- The actions of a call up to its wait. -/
def callActs (x : Nat) : List Act := .call x :: List.replicate 6 .parent

/-- The sandbox loads, and function 5 is called and starts. -/
def startActs : List Act :=
  [.ret, .child, .child] ++ callActs 5 ++ [.child, .child, .child]

/-- **C31** (violation).  A function crashes.  The call in progress raises an exception, but the calls
after it abort the host: the next one if assertions are compiled in, otherwise the one after that,
because nobody takes the semaphore that the next one sets. -/
theorem later_call_aborts (dbg : Bool) :
    ∃ s es, CoopRun dbg init startActs ∧ run dbg init startActs = some (s, es) ∧
      ∃ k s1 es1, run dbg (kill s) (.timeout :: k) = some (s1, .raised :: es1) ∧ s1.pp = .aborted ∧
        (∀ a ∈ k, a = .parent ∨ a = .timeout ∨ ∃ x, a = .call x) := by
  cases dbg
  · refine ⟨_, _, ?_, rfl, callActs 6 ++ [.timeout] ++ callActs 7, _, _, rfl, rfl, ?_⟩
    · simp [CoopRun, startActs, callActs, Coop, step, parentStep, childStep, wakeChild, init]
    · simp [callActs]
  · refine ⟨_, _, ?_, rfl, (callActs 6).take 5, _, _, rfl, rfl, ?_⟩
    · simp [CoopRun, startActs, callActs, Coop, step, parentStep, childStep, wakeChild, init]
    · simp [callActs]

/-- Places of the host before the end of loading. -/
inductive LoadPc : PPc → Prop
  | user : LoadPc .user
  | s0 (x) : LoadPc (.s0 x)
  | l1 (x) : LoadPc (.l1 x)
  | l2 (x) : LoadPc (.l2 x)
  | l3 (x) : LoadPc (.l3 x)
  | l4 (x) : LoadPc (.l4 x)
  | l5 (x) : LoadPc (.l5 x)
  | l6 (x) : LoadPc (.l6 x)
  | gone : LoadPc .gone
  | aborted : LoadPc .aborted

/-- The sandbox died before it had loaded. -/
structure LoadDead (s : St) : Prop where
  dead : s.dead = true
  unloaded : s.sh.loaded = false
  pc : LoadPc s.pp
  frames : ∀ f id, (f, id) ∈ s.ps → ∃ x, f = .load x

theorem startHandler_load {s : St} (h : LoadDead s) (x : Nat) :
    LoadDead (startHandler s (.load x) (.l4 x)).1 ∧
      Ev.leave ∉ (startHandler s (.load x) (.l4 x)).2 ∧
      Ev.raised ∉ (startHandler s (.load x) (.l4 x)).2 := by
  unfold startHandler
  split
  · exact ⟨⟨h.dead, h.unloaded, .l4 x, h.frames⟩, by simp, by simp⟩
  · refine ⟨⟨h.dead, h.unloaded, .user, ?_⟩, by simp, by simp⟩
    intro f id hm
    rcases List.mem_cons.1 hm with hm | hm
    · cases hm; exact ⟨x, rfl⟩
    · exact h.frames _ _ hm

theorem loadDead_step {dbg : Bool} {s s' : St} {a : Act} {es : List Ev} (hI : LoadDead s)
    (h : step dbg s a = some (s', es)) : LoadDead s' ∧ .leave ∉ es ∧ .raised ∉ es := by
  obtain ⟨hd, hu, hpc, hf⟩ := id hI
  cases a with
  | parent =>
    cases hp : s.pp
    all_goals first
      | (rw [hp] at hpc; cases hpc; done)
      | skip
    all_goals simp [step, parentStep, hp, hu] at h
    · obtain ⟨rfl, rfl⟩ := h
      exact ⟨⟨hd, by first | exact hu | rfl, .l1 _, hf⟩, by simp, by simp⟩
    · obtain ⟨rfl, rfl⟩ := h
      refine ⟨⟨hd, by first | exact hu | rfl, ?_, hf⟩, by simp, by simp⟩
      dsimp only
      split
      · exact .l2 _
      · exact .s0 _
    · obtain ⟨-, h⟩ := h
      split at h
      · obtain ⟨rfl, rfl⟩ := by simpa using h
        exact ⟨⟨hd, by first | exact hu | rfl, .aborted, hf⟩, by simp, by simp⟩
      · obtain ⟨rfl, rfl⟩ := by simpa using h
        exact ⟨⟨hd, by first | exact hu | rfl, .l3 _, hf⟩, by simp, by simp⟩
    · have := startHandler_load hI ‹Nat›
      rw [h] at this
      exact this
    · obtain ⟨rfl, rfl⟩ := h
      exact ⟨⟨hd, by first | exact hu | rfl, .l5 _, hf⟩, by simp, by simp⟩
    · obtain ⟨rfl, rfl⟩ := h
      exact ⟨⟨hd, by first | exact hu | rfl, .l6 _, hf⟩, by simp, by simp⟩
    · obtain ⟨rfl, rfl⟩ := h
      unfold wakeChild
      split
      · exact ⟨⟨hd, hu, .s0 _, hf⟩, by simp, by simp⟩
      · exact ⟨⟨hd, hu, .aborted, hf⟩, by simp, by simp⟩
  | call x =>
    simp only [step] at h
    split at h <;> simp at h
    obtain ⟨rfl, rfl⟩ := h
    exact ⟨⟨hd, hu, .s0 x, hf⟩, by simp, by simp⟩
  | finish v =>
    simp only [step] at h
    split at h
    · rename_i f id ps hp hps
      simp at h
      obtain ⟨rfl, rfl⟩ := h
      obtain ⟨x, rfl⟩ := hf f id (by simp [hps])
      refine ⟨⟨hd, hu, .l4 x, fun g i hm => hf g i (by simp [hps, hm])⟩, by simp, by simp⟩
    · cases h
  | destroy =>
    simp only [step] at h
    split at h <;> simp [hd] at h
    obtain ⟨rfl, rfl⟩ := h
    exact ⟨⟨rfl, hu, .gone, hf⟩, by simp, by simp⟩
  | timeout =>
    simp only [step] at h
    split at h
    · rename_i hp
      rw [hp] at hpc
      cases hpc
    · cases h
  | crash =>
    simp [step] at h
    obtain ⟨rfl, rfl⟩ := h
    exact ⟨⟨rfl, hu, hpc, hf⟩, by simp, by simp⟩
  | ret =>
    simp only [step, hd] at h
    split at h <;> simp at h
  | ask =>
    simp only [step, hd] at h
    split at h <;> simp at h
  | childTimeout =>
    simp only [step, hd] at h
    split at h <;> simp at h
  | _ => simp [step, hd] at h

/-- **C31** (violation).  If the sandbox dies before it has loaded, no call ever returns or raises an
exception, whatever the host does: the loading loop does not look at the state of the process. -/
theorem loading_crash_hangs (dbg : Bool) (as : List Act) (s : St) (es : List Ev)
    (hc : CoopRun dbg init as) (h : run dbg init as = some (s, es)) (hl : s.sh.loaded = false)
    (bs : List Act) (s' : St) (es' : List Ev) (hb : run dbg (kill s) bs = some (s', es')) :
    .leave ∉ es' ∧ .raised ∉ es' := by
  obtain ⟨σ, -, hI⟩ := inv_run as inv_init hc h
  have hD : LoadDead (kill s) := by
    inv_cases hI <;> first
      | (cases hl; done)
      | (refine ⟨rfl, rfl, by constructor, ?_⟩
         simp [kill]
         try (intro f id h1 h2; exact ⟨_, h1⟩))
  generalize kill s = t at hD hb
  clear h hc hI
  induction bs generalizing t es' with
  | nil => simp [run] at hb; obtain ⟨rfl, rfl⟩ := hb; simp
  | cons a as ih =>
    simp only [run] at hb
    rcases h1 : step dbg t a with _ | ⟨s1, es1⟩
    · simp [h1] at hb
    · simp only [h1] at hb
      rcases h2 : run dbg s1 as with _ | ⟨s2, es2⟩
      · simp [h2] at hb
      · simp only [h2, Option.some.injEq, Prod.mk.injEq] at hb
        obtain ⟨rfl, rfl⟩ := hb
        obtain ⟨hI1, hn1, hn2⟩ := loadDead_step hD h1
        obtain ⟨hn3, hn4⟩ := ih _ _ hI1 h2
        simp [hn1, hn2, hn3, hn4]

/-- **C29** (violation outside its hypothesis).  A handler that runs while the sandbox is loading and
calls into the sandbox deadlocks: the host waits for the parent's semaphore and the sandbox for the
child's, and neither side, nor any return, can continue. -/
theorem loading_call_deadlocks (dbg : Bool) :
    ∃ as s es, run dbg init as = some (s, es) ∧ (∀ a ∈ as, a ≠ .crash ∧ ∀ sh, a ≠ .write sh) ∧
      (∃ x, s.pp = .l2 x) ∧ Parked 1 s.cp ∧ s.sh.child = 0 ∧ s.sh.parent = 0 ∧
      step dbg s .parent = none ∧ step dbg s .child = none ∧ step dbg s .ret = none ∧
      step dbg s .ask = none ∧ (∀ v, step dbg s (.finish v) = none) ∧
      (∀ x, step dbg s (.call x) = none) := by
  cases dbg <;>
  exact ⟨[.ask, .child, .child, .child, .child, .call 3, .parent, .parent, .parent, .parent, .call 4,
    .parent, .parent], _, _, rfl, by simp, ⟨4, rfl⟩, .r1, rfl, rfl, rfl, rfl, rfl, rfl,
    fun _ => rfl, fun _ => rfl⟩

/-! ## Hostile sandbox -/

/-- **C32** (violation).  A sandbox that signals its own semaphore while a function runs and then makes
a callback aborts the host: with or without assertions. -/
theorem hostile_aborts_host (dbg : Bool) :
    ∃ as s es, run dbg init as = some (s, es) ∧ s.pp = .aborted ∧ s.dead = false := by
  cases dbg <;>
  exact ⟨startActs ++ [.ask, .child, .child, .child, .write ⟨1, 1, 1, false, true, false, none⟩,
    .parent, .parent, .parent, .finish 0, .parent, .parent, .parent], _, _, rfl, rfl, rfl⟩

/-- **C32** (where it aborts).  Without assertions, the only steps that abort the host, whatever the
sandbox writes, are signals of a child semaphore that is already set. -/
theorem abort_cause (s s' : St) (a : Act) (es : List Ev) (h : step false s a = some (s', es))
    (hs : s.pp ≠ .aborted) (ha : s'.pp = .aborted) :
    a = .parent ∧ s.sh.child ≠ 0 ∧
      ((∃ x, s.pp = .l6 x) ∨ (∃ d, s.pp = .a5 d) ∨ (∃ d, s.pp = .h5 d) ∨ s.pp = .d4) := by
  cases a with
  | parent =>
    refine ⟨rfl, ?_⟩
    cases hp : s.pp <;> simp only [step, parentStep, hp, startHandler, wakeChild] at h <;> grind
  | child =>
    simp only [step, childStep, wakeParent] at h
    grind
  | _ => simp only [step] at h; grind

/-- The host's stack as its own control state tells it. -/
def hstack : List (From × Nat) → List HItem
  | [] => []
  | (.send _, id) :: ps => .serving id :: .call :: hstack ps
  | (.load _, id) :: ps => .serving id :: hstack ps

/-- The host is in a call, after the loading loop. -/
def inCall : PPc → Bool
  | .a3 _ | .a4 _ | .a5 _ | .w _ | .c1 _ | .h1 _ | .h3 _ | .h4 _ | .h5 _ => true
  | _ => false

/-- The host's whole stack. -/
def hall (s : St) : List HItem := if inCall s.pp then .call :: hstack s.ps else hstack s.ps

theorem hstep {dbg : Bool} {s s' : St} {a : Act} {es : List Ev} (h : step dbg s a = some (s', es))
    (hs : s.pp ≠ .aborted) :
    ∃ st, hreplay (hall s) es = some st ∧ (s'.pp = .aborted ∨ st = hall s') := by
  obtain ⟨sh, reqs, reps, next, dead, ps, pp, cs, cp⟩ := s
  cases a with
  | parent =>
    cases pp <;> simp only [step, parentStep, startHandler, wakeChild] at h <;>
      grind [hall, inCall, hstack, hreplay, hpush]
  | child =>
    simp only [step] at h
    split at h
    · cases h
    · cases cp <;> simp only [childStep, wakeParent] at h <;>
        grind [hall, inCall, hstack, hreplay, hpush]
  | finish v =>
    simp only [step] at h
    split at h
    · rename_i f id ps' hp hps
      cases f <;> grind [hall, inCall, hstack, hreplay, hpush]
    · cases h
  | _ =>
    simp only [step] at h
    grind [hall, inCall, hstack, hreplay, hpush]

theorem hreplay_append {st st1 : List HItem} (es es' : List Ev) (h : hreplay st es = some st1) :
    hreplay st (es ++ es') = hreplay st1 es' := by
  induction es generalizing st with
  | nil => simp [hreplay] at h; subst h; rfl
  | cons e es ih =>
    simp only [hreplay, List.cons_append] at h ⊢
    rcases hp : hpush st e with _ | s1
    · simp [hp] at h
    · simp only [hp] at h ⊢
      exact ih h

/-- A step that leaves an aborted host aborted. -/
theorem aborted_step {dbg : Bool} {s s' : St} {a : Act} {es : List Ev} (h : step dbg s a = some (s', es))
    (hs : s.pp = .aborted) : s'.pp = .aborted ∧ ∀ st, hreplay st es = some st := by
  obtain ⟨sh, reqs, reps, next, dead, ps, pp, cs, cp⟩ := s
  subst hs
  cases a with
  | parent => simp [step, parentStep] at h
  | child =>
    simp only [step] at h
    split at h
    · cases h
    · cases cp <;> simp only [childStep, wakeParent] at h <;> grind [hreplay, hpush]
  | _ =>
    simp only [step] at h
    grind [hreplay, hpush]

theorem hrun {dbg : Bool} (as : List Act) {s s' : St} {es : List Ev} {st : List HItem}
    (h : run dbg s as = some (s', es)) (hst : s.pp = .aborted ∨ st = hall s) :
    ∃ st', hreplay st es = some st' ∧ (s'.pp = .aborted ∨ st' = hall s') := by
  induction as generalizing s es st with
  | nil => simp [run] at h; obtain ⟨rfl, rfl⟩ := h; exact ⟨st, rfl, hst⟩
  | cons a as ih =>
    simp only [run] at h
    rcases h1 : step dbg s a with _ | ⟨s1, es1⟩
    · simp [h1] at h
    · simp only [h1] at h
      rcases h2 : run dbg s1 as with _ | ⟨s2, es2⟩
      · simp [h2] at h
      · simp only [h2, Option.some.injEq, Prod.mk.injEq] at h
        obtain ⟨rfl, rfl⟩ := h
        by_cases hs : s.pp = .aborted
        · obtain ⟨ha, hr⟩ := aborted_step h1 hs
          obtain ⟨st', h3, h4⟩ := ih h2 (st := st) (Or.inl ha)
          exact ⟨st', by rw [hreplay_append _ _ (hr st), h3], h4⟩
        · obtain rfl := hst.resolve_left hs
          obtain ⟨st1, hr, hst1⟩ := hstep h1 hs
          obtain ⟨st', h3, h4⟩ := ih h2 hst1
          exact ⟨st', by rw [hreplay_append _ _ hr, h3], h4⟩

/-- **C32** (a hostile sandbox cannot confuse the host's nesting), in part.  Whatever the sandbox writes
to the header and to the socket, and whenever it dies, the host's own events nest properly: a call
returns only to its own caller, a handler's answer is for the request that started it.

Missing, because false: that the host does not abort (`hostile_aborts_host`). -/
theorem host_nesting_partial (dbg : Bool) (as : List Act) (s : St) (es : List Ev)
    (h : run dbg init as = some (s, es)) : ∃ st, hreplay [] es = some st := by
  obtain ⟨st, hr, -⟩ := hrun as (st := []) h (Or.inr rfl)
  exact ⟨st, hr⟩

/-- The hypotheses of `crash_reported_partial` and `crash_bounded_partial` hold when the sandbox dies
while it runs a function called from a handler, and the host then waits. -/
example (dbg : Bool) : ∃ as s es, CoopRun dbg init as ∧ run dbg init as = some (s, es) ∧
    s.sh.loaded = true ∧ s.ps.length = 1 ∧ (∃ d, s.pp = .w d) := by
  let as := exLoad ++ exEnter ++ exAsk ++ .call 11 :: exEnter
  have h : (run dbg init as).map (fun r => (r.1.sh.loaded, r.1.ps.length, r.1.pp)) =
      some (true, 1, .w 1) := by cases dbg <;> decide +kernel
  rcases hr : run dbg init as with _ | ⟨s, es⟩
  · simp [hr] at h
  · simp [hr] at h
    exact ⟨as, s, es, coopRun_of_check _ (by cases dbg <;> decide +kernel), hr, h.1, h.2.1, 1, h.2.2⟩

/-- The hypotheses of `loading_crash_hangs` hold when the sandbox dies in a callback made while loading. -/
example (dbg : Bool) : ∃ as s es, CoopRun dbg init as ∧ run dbg init as = some (s, es) ∧
    s.sh.loaded = false ∧ s.ps.length = 1 := by
  let as := exLoad.take 12
  have h : (run dbg init as).map (fun r => (r.1.sh.loaded, r.1.ps.length)) =
      some (false, 1) := by cases dbg <;> decide +kernel
  rcases hr : run dbg init as with _ | ⟨s, es⟩
  · simp [hr] at h
  · simp [hr] at h
    exact ⟨as, s, es, coopRun_of_check _ (by cases dbg <;> decide +kernel), hr, h⟩

end Verif.Token
