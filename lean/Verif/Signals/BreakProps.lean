import Verif.Signals.Props

/-!
# Signal handlers of the sandboxed library: places that are not quiet (property C107)
-/

namespace Verif.Signals

open Verif.Token Verif.Token.Spec Spec

/-- Requests and replies under way have been numbered. -/
def Fresh (s : St) : Prop :=
  (∀ id ∈ s.reqs, id < s.next) ∧ (∀ r ∈ s.reps, r.1 < s.next) ∧ ∀ p ∈ s.ps, p.2 < s.next

private theorem fresh_parent {dbg : Bool} {s s' : St} {es : List Ev} (hf : Fresh s)
    (h : parentStep dbg s = some (s', es)) : Fresh s' := by
  obtain ⟨sh, reqs, reps, nx, dead, ps, pp, cs, cp⟩ := s
  simp only [Fresh] at hf
  cases pp <;> simp only [parentStep, startHandler, wakeChild] at h <;> (try split at h) <;> (try split at h) <;>
    (try contradiction) <;> simp only [Option.some.injEq, Prod.mk.injEq] at h <;> obtain ⟨rfl, rfl⟩ := h <;>
    first
    | exact hf
    | (simp only [Fresh]; grind)

private theorem fresh_child {dbg : Bool} {s s' : St} {es : List Ev} (hf : Fresh s)
    (h : childStep dbg s = some (s', es)) : Fresh s' := by
  obtain ⟨sh, reqs, reps, nx, dead, ps, pp, cs, cp⟩ := s
  simp only [Fresh] at hf
  cases cp <;> simp only [childStep, wakeParent] at h <;> (try split at h) <;> (try split at h) <;>
    (try contradiction) <;> simp only [Option.some.injEq, Prod.mk.injEq] at h <;> obtain ⟨rfl, rfl⟩ := h <;>
    first
    | exact hf
    | (simp only [Fresh]; grind)

private theorem fresh_step {dbg : Bool} {s s' : St} {a : Act} {es : List Ev} (hc : Coop s a) (hf : Fresh s)
    (h : step dbg s a = some (s', es)) : Fresh s' := by
  cases a
  case parent => exact fresh_parent hf h
  case child =>
    simp only [step] at h
    split at h
    · contradiction
    · exact fresh_child hf h
  case crash => exact absurd hc (by simp [Coop])
  case write => exact absurd hc (by simp [Coop])
  case inject => exact absurd hc (by simp [Coop])
  case finish v =>
    simp only [step] at h
    split at h
    · rename_i f id ps hp hps
      simp only [Option.some.injEq, Prod.mk.injEq] at h
      obtain ⟨rfl, rfl⟩ := h
      obtain ⟨h1, h2, h3⟩ := hf
      rw [hps] at h3
      refine ⟨h1, fun r hr => ?_, fun p hp => h3 p (by simp [hp])⟩
      rcases List.mem_append.1 hr with hr | hr
      · exact h2 r hr
      · simp only [List.mem_singleton] at hr
        subst hr
        exact h3 (f, id) (by simp)
    · contradiction
  all_goals
    obtain ⟨sh, reqs, reps, nx, dead, ps, pp, cs, cp⟩ := s
    simp only [Fresh] at hf
    simp only [step] at h
    (try split at h) <;> (try split at h) <;> (try contradiction) <;>
    simp only [Option.some.injEq, Prod.mk.injEq] at h <;> (try contradiction) <;> obtain ⟨rfl, rfl⟩ := h <;>
    first
    | exact hf
    | (simp only [Fresh]; grind)

theorem fresh_run {dbg : Bool} (as : List Act) {s s' : St} {es : List Ev} (hc : CoopRun dbg s as) (hf : Fresh s)
    (h : run dbg s as = some (s', es)) : Fresh s' := by
  induction as generalizing s es with
  | nil => simp [run] at h; obtain ⟨rfl, rfl⟩ := h; exact hf
  | cons a as ih =>
    simp only [run] at h
    rcases h1 : step dbg s a with _ | ⟨s1, es1⟩
    · simp [h1] at h
    · simp only [h1] at h
      rcases h2 : run dbg s1 as with _ | ⟨s2, es2⟩
      · simp [h2] at h
      · simp only [h2, Option.some.injEq, Prod.mk.injEq] at h
        obtain ⟨rfl, rfl⟩ := h
        exact ih (hc.2 _ _ h1) (fresh_step hc.1 hf h1) h2

/-- A callback of the handler, up to the sandbox's sleep. -/
def asks : List SAct := [.base .ask, .base .child, .base .child, .base .child]

/-- The host takes the signal and serves a request. -/
def serves : List SAct := [.base .parent, .base .parent, .base .parent, .base (.finish 5), .base .parent,
  .base .parent, .base .parent]

/-- Steps of the host. -/
def host : Nat → List SAct
  | 0 => []
  | k + 1 => .base .parent :: host k

/-- Steps of the sandbox. -/
def sandbox : Nat → List SAct
  | 0 => []
  | k + 1 => .base .child :: sandbox k

/-- The outcome of a run, if it is possible. -/
def ends (P : SSt → List Ev → Prop) : Option (SSt × List Ev) → Prop
  | none => False
  | some (s, es) => P s es

theorem ends_some {P : SSt → List Ev → Prop} {r : Option (SSt × List Ev)} (h : ends P r) :
    ∃ s es, r = some (s, es) ∧ P s es := by
  rcases r with _ | ⟨s, es⟩
  · exact h.elim
  · exact ⟨s, es, rfl, h⟩

theorem lt_succ_succ (n : Int) : (n < n + 1 + 1) = True := eq_true (by omega)

/-- Runs the actions given from a known configuration. -/
macro "sig_run" : tactic => `(tactic| (
  simp [ends, asks, serves, host, sandbox, srun, sstep, entry, inBody, step, childStep, parentStep, wakeParent, wakeChild,
      startHandler, signals, lt_succ_true, eq_succ_false, lt_succ_succ]))

/-- **C107**, negative part.  Wherever the sandbox waits for the host (to be called, or for a reply), a signal whose handler
makes one system call can make the host abort: the host wakes the sandbox twice, because the sandbox has not yet noticed the
first time. -/
theorem waiting_aborts_host (dbg : Bool) (as : List Act) (s : St) (es : List Ev) (hc : CoopRun dbg init as)
    (h : run dbg init as = some (s, es)) (hu : InUse s) (hw : Waits s) :
    ∃ bs s' es', signals bs = 0 ∧ srun dbg ⟨s, []⟩ (.signal :: bs) = some (s', es') ∧ s'.st.pp = .aborted := by
  obtain ⟨σ, -, hI⟩ := inv_run as inv_init hc h
  suffices ∃ bs, signals bs = 0 ∧ ends (fun s' _ => s'.st.pp = .aborted) (srun dbg ⟨s, []⟩ (.signal :: bs)) by
    obtain ⟨bs, h1, h2⟩ := this
    obtain ⟨s', es', h3, h4⟩ := ends_some h2
    exact ⟨bs, s', es', h1, h3, h4⟩
  obtain ⟨h1, h2, h3⟩ := hu
  clear h
  cases hI <;> simp at h1 h2 h3
  case late hc =>
    refine ⟨host 7 ++ asks ++ serves, rfl, ?_⟩
    cases hc <;> sig_run
  case ready hp hc hb =>
    cases hp
    · refine ⟨.base (.call 0) :: host 6 ++ asks ++ serves, rfl, ?_⟩
      cases hc <;> sig_run
    · refine ⟨host 6 ++ asks ++ serves, rfl, ?_⟩
      cases hc <;> sig_run
    · refine ⟨host 5 ++ asks ++ serves, rfl, ?_⟩
      cases hc <;> sig_run
    · refine ⟨host 4 ++ asks ++ serves, rfl, ?_⟩
      cases hc <;> sig_run
  case a3 hb hc =>
    refine ⟨host 3 ++ asks ++ serves, rfl, ?_⟩
    cases hc <;> sig_run
  case a4 hb hc =>
    refine ⟨host 2 ++ asks ++ serves, rfl, ?_⟩
    cases hc <;> sig_run
  case a5 hb hc =>
    refine ⟨host 1 ++ asks ++ serves, rfl, ?_⟩
    cases hc <;> sig_run
  case called hb hc =>
    refine ⟨host 0 ++ asks ++ serves, rfl, ?_⟩
    cases hc <;> sig_run
  case finished hb hc =>
    refine ⟨host 2 ++ .base (.call 0) :: host 6 ++ asks ++ serves, rfl, ?_⟩
    cases hc <;> sig_run
  case fc1 hb hc =>
    refine ⟨host 1 ++ .base (.call 0) :: host 6 ++ asks ++ serves, rfl, ?_⟩
    cases hc <;> sig_run
  case asked hb hc =>
    refine ⟨serves ++ asks ++ serves, rfl, ?_⟩
    cases hc <;> sig_run
  case kc1 hb hc =>
    refine ⟨host 2 ++ .base (.finish 5) :: host 3 ++ asks ++ serves, rfl, ?_⟩
    cases hc <;> sig_run
  case kh1 hb hc =>
    refine ⟨host 1 ++ .base (.finish 5) :: host 3 ++ asks ++ serves, rfl, ?_⟩
    cases hc <;> sig_run
  case kh3 hb hc =>
    refine ⟨host 3 ++ asks ++ serves, rfl, ?_⟩
    cases hc <;> sig_run
  case kh4 hb hc =>
    refine ⟨host 2 ++ asks ++ serves, rfl, ?_⟩
    cases hc <;> sig_run
  case kh5 hb hc =>
    refine ⟨host 1 ++ asks ++ serves, rfl, ?_⟩
    cases hc <;> sig_run
  case answered hb hc =>
    refine ⟨host 0 ++ asks ++ serves, rfl, ?_⟩
    cases hc <;> sig_run
  all_goals first | contradiction | simp [Waits] at hw

/-- **C107**, negative part.  Wherever the sandbox has begun a callback, or is about to take the reply to one, a signal whose
handler makes one system call can get the reply to the callback that it interrupted. -/
theorem reply_swapped (dbg : Bool) (as : List Act) (s : St) (es : List Ev) (hc : CoopRun dbg init as)
    (h : run dbg init as = some (s, es)) (hu : InUse s) (hk : InCallback s) :
    ∃ bs s' es', signals bs = 0 ∧ srun dbg ⟨s, []⟩ (.signal :: bs) = some (s', es') ∧
      ∃ id v, .got s.next id v ∈ es' ∧ id < s.next := by
  obtain ⟨σ, -, hI⟩ := inv_run as inv_init hc h
  have hf : Fresh s := fresh_run as hc (by simp [Fresh, init]) h
  suffices ∃ bs, signals bs = 0 ∧ ends (fun _ es' => ∃ id v, .got s.next id v ∈ es' ∧ id < s.next)
      (srun dbg ⟨s, []⟩ (.signal :: bs)) by
    obtain ⟨bs, h1, h2⟩ := this
    obtain ⟨s', es', h3, h4⟩ := ends_some h2
    exact ⟨bs, s', es', h1, h3, h4⟩
  obtain ⟨h1, h2, h3⟩ := hu
  clear h
  refine ⟨asks ++ serves ++ sandbox 6, rfl, ?_⟩
  cases hI <;> simp at h1 h2 h3
  case k2 => simp [Fresh] at hf; sig_run; exact hf.1
  case k3 => simp [Fresh] at hf; sig_run; exact hf.1
  case k4 => simp [Fresh] at hf; sig_run; exact hf.1
  case gr2 => simp [Fresh] at hf; sig_run; exact hf.1
  case gr3 => simp [Fresh] at hf; sig_run; exact hf.1
  case gr4 => simp [Fresh] at hf; sig_run; exact hf.1
  case grcv => simp [Fresh] at hf; sig_run; exact hf.1
  all_goals (exfalso; (try cases ‹Parked _ _›) <;> simp [InCallback] at hk <;> omega)

/-- **C107**, negative part.  Where the sandbox has taken the signal to run and not yet looked what is called, the function
that the host has called runs inside the handler. -/
theorem begins_in_handler (dbg : Bool) (as : List Act) (s : St) (es : List Ev) (hc : CoopRun dbg init as)
    (h : run dbg init as = some (s, es)) (hu : InUse s) (hk : Woken s) :
    ∃ bs s' es', signals bs = 0 ∧ srun dbg ⟨s, []⟩ (.signal :: bs) = some (s', es') ∧
      s'.frames ≠ [] ∧ ∃ x, s.sh.msg = some x ∧ .begin x ∈ es' ∧ .enter x ∉ es' := by
  obtain ⟨σ, -, hI⟩ := inv_run as inv_init hc h
  suffices ∃ bs, signals bs = 0 ∧ ends (fun s' es' => s'.frames ≠ [] ∧ ∃ x, s.sh.msg = some x ∧ .begin x ∈ es' ∧
      .enter x ∉ es') (srun dbg ⟨s, []⟩ (.signal :: bs)) by
    obtain ⟨bs, h1, h2⟩ := this
    obtain ⟨s', es', h3, h4⟩ := ends_some h2
    exact ⟨bs, s', es', h1, h3, h4⟩
  obtain ⟨h1, h2, h3⟩ := hu
  clear h
  refine ⟨asks ++ serves ++ sandbox 4, rfl, ?_⟩
  cases hI <;> simp at h1 h2 h3
  case cr2 => sig_run
  all_goals (exfalso; (try cases ‹Parked _ _›) <;> simp [Woken] at hk <;> omega)

/-- **C107**, negative part.  Where the sandbox is about to tell the host that a function has returned, and a signal's handler
makes a system call, the host finds at its next call that the sandbox seems to be running: a build with assertions
aborts. -/
theorem reporting_aborts_debug (as : List Act) (s : St) (es : List Ev) (hc : CoopRun true init as)
    (h : run true init as = some (s, es)) (hu : InUse s) (hk : Reports s) :
    ∃ bs s' es', signals bs = 0 ∧ srun true ⟨s, []⟩ (.signal :: bs) = some (s', es') ∧ s'.st.pp = .aborted := by
  obtain ⟨σ, -, hI⟩ := inv_run as inv_init hc h
  suffices ∃ bs, signals bs = 0 ∧ ends (fun s' _ => s'.st.pp = .aborted) (srun true ⟨s, []⟩ (.signal :: bs)) by
    obtain ⟨bs, h1, h2⟩ := this
    obtain ⟨s', es', h3, h4⟩ := ends_some h2
    exact ⟨bs, s', es', h1, h3, h4⟩
  obtain ⟨h1, h2, h3⟩ := hu
  clear h
  refine ⟨asks ++ serves ++ sandbox 6 ++ .sigret :: sandbox 1 ++ host 2 ++ .base (.call 0) :: host 4, rfl, ?_⟩
  cases hI <;> simp at h1 h2 h3
  case fr6 => sig_run
  all_goals (exfalso; (try cases ‹Parked _ _›) <;> simp [Reports] at hk)

/-- The places of a sandbox in use. -/
theorem places {s : St} {σ : List Item} (hI : Inv s σ) (hu : InUse s) :
    Quiet s ∨ Waits s ∨ InCallback s ∨ Woken s ∨ Reports s := by
  obtain ⟨h1, h2, h3⟩ := hu
  cases hI <;> simp at h1 h2 h3 <;> (try cases ‹Parked _ _›) <;>
    simp [Quiet, Waits, InCallback, Woken, Reports] <;> omega

/-- **C107**, negative part.  No other place is harmless: whenever the sandbox is in use and not at a quiet place, one signal
whose handler makes a system call can abort a process, swap replies, or run a function of the library inside the handler.
(Build with assertions.) -/
theorem only_quiet (as : List Act) (s : St) (es : List Ev) (hc : CoopRun true init as)
    (h : run true init as = some (s, es)) (hu : InUse s) (hq : ¬ Quiet s) :
    ∃ bs s' es', signals bs = 0 ∧ srun true ⟨s, []⟩ (.signal :: bs) = some (s', es') ∧ Broken s' es' := by
  obtain ⟨σ, -, hI⟩ := inv_run as inv_init hc h
  rcases places hI hu with hp | hp | hp | hp | hp
  · exact absurd hp hq
  · obtain ⟨bs, s', es', h1, h2, h3⟩ := waiting_aborts_host true as s es hc h hu hp
    exact ⟨bs, s', es', h1, h2, .abort (fun hn => hn.1 h3)⟩
  · obtain ⟨bs, s', es', h1, h2, id, v, h3, h4⟩ := reply_swapped true as s es hc h hu hp
    exact ⟨bs, s', es', h1, h2, .reply (fun hn => by have := hn _ _ _ h3; omega)⟩
  · obtain ⟨bs, s', es', h1, h2, h3, x, -, h4, h5⟩ := begins_in_handler true as s es hc h hu hp
    exact ⟨bs, s', es', h1, h2, .inside x h3 h4 h5⟩
  · obtain ⟨bs, s', es', h1, h2, h3⟩ := reporting_aborts_debug as s es hc h hu hp
    exact ⟨bs, s', es', h1, h2, .abort (fun hn => hn.1 h3)⟩

/-! ## Concrete cases -/

/-- Loading, and a call, up to the start of the function. -/
private def calling : List Act := exLoad ++ exEnter

/-- Up to the host's handler of a callback. -/
private def servingRun : List Act := calling ++ exAsk

/-- Up to the middle of a callback. -/
private def askingRun : List Act := calling ++ [.ask, .child]

/-- Up to the sandbox's awakening for a call. -/
private def wokenRun : List Act := exLoad ++ List.replicate 6 .parent ++ [.child]

/-- Up to the report of a return. -/
private def reportRun : List Act := calling ++ .ret :: List.replicate 2 .child

/-- Evaluates a run. -/
theorem reaches {P : St → Prop} [DecidablePred P] {dbg : Bool} {as : List Act}
    (h : (match run dbg init as with | some (s, _) => coopCheck dbg init as && decide (P s) | none => false) = true) :
    ∃ s es, CoopRun dbg init as ∧ run dbg init as = some (s, es) ∧ P s := by
  rcases hr : run dbg init as with _ | ⟨s, es⟩
  · simp [hr] at h
  · simp only [hr, Bool.and_eq_true, decide_eq_true_eq] at h
    exact ⟨s, es, coopRun_of_check as h.1, rfl, h.2⟩

/-- The hypotheses of `waiting_aborts_host` and `only_quiet` hold while the host handles a callback. -/
example (dbg : Bool) : ∃ s es, CoopRun dbg init servingRun ∧ run dbg init servingRun = some (s, es) ∧
    (InUse s ∧ Waits s ∧ ¬ Quiet s) ∧ s.ps ≠ [] := by
  obtain ⟨s, es, h1, h2, h3⟩ := reaches (dbg := dbg) (as := servingRun)
    (P := fun s => (s.sh.loaded = true ∧ s.sh.shouldExit = false ∧ s.pp ≠ .d1) ∧ s.cp = .r1 1 ∧ s.ps ≠ [])
    (by cases dbg <;> decide +kernel)
  exact ⟨s, es, h1, h2, ⟨h3.1, by simp [Waits, h3.2.1], by simp [Quiet, h3.2.1]⟩, h3.2.2⟩

/-- The hypotheses of `reply_swapped` hold in the middle of a callback. -/
example (dbg : Bool) : ∃ s es, CoopRun dbg init askingRun ∧ run dbg init askingRun = some (s, es) ∧
    InUse s ∧ InCallback s := by
  obtain ⟨s, es, h1, h2, h3⟩ := reaches (dbg := dbg) (as := askingRun)
    (P := fun s => (s.sh.loaded = true ∧ s.sh.shouldExit = false ∧ s.pp ≠ .d1) ∧ s.cp = .k3 1 (some 0) 1)
    (by cases dbg <;> decide +kernel)
  exact ⟨s, es, h1, h2, h3.1, by simp [InCallback, h3.2]⟩

/-- The hypotheses of `begins_in_handler` hold. -/
example (dbg : Bool) : ∃ s es, CoopRun dbg init wokenRun ∧ run dbg init wokenRun = some (s, es) ∧
    InUse s ∧ Woken s := by
  obtain ⟨s, es, h1, h2, h3⟩ := reaches (dbg := dbg) (as := wokenRun)
    (P := fun s => (s.sh.loaded = true ∧ s.sh.shouldExit = false ∧ s.pp ≠ .d1) ∧ s.cp = .r2 0 ∧ s.sh.depth = 0)
    (by cases dbg <;> decide +kernel)
  exact ⟨s, es, h1, h2, h3.1, by simp [Woken, h3.2]⟩

/-- The hypotheses of `reporting_aborts_debug` hold. -/
example : ∃ s es, CoopRun true init reportRun ∧ run true init reportRun = some (s, es) ∧
    InUse s ∧ Reports s := by
  obtain ⟨s, es, h1, h2, h3⟩ := reaches (dbg := true) (as := reportRun)
    (P := fun s => (s.sh.loaded = true ∧ s.sh.shouldExit = false ∧ s.pp ≠ .d1) ∧ s.cp = .r6 0)
    (by decide +kernel)
  exact ⟨s, es, h1, h2, h3.1, by simp [Reports, h3.2]⟩

/-- Decides whether a run is as `handlers_safe_partial` asks. -/
private def quietCheck (dbg : Bool) (s : SSt) : List SAct → Bool
  | [] => true
  | a :: as => (match a with
      | .base b => decide (Coop s.st b)
      | .signal => !s.st.sh.shouldExit && match s.st.cp with
        | .run _ => true
        | .r3 _ (some _) => true
        | .r4 n | .r5 n => s.st.sh.depth == n
        | _ => false
      | .sigret => true) && match sstep dbg s a with
    | none => true
    | some (s', _) => quietCheck dbg s' as

private theorem quietRun_of_check {dbg : Bool} (as : List SAct) {s : SSt} (h : quietCheck dbg s as = true) :
    QuietRun dbg s as := by
  induction as generalizing s with
  | nil => trivial
  | cons a as ih =>
    simp only [quietCheck, Bool.and_eq_true] at h
    refine ⟨?_, fun s' es hs => ?_⟩
    · cases a with
      | base b => simpa using h.1
      | signal =>
        simp only [Bool.and_eq_true, Bool.not_eq_true'] at h
        refine ⟨h.1.1, ?_⟩
        have h2 := h.1.2
        split at h2 <;> simp_all
      | sigret => trivial
    · have h2 := h.2
      rw [hs] at h2
      exact ih h2

/-- A signal while loading, whose handler makes a callback; a signal before the function starts; a second one inside the first
one's handler, which makes a callback whose handler calls a function, which is interrupted in turn; a signal after
the function has returned. -/
private def sigRun : List SAct :=
  let b : List Act → List SAct := List.map .base
  b [.call 10, .parent] ++ .signal :: b [.ask, .parent, .child, .parent, .parent, .child, .child, .child, .parent, .parent,
   .finish 70, .parent, .parent, .parent] ++ b (List.replicate 5 .child) ++ .sigret :: b [.ret, .child, .child] ++
  b (List.replicate 6 .parent ++ List.replicate 2 .child) ++ .signal :: .signal :: b exAsk ++ b (.call 11 :: exEnter) ++
  .signal :: b (exAsk ++ exAnswer 72) ++ .sigret :: b (exReturn ++ exAnswer 71) ++ [.sigret, .sigret] ++
  b [.child, .ret] ++ .signal :: b (exAsk ++ exAnswer 73) ++ .sigret :: b (List.replicate 4 .child ++ List.replicate 2 .parent)

/-- The hypotheses of `handlers_safe_partial` hold of it. -/
example (dbg : Bool) : QuietRun dbg start sigRun ∧ ∃ s es, srun dbg start sigRun = some (s, es) ∧
    s.frames = [] ∧ .got 2 2 72 ∈ es := by
  refine ⟨quietRun_of_check _ (by cases dbg <;> decide +kernel), ?_⟩
  have h : (srun dbg start sigRun).map (fun r => (r.1.frames, decide (Ev.got 2 2 72 ∈ r.2))) = some ([], true) := by
    cases dbg <;> decide +kernel
  rcases hr : srun dbg start sigRun with _ | ⟨s, es⟩
  · simp [hr] at h
  · simp [hr] at h
    exact ⟨s, es, rfl, h⟩

/-- A signal can arrive wherever the sandbox is (also while it loads the library), as long as neither process has ended; and
a handler that does nothing changes nothing. -/
theorem signal_anywhere (dbg : Bool) (s : SSt) (hd : s.st.dead = false) (h1 : s.st.cp ≠ .exited) (h2 : s.st.cp ≠ .aborted) :
    ∃ t, sstep dbg s .signal = some (t, []) ∧ (∃ e, t.st.cp = .run e) ∧ sstep dbg t .sigret = some (s, []) := by
  obtain ⟨⟨sh, reqs, reps, next, dead, ps, pp, cs, cp⟩, fs⟩ := s
  simp only at hd h1 h2
  subst hd
  cases cp <;> first
    | exact absurd rfl h1
    | exact absurd rfl h2
    | exact ⟨_, rfl, ⟨_, rfl⟩, by simp [sstep, inBody]⟩

example : init.dead = false ∧ init.cp ≠ .exited ∧ init.cp ≠ .aborted := by decide

example : ({ init with cp := .ld } : St).dead = false ∧ entry .ld = some (.run none) := by decide

end Verif.Signals
