import Verif.Threads.Lemmas
import Verif.Token.Crash

/-!
# The call protocol with several threads (property C78)
-/

namespace Verif.Threads
open Verif.Token Verif.Token.Spec Spec

theorem lift_aborted {e0 : Option Int} {cp : CPc} (h : lift e0 cp ≠ .aborted) : cp ≠ .aborted := by
  rintro rfl
  exact h rfl

/-- **C78, with turns.**  Any number of host threads call into a sandbox, and any number of threads of the sandbox make
callbacks.  If they take turns, then under every schedule no thread aborts (no semaphore is signalled while set, no
assertion fails) and the events of all threads together form one call stack: each function starts only for its call, each
call returns only after its function has returned, each callback is handled and answered before its thread continues.
The code has no lock that makes them take turns; see the theorems below. -/
theorem turns_control_stack_partial (dbg : Bool) (nh nk : Nat) (as : List MAct) (m : MSt) (es : List Ev)
    (ht : TurnRun dbg (minit nh nk) as) (h : mrun dbg (minit nh nk) as = some (m, es)) :
    NoThreadAborts m ∧ ∃ σ, replay [.loading] es = some σ := by
  obtain ⟨bs, s, hc, hr, r⟩ := sim_run as (rel_init nh nk) ht h
  obtain ⟨⟨ha, hb⟩, hσ⟩ := control_stack dbg bs s es hc hr
  refine ⟨⟨fun x hx => ?_, fun x hx => ?_⟩, hσ⟩
  · obtain ⟨k, hk⟩ := List.mem_iff_getElem?.1 hx
    obtain ⟨i, hi, hrest⟩ := r.host
    by_cases hki : k = i
    · subst hki
      rw [hk] at hi
      cases hi
      exact ha
    · rw [hrest k hki x hk]
      exact fun h => by cases h
  · obtain ⟨k, hk⟩ := List.mem_iff_getElem?.1 hx
    rcases r.kid with ⟨h0, hrest⟩ | ⟨j, cs, cs0, cp, e0, hj, h0, hjk, hrest, -, -, -, h2⟩
    · by_cases hk0 : k = 0
      · subst hk0
        rw [hk] at h0
        cases h0
        exact hb
      · rw [hrest k hk0 hk0 x hk]
        exact fun h => by cases h
    · by_cases hk0 : k = 0
      · subst hk0
        rw [hk] at h0
        cases h0
        exact fun h => by cases h
      · by_cases hkj : k = j
        · subst hkj
          rw [hk] at hjk
          cases hjk
          rw [h2] at hb
          exact lift_aborted hb
        · rw [hrest k hk0 hkj x hk]
          exact fun h => by cases h

/-- **C78, with turns: own reply.**  The reply that a callback reads, in whichever thread, was made for its own request,
and its value is the answer that the host gave to that request earlier. -/
theorem turns_own_reply_partial (dbg : Bool) (nh nk : Nat) (as : List MAct) (m : MSt) (pre post : List Ev)
    (id id' v : Nat) (ht : TurnRun dbg (minit nh nk) as)
    (h : mrun dbg (minit nh nk) as = some (m, pre ++ .got id id' v :: post)) : id' = id ∧ .answer id v ∈ pre := by
  obtain ⟨bs, s, hc, hr, -⟩ := sim_run as (rel_init nh nk) ht h
  exact own_reply dbg bs s pre post id id' v hc hr

/-- **C78, with turns: idle between calls.**  When no host thread is in a call and the sandbox has loaded, the main thread
of the sandbox waits for the next call, no other thread of the sandbox is in a callback, both semaphores are clear, the
depth is zero and nothing is pending. -/
theorem turns_idle_partial (dbg : Bool) (nh nk : Nat) (as : List MAct) (m : MSt) (es : List Ev)
    (ht : TurnRun dbg (minit nh nk) as) (h : mrun dbg (minit nh nk) as = some (m, es))
    (hi : ∀ x ∈ m.hosts, x = Host.rest) (hl : m.sh.loaded = true) :
    m.sh = ⟨0, 0, 0, false, true, false, none⟩ ∧ m.reqs = [] ∧ m.reps = [] ∧
      (∃ k : Kid, m.kids[0]? = some k ∧ k.cs = [] ∧ Parked 0 k.cp) ∧
      ∀ j : Nat, j ≠ 0 → ∀ k : Kid, m.kids[j]? = some k → k = Kid.rest := by
  obtain ⟨bs, s, hc, hr, r⟩ := sim_run as (rel_init nh nk) ht h
  obtain ⟨i, hi1, -⟩ := r.host
  have h1 := hi _ (List.mem_of_getElem? hi1)
  simp only [Host.rest, Host.mk.injEq] at h1
  obtain ⟨⟨g1, g2, g3, g4, g5⟩, -⟩ := idle_between_calls dbg bs s es hc hr h1.2 h1.1 (by rw [← r.sh]; exact hl)
  refine ⟨by rw [r.sh, g1], by rw [r.reqs, g2], by rw [r.reps, g3], ?_⟩
  rcases r.kid with ⟨h0, hrest⟩ | ⟨j, cs, cs0, cp, e0, hj, h0, hjk, hrest, hs, hat, e1, e2⟩
  · exact ⟨⟨_, h0, g4, g5⟩, fun j hj k hk => hrest j hj hj k hk⟩
  · exfalso
    rw [e1] at g4
    obtain ⟨g6, g7⟩ := List.append_eq_nil_iff.1 g4
    have g6 : cs = [] := by simpa using g6
    subst g6
    rw [e2] at g5
    cases cp <;> simp only [lift] at g5 <;> cases g5 <;> exact hat rfl

/-- **C78, with turns: no deadlock.**  While a host thread is in a call, some thread can take a step that is not mere
polling: a host thread in its protocol, or a thread of the sandbox (in its protocol, or by returning from a function). -/
theorem turns_no_deadlock_partial (dbg : Bool) (nh nk : Nat) (as : List MAct) (m : MSt) (es : List Ev)
    (ht : TurnRun dbg (minit nh nk) as) (h : mrun dbg (minit nh nk) as = some (m, es)) (i : Nat) (x : Host)
    (hx : m.hosts[i]? = some x) (hu : x.pp ≠ .user) (hg : x.pp ≠ .gone) :
    ∃ a, Turn m a ∧ (mstep dbg m a).isSome = true ∧
      ((a = .host i .parent ∧ ¬ Polling (m.hostView x)) ∨ ∃ j, a = .kid j .child ∨ a = .kid j .ret) := by
  obtain ⟨bs, s, hc, hr, r⟩ := sim_run as (rel_init nh nk) ht h
  obtain ⟨i0, hi0, hrest⟩ := r.host
  have hii : i = i0 := by
    refine Decidable.byContradiction fun hne => hu ?_
    rw [hrest i hne x hx]
    rfl
  subst hii
  rw [hx] at hi0
  cases hi0
  have alive : s.dead = false := by
    obtain ⟨σ, -, hI⟩ := inv_run bs inv_init hc hr
    exact hI.alive
  rcases no_deadlock dbg bs s es hc hr with h1 | ⟨h1, -⟩ | ⟨a, ha, he, hp⟩
  · exact absurd h1 hu
  · exact absurd h1 hg
  · rcases ha with rfl | rfl | rfl
    · refine ⟨.host i .parent, trivial, ?_, .inl ⟨rfl, fun hq => hp ⟨rfl, ?_⟩⟩⟩
      · have hv : m.hostView ⟨s.ps, s.pp⟩ = { s with cs := [], cp := .run none } := by
          simp only [MSt.hostView, r.sh, r.reqs, r.reps, r.next, r.dead]
        simp only [mstep, hx, isHost, if_true, hv]
        rw [step_host_frame rfl]
        rcases hst : step dbg s .parent with _ | ⟨s', es'⟩
        · simp [hst] at he
        · simp
      · simpa only [Polling, MSt.hostView, r.sh] using hq
    · -- the sandbox goes on
      have hf : ∀ ps pp, (step dbg { s with ps := ps, pp := pp } .child).isSome = true := by
        intro ps pp
        rw [step_kid_frame rfl]
        simpa using he
      rcases r.kid with ⟨h0, hk⟩ | ⟨j, cs, cs0, cp, e0, hj, h0, hjk, hk, hs, hat, e1, e2⟩
      · refine ⟨.kid 0 .child, trivial, ?_, .inr ⟨0, .inl rfl⟩⟩
        have h3 := hf [] .user
        simp only [mstep, h0, r.kidView, isKid]
        rcases hst : step dbg ⟨s.sh, s.reqs, s.reps, s.next, s.dead, [], .user, s.cs, s.cp⟩ .child with _ | ⟨s', es'⟩
        · rw [hst] at h3
          simp at h3
        · simp
      · refine ⟨.kid j .child, by cases j <;> trivial, ?_, .inr ⟨j, .inl rfl⟩⟩
        have h3 := hf [] .user
        have h3 : (step dbg ⟨s.sh, s.reqs, s.reps, s.next, s.dead, [], .user, s.cs, s.cp⟩ .child).isSome = true := h3
        rw [e1, e2] at h3
        have h4 := lift_enabled (ps' := []) (pp' := .user) h3
        simp only [mstep, hjk, r.kidView, isKid]
        rcases hst : step dbg ⟨s.sh, s.reqs, s.reps, s.next, s.dead, [], .user, cs, cp⟩ .child with _ | ⟨s', es'⟩
        · rw [hst] at h4
          simp at h4
        · simp
    · -- a function returns
      have main : ∀ cs0 e0, m.kids[0]? = some ⟨cs0, .run e0⟩ → (mstep dbg m (.kid 0 .ret)).isSome = true := by
        intro cs0 e0 h0
        simp only [mstep, h0, r.kidView, isKid]
        cases e0 <;> simp [step, alive]
      have hrun : ∃ e, s.cp = .run e := by
        simp only [step] at he
        split at he
        · exact ⟨_, by assumption⟩
        · exact ⟨_, by assumption⟩
        · simp at he
      obtain ⟨e, hrun⟩ := hrun
      rcases r.kid with ⟨h0, hk⟩ | ⟨j, cs, cs0, cp, e0, hj, h0, hjk, hk, hs, hat, e1, e2⟩
      · rw [hrun] at h0
        exact ⟨.kid 0 .ret, hk, main _ _ h0, .inr ⟨0, .inr rfl⟩⟩
      · rw [e2] at hrun
        cases cp <;> simp only [lift] at hrun <;> try (cases hrun; done)
        rename_i e'
        cases e' with
        | some n =>
          refine ⟨.kid j .ret, by cases j <;> first | contradiction | trivial, ?_, .inr ⟨j, .inr rfl⟩⟩
          simp only [mstep, hjk, r.kidView, isKid]
          simp [step, alive]
        | none =>
          have hc : cs = [] := hat.1 rfl
          subst hc
          refine ⟨.kid 0 .ret, fun k hk0 _ d hd => ?_, main _ _ h0, .inr ⟨0, .inr rfl⟩⟩
          by_cases hkj : k = j
          · subst hkj
            rw [hjk] at hd
            cases hd
            rfl
          · exact hk k hk0 hkj d hd

/-! ## Without turns -/

/-- The sandbox loads while host thread 0 waits in its first call, number 10, which then starts in the main thread. -/
def loadCall : List MAct :=
  [.host 0 (.call 10), .kid 0 .ret, .kid 0 .child, .kid 0 .child] ++ List.replicate 6 (.host 0 .parent) ++
    List.replicate 3 (.kid 0 .child)

/-- The call ends. -/
def endCall : List MAct := .kid 0 .ret :: List.replicate 4 (.kid 0 .child) ++ List.replicate 2 (.host 0 .parent)

/-- Thread 1 of the sandbox makes a callback while no call is in progress; then the host makes call 11. -/
def lateCallback : List MAct :=
  loadCall ++ endCall ++ .kid 1 .ask :: List.replicate 3 (.kid 1 .child) ++ .host 0 (.call 11) ::
    List.replicate 8 (.host 0 .parent)

/-- **C78, violated by the code: a call that has not run.**  If a thread of the sandbox makes a callback while no call is
in progress, the next call into the sandbox takes the signal meant for the callback as its own end: call 11 returns to its
caller before its function has started. -/
theorem callback_between_calls_ends_next_call (dbg : Bool) :
    ∃ m es, mrun dbg (minit 0 1) lateCallback = some (m, es) ∧
      es = [.loaded, .enter 10, .begin 10, .done, .leave, .ask 0, .enter 11, .leave] ∧ m.hosts = [Host.rest] := by
  rcases h : mrun dbg (minit 0 1) lateCallback with _ | ⟨m, es⟩
  · exact absurd h (by cases dbg <;> decide +kernel)
  · have : (mrun dbg (minit 0 1) lateCallback).map (fun r => (r.2, r.1.hosts)) =
        some ([.loaded, .enter 10, .begin 10, .done, .leave, .ask 0, .enter 11, .leave], [Host.rest]) := by
      cases dbg <;> decide +kernel
    rw [h] at this
    simp only [Option.map_some, Option.some.injEq, Prod.mk.injEq] at this
    exact ⟨m, es, rfl, this⟩

/-- Two threads of the sandbox make callbacks 0 and 1 during a call; thread 2 gets to signal first. -/
def crossed : List MAct :=
  loadCall ++ [.kid 1 .ask, .kid 2 .ask] ++ List.replicate 3 (.kid 2 .child) ++ List.replicate 3 (.host 0 .parent) ++
    .host 0 (.finish 7) :: List.replicate 3 (.host 0 .parent) ++ List.replicate 6 (.kid 2 .child)

/-- **C78, violated by the code: another thread's reply.**  If two threads of the sandbox make callbacks at the same time,
one of them can get the reply to the other's request: callback 1 returns with the answer to request 0. -/
theorem concurrent_callbacks_cross (dbg : Bool) :
    ∃ m es, mrun dbg (minit 0 2) crossed = some (m, es) ∧
      es = [.loaded, .enter 10, .begin 10, .ask 0, .ask 1, .serve 0, .answer 0 7, .got 1 0 7] := by
  rcases h : mrun dbg (minit 0 2) crossed with _ | ⟨m, es⟩
  · exact absurd h (by cases dbg <;> decide +kernel)
  · have : (mrun dbg (minit 0 2) crossed).map (·.2) =
        some [.loaded, .enter 10, .begin 10, .ask 0, .ask 1, .serve 0, .answer 0 7, .got 1 0 7] := by
      cases dbg <;> decide +kernel
    rw [h] at this
    simp only [Option.map_some, Option.some.injEq] at this
    exact ⟨m, es, rfl, this⟩

/-- Two threads of the sandbox make callbacks during a call, and both signal before the host has seen the first. -/
def twoSignals : List MAct :=
  loadCall ++ [.kid 1 .ask, .kid 2 .ask] ++ List.replicate 3 (.kid 1 .child) ++ List.replicate 3 (.kid 2 .child)

/-- **C78, violated by the code: the sandbox aborts.**  Two callbacks at the same time can end the sandbox, because a set
semaphore is signalled. -/
theorem concurrent_callbacks_abort (dbg : Bool) :
    ∃ m es, mrun dbg (minit 0 2) twoSignals = some (m, es) ∧ ∃ k : Kid, m.kids[2]? = some k ∧ k.cp = .aborted := by
  rcases h : mrun dbg (minit 0 2) twoSignals with _ | ⟨m, es⟩
  · exact absurd h (by cases dbg <;> decide +kernel)
  · have : (mrun dbg (minit 0 2) twoSignals).map (fun r => r.1.kids[2]?.map (·.cp)) = some (some .aborted) := by
      cases dbg <;> decide +kernel
    rw [h] at this
    simp only [Option.map_some, Option.some.injEq, Option.map_eq_some_iff] at this
    exact ⟨m, es, rfl, this⟩

/-- Two host threads call a loaded sandbox at the same time, and both signal before the sandbox has seen the first; the
assertion of a debug build passes in both. -/
def twoCalls : List MAct :=
  loadCall ++ endCall ++ [.host 0 (.call 11), .host 1 (.call 12)] ++ List.replicate 4 (.host 0 .parent) ++
    List.replicate 4 (.host 1 .parent) ++ [.host 0 .parent, .host 1 .parent, .host 0 .parent, .host 1 .parent]

/-- **C78, violated by the code: the host aborts.**  Two host threads that call into one sandbox at the same time can end
the host, because a set semaphore is signalled. -/
theorem concurrent_calls_abort (dbg : Bool) :
    ∃ m es, mrun dbg (minit 1 0) twoCalls = some (m, es) ∧ ∃ x : Host, m.hosts[1]? = some x ∧ x.pp = .aborted := by
  rcases h : mrun dbg (minit 1 0) twoCalls with _ | ⟨m, es⟩
  · exact absurd h (by cases dbg <;> decide +kernel)
  · have : (mrun dbg (minit 1 0) twoCalls).map (fun r => r.1.hosts[1]?.map (·.pp)) = some (some .aborted) := by
      cases dbg <;> decide +kernel
    rw [h] at this
    simp only [Option.map_some, Option.some.injEq, Option.map_eq_some_iff] at this
    exact ⟨m, es, rfl, this⟩

/-- Two host threads call at the same time; the second message overwrites the first before the sandbox has seen it. -/
def lostCall : List MAct :=
  loadCall ++ endCall ++ [.host 0 (.call 11), .host 1 (.call 12)] ++ List.replicate 3 (.host 0 .parent) ++
    List.replicate 3 (.host 1 .parent) ++ List.replicate 3 (.host 0 .parent) ++ List.replicate 3 (.kid 0 .child) ++
    .kid 0 .ret :: List.replicate 3 (.kid 0 .child) ++ List.replicate 2 (.host 0 .parent)

/-- **C78, violated by the code: the wrong function runs.**  With two calls at the same time, the function of call 12 runs
and call 11 returns to its caller, although the function of call 11 never ran. -/
theorem concurrent_calls_mix (dbg : Bool) :
    ∃ m es, mrun dbg (minit 1 0) lostCall = some (m, es) ∧
      es = [.loaded, .enter 10, .begin 10, .done, .leave, .enter 11, .enter 12, .begin 12, .done, .leave] ∧
      m.hosts[0]? = some Host.rest := by
  rcases h : mrun dbg (minit 1 0) lostCall with _ | ⟨m, es⟩
  · exact absurd h (by cases dbg <;> decide +kernel)
  · have : (mrun dbg (minit 1 0) lostCall).map (fun r => (r.2, r.1.hosts[0]?)) =
        some ([.loaded, .enter 10, .begin 10, .done, .leave, .enter 11, .enter 12, .begin 12, .done, .leave],
          some Host.rest) := by
      cases dbg <;> decide +kernel
    rw [h] at this
    simp only [Option.map_some, Option.some.injEq, Prod.mk.injEq] at this
    exact ⟨m, es, rfl, this⟩

/-! ## The hypotheses are met -/

/-- Decides `HostsRest`. -/
def hostsRestB (m : MSt) (i : Nat) : Bool :=
  (List.range m.hosts.length).all fun k => k == i || m.hosts[k]? == some Host.rest

/-- Decides `KidsRest`. -/
def kidsRestB (m : MSt) (j : Nat) : Bool :=
  (List.range m.kids.length).all fun k => k == 0 || k == j || m.kids[k]? == some Kid.rest

/-- Decides `MainRuns`. -/
def mainRunsB (m : MSt) : Bool :=
  match m.kids[0]? with
  | some (Kid.mk _ (.run _)) => true
  | _ => false

theorem hostsRest_of {m : MSt} {i : Nat} (h : hostsRestB m i = true) : HostsRest m i := by
  intro k hk x hx
  have : k < m.hosts.length := by grind
  have := List.all_eq_true.1 h k (by simp [this])
  simp only [hx, Bool.or_eq_true, beq_iff_eq, hk, false_or, Option.some.injEq] at this
  exact this

theorem kidsRest_of {m : MSt} {j : Nat} (h : kidsRestB m j = true) : KidsRest m j := by
  intro k hk hj x hx
  have : k < m.kids.length := by grind
  have := List.all_eq_true.1 h k (by simp [this])
  simp only [hx, Bool.or_eq_true, beq_iff_eq, hk, hj, false_or, Option.some.injEq] at this
  exact this

theorem mainRuns_of {m : MSt} (h : mainRunsB m = true) : MainRuns m := by
  unfold mainRunsB at h
  split at h
  · exact ⟨_, _, by assumption⟩
  · simp at h

/-- Sufficient for `Turn`. -/
def turnB (m : MSt) : MAct → Bool
  | .host i (.call _) => hostsRestB m i && m.sh.loaded || hostsRestB m i && m.hosts[i]? == some Host.rest
  | .host i .destroy => hostsRestB m i && m.sh.loaded
  | .host _ _ => true
  | .kid 0 .ask => kidsRestB m 0
  | .kid 0 .ret => kidsRestB m 0
  | .kid j .ask => kidsRestB m j && mainRunsB m
  | .kid _ _ => true

theorem turn_of {m : MSt} {a : MAct} (h : turnB m a = true) : Turn m a := by
  unfold turnB at h
  split at h
  · simp only [Bool.or_eq_true, Bool.and_eq_true, beq_iff_eq] at h
    rcases h with ⟨h1, h2⟩ | ⟨h1, h2⟩
    · exact ⟨hostsRest_of h1, .inl h2⟩
    · refine ⟨hostsRest_of h1, .inr fun x hx => ?_⟩
      rw [h2] at hx
      cases hx
      rfl
  · simp only [Bool.and_eq_true] at h
    exact ⟨hostsRest_of h.1, h.2⟩
  · unfold Turn
    split <;> simp_all
  · exact kidsRest_of h
  · exact kidsRest_of h
  · rename_i j _
    simp only [Bool.and_eq_true] at h
    unfold Turn
    have h1 := kidsRest_of h.1
    have h2 := mainRuns_of h.2
    split <;> simp_all
  · unfold Turn
    split <;> simp_all

/-- Sufficient for `TurnRun`. -/
def turnRunB (dbg : Bool) (m : MSt) : List MAct → Bool
  | [] => true
  | a :: as => turnB m a && match mstep dbg m a with
    | none => true
    | some (m', _) => turnRunB dbg m' as

theorem turnRun_of {dbg : Bool} (as : List MAct) {m : MSt} (h : turnRunB dbg m as = true) : TurnRun dbg m as := by
  induction as generalizing m with
  | nil => trivial
  | cons a as ih =>
    simp only [turnRunB, Bool.and_eq_true] at h
    refine ⟨turn_of h.1, fun m' es hs => ?_⟩
    rw [hs] at h
    exact ih h.2

/-- Host thread 0 makes call 10.  Thread 1 of the sandbox makes callback 0 during it, whose handler makes call 11, which
runs in thread 1 and makes callback 1 (answered 71) there; callback 0 is answered 70; thread 2 makes callback 2 (answered
72).  Then host thread 1 makes call 12. -/
def turnsRun : List MAct :=
  loadCall ++
    (.kid 1 .ask :: List.replicate 4 (.kid 1 .child) ++ List.replicate 3 (.host 0 .parent)) ++
    (.host 0 (.call 11) :: List.replicate 6 (.host 0 .parent) ++ List.replicate 3 (.kid 1 .child)) ++
    (.kid 1 .ask :: List.replicate 4 (.kid 1 .child) ++ List.replicate 3 (.host 0 .parent)) ++
    (.host 0 (.finish 71) :: List.replicate 3 (.host 0 .parent) ++ List.replicate 5 (.kid 1 .child)) ++
    (.kid 1 .ret :: List.replicate 4 (.kid 1 .child) ++ List.replicate 2 (.host 0 .parent)) ++
    (.host 0 (.finish 70) :: List.replicate 3 (.host 0 .parent) ++ List.replicate 5 (.kid 1 .child)) ++
    (.kid 2 .ask :: List.replicate 4 (.kid 2 .child) ++ List.replicate 3 (.host 0 .parent)) ++
    (.host 0 (.finish 72) :: List.replicate 3 (.host 0 .parent) ++ List.replicate 5 (.kid 2 .child)) ++
    endCall ++
    (.host 1 (.call 12) :: List.replicate 6 (.host 1 .parent) ++ List.replicate 3 (.kid 0 .child))

/-- The hypotheses of the four theorems about turns hold of this run: the threads take turns, it is possible, and at its
end host thread 1 is in a call. -/
example (dbg : Bool) : TurnRun dbg (minit 1 2) turnsRun ∧
    (mrun dbg (minit 1 2) turnsRun).map (·.2) = some
      [.loaded, .enter 10, .begin 10, .ask 0, .serve 0, .enter 11, .begin 11, .ask 1, .serve 1, .answer 1 71, .got 1 1 71,
        .done, .leave, .answer 0 70, .got 0 0 70, .ask 2, .serve 2, .answer 2 72, .got 2 2 72, .done, .leave,
        .enter 12, .begin 12] ∧
    (mrun dbg (minit 1 2) turnsRun).map (·.1.hosts) = some [Host.rest, ⟨[], .w 0⟩] :=
  ⟨turnRun_of _ (by cases dbg <;> decide +kernel), by cases dbg <;> decide +kernel, by cases dbg <;> decide +kernel⟩

/-- The hypotheses of `turns_idle_partial` hold after the first call. -/
example (dbg : Bool) : TurnRun dbg (minit 1 2) (loadCall ++ endCall) ∧
    (mrun dbg (minit 1 2) (loadCall ++ endCall)).map (fun r => (r.1.hosts, r.1.sh.loaded)) =
      some ([Host.rest, Host.rest], true) :=
  ⟨turnRun_of _ (by cases dbg <;> decide +kernel), by cases dbg <;> decide +kernel⟩

end Verif.Threads
