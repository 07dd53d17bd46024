import Verif.Token.Crash

/-!
# After the death of a hostile sandbox (property C79)

The sandbox may have done anything before it died: written any values to the header, sent any requests.  The model is that
of `Verif.Token.Model`; once the sandbox is dead, only the host takes steps.
-/

namespace Verif.Token
open Spec

namespace Spec

/-- Steps of the host's protocol and returns of handlers (`src/libsandbox.cc:934-1018`). -/
def hostWork : List Act → Nat
  | [] => 0
  | .parent :: as => hostWork as + 1
  | .timeout :: as => hostWork as + 1
  | .finish _ :: as => hostWork as + 1
  | _ :: as => hostWork as

/-- Calls that the host begins, and destructions (`src/libsandbox.cc:934`, `:1006`). -/
def begun : List Act → Nat
  | [] => 0
  | .call _ :: as => begun as + 1
  | .destroy :: as => begun as + 1
  | _ :: as => begun as

/-- The host is in the loading loop, in the wait or about to enter it, and nobody has woken it (`src/libsandbox.cc:942-944`). -/
def WaitsInVain (s : St) : Prop :=
  s.sh.parent = 0 ∧ ((∃ x, s.pp = .l2 x) ∨ 0 < s.sh.depth ∧ ∃ x, s.pp = .l1 x)

/-- The sandbox is dead, its header says that it has loaded, and the host is not in the loading loop, waiting for someone to wake
it (`src/libsandbox.cc:940-944`). -/
def DeadLoaded (s : St) : Prop :=
  s.dead = true ∧ s.sh.loaded = true ∧ ¬ WaitsInVain s

/-- The host has nothing left to do in its protocol (`src/libsandbox.cc:934-1018`). -/
def HostDone (s : St) : Prop := s.pp = .user ∨ s.pp = .gone ∨ s.pp = .aborted

end Spec

/-- Steps left in the current place, if nothing new is begun (`src/libsandbox.cc:934-1018`). -/
def pcLeft : PPc → Nat
  | .user => 0
  | .s0 _ => 16
  | .l1 _ => 24
  | .l2 _ => 22
  | .l3 _ => 21
  | .l4 _ => 19
  | .l5 _ => 18
  | .l6 _ => 17
  | .a1 _ => 15
  | .a2 _ _ => 14
  | .a3 _ => 13
  | .a4 _ => 12
  | .a5 _ => 11
  | .w _ => 1
  | .c1 _ => 8
  | .h1 _ => 7
  | .h3 _ => 5
  | .h4 _ => 4
  | .h5 _ => 3
  | .d1 => 4
  | .d2 => 3
  | .d3 => 2
  | .d4 => 1
  | .gone => 0
  | .aborted => 0

/-- Steps left for the suspended calls (`src/libsandbox.cc:945-955`, `:985-991`). -/
def framesLeft : List (From × Nat) → Nat
  | [] => 0
  | (.load _, _) :: ps => framesLeft ps + 20
  | (.send _, _) :: ps => framesLeft ps + 6

/-- Steps left for the host when the sandbox is dead (`src/libsandbox.cc:934-1018`). -/
def left (s : St) : Nat := 10 * s.sh.parent + pcLeft s.pp + framesLeft s.ps

theorem deadLoaded_step {dbg : Bool} {s s' : St} {a : Act} {es : List Ev} (h : DeadLoaded s)
    (hs : step dbg s a = some (s', es)) :
    DeadLoaded s' ∧ hostWork [a] + left s' ≤ left s + 16 * begun [a] := by
  obtain ⟨hd, hl, hp⟩ := h
  rcases s with ⟨sh, reqs, reps, next, dead, ps, pp, cs, cp⟩
  simp only at hd hl hp
  subst hd
  cases a with
  | parent =>
    cases pp <;> simp only [step, parentStep, startHandler, wakeChild] at hs <;>
      (repeat' split at hs) <;>
      simp_all [DeadLoaded, WaitsInVain, hostWork, begun, left, pcLeft] <;>
      (try obtain ⟨rfl, rfl⟩ := hs) <;>
      (try simp_all [framesLeft]) <;> (try split) <;> (try simp_all) <;> (try omega)
  | finish v =>
    simp only [step] at hs
    split at hs
    · rename_i _ _ f _ _
      cases f <;> simp at hs <;> obtain ⟨rfl, rfl⟩ := hs <;>
        simp_all [DeadLoaded, WaitsInVain, hostWork, begun, left, pcLeft, framesLeft] <;> omega
    · simp at hs
  | call x =>
    simp only [step] at hs
    split at hs <;> simp at hs
    obtain ⟨rfl, rfl⟩ := hs
    simp_all [DeadLoaded, WaitsInVain, hostWork, begun, left, pcLeft]
    omega
  | destroy =>
    simp only [step] at hs
    split at hs <;> simp at hs
    obtain ⟨rfl, rfl⟩ := hs
    simp_all [DeadLoaded, WaitsInVain, hostWork, begun, left, pcLeft]
  | timeout =>
    simp only [step] at hs
    split at hs <;> simp at hs
    obtain ⟨rfl, rfl⟩ := hs
    simp_all [DeadLoaded, WaitsInVain, hostWork, begun, left, pcLeft, framesLeft]
    omega
  | crash =>
    simp [step] at hs
    obtain ⟨rfl, rfl⟩ := hs
    simp_all [DeadLoaded, WaitsInVain, hostWork, begun, left]
  | ret =>
    simp only [step] at hs
    split at hs <;> simp at hs
  | ask =>
    simp only [step] at hs
    split at hs <;> simp at hs
  | childTimeout =>
    simp only [step] at hs
    split at hs <;> simp at hs
  | child => simp [step] at hs
  | write => simp [step] at hs
  | inject => simp [step] at hs

theorem hostWork_cons (a : Act) (as : List Act) : hostWork (a :: as) = hostWork [a] + hostWork as := by
  cases a <;> simp [hostWork] <;> omega

theorem begun_cons (a : Act) (as : List Act) : begun (a :: as) = begun [a] + begun as := by
  cases a <;> simp [begun] <;> omega

theorem deadLoaded_run {dbg : Bool} (bs : List Act) {s s' : St} {es : List Ev} (h : DeadLoaded s)
    (hs : run dbg s bs = some (s', es)) : DeadLoaded s' ∧ hostWork bs + left s' ≤ left s + 16 * begun bs := by
  induction bs generalizing s es with
  | nil =>
    simp [run] at hs
    obtain ⟨rfl, rfl⟩ := hs
    exact ⟨h, by simp [hostWork, begun]⟩
  | cons a as ih =>
    simp only [run] at hs
    rcases h1 : step dbg s a with _ | ⟨s1, es1⟩
    · simp [h1] at hs
    · simp only [h1] at hs
      rcases h2 : run dbg s1 as with _ | ⟨s2, es2⟩
      · simp [h2] at hs
      · simp only [h2, Option.some.injEq, Prod.mk.injEq] at hs
        obtain ⟨rfl, rfl⟩ := hs
        obtain ⟨g1, g2⟩ := deadLoaded_step h h1
        obtain ⟨g3, g4⟩ := ih g1 h2
        rw [hostWork_cons, begun_cons]
        exact ⟨g3, by omega⟩

/-- **C79, where the flag stays set.**  However hostile the sandbox was before it died, and whatever it left in the header
and the socket, as long as the header says that it has loaded: the host never stops in its protocol without a next step,
and the number of its steps is bounded in terms of the calls it begins afterwards.  So every call in progress and every
later call returns, raises, or ends the host (C32).  Missing from the full property: the flag is in memory that the
sandbox can write, and the loading loop looks only at it (`cleared_flag_hangs`). -/
theorem dead_sandbox_releases_host_partial (dbg : Bool) (s : St) (h : DeadLoaded s) :
    ∃ B, ∀ bs s' es, run dbg s bs = some (s', es) →
      hostWork bs ≤ B + 16 * begun bs ∧
        (HostDone s' ∨ (step dbg s' .parent).isSome = true ∨ (step dbg s' .timeout).isSome = true) := by
  refine ⟨left s, fun bs s' es hs => ?_⟩
  obtain ⟨⟨hd, hl, hp⟩, h2⟩ := deadLoaded_run bs h hs
  refine ⟨by omega, ?_⟩
  rcases s' with ⟨sh, reqs, reps, next, dead, ps, pp, cs, cp⟩
  simp only at hd hp
  subst hd
  cases pp <;> simp_all [HostDone, WaitsInVain, step, parentStep] <;> split <;> simp

/-- With the flag clear and no callback announced, a call into a dead sandbox never ends. -/
theorem polls_forever {dbg : Bool} {x : Nat} (bs : List Act) : ∀ {s : St}, s.dead = true → s.sh.loaded = false →
    s.sh.depth = 0 → (s.pp = .s0 x ∨ s.pp = .l1 x) → ∀ {s' : St} {es : List Ev}, run dbg s bs = some (s', es) →
      (s'.pp = .s0 x ∨ s'.pp = .l1 x) ∧ es = [] := by
  induction bs with
  | nil =>
    intro s _ _ _ hpp s' es' hs
    simp [run] at hs
    obtain ⟨rfl, rfl⟩ := hs
    exact ⟨hpp, rfl⟩
  | cons a bs ih =>
    intro s hd hl hdp hpp s' es' hs
    simp only [run] at hs
    rcases g1 : step dbg s a with _ | ⟨s1, es1⟩
    · simp [g1] at hs
    · simp only [g1] at hs
      rcases g2 : run dbg s1 bs with _ | ⟨s2, es2⟩
      · simp [g2] at hs
      · simp only [g2, Option.some.injEq, Prod.mk.injEq] at hs
        obtain ⟨rfl, rfl⟩ := hs
        have key : es1 = [] ∧ s1.dead = true ∧ s1.sh.loaded = false ∧ s1.sh.depth = 0 ∧
            (s1.pp = .s0 x ∨ s1.pp = .l1 x) := by
          clear ih g2
          rcases s with ⟨sh, reqs, reps, next, dead, ps, pp, cs, cp⟩
          simp only at hd hl hdp hpp
          subst hd
          rcases hpp with rfl | rfl <;> cases a <;> simp [step, parentStep, hl, hdp] at g1 <;>
            (try (repeat' split at g1)) <;> simp_all <;> (obtain ⟨rfl, rfl⟩ := g1; simp_all)
        obtain ⟨rfl, k1, k2, k3, k4⟩ := key
        obtain ⟨k5, rfl⟩ := ih k1 k2 k3 k4 g2
        exact ⟨k5, rfl⟩

/-- A host that waits in vain does so forever. -/
theorem waits_forever {dbg : Bool} (bs : List Act) : ∀ {s : St}, s.dead = true → WaitsInVain s → ∀ {s' : St} {es : List Ev},
    run dbg s bs = some (s', es) → WaitsInVain s' ∧ es = [] := by
  induction bs with
  | nil =>
    intro s _ hw s' es' hs
    simp [run] at hs
    obtain ⟨rfl, rfl⟩ := hs
    exact ⟨hw, rfl⟩
  | cons a bs ih =>
    intro s hd hw s' es' hs
    simp only [run] at hs
    rcases g1 : step dbg s a with _ | ⟨s1, es1⟩
    · simp [g1] at hs
    · simp only [g1] at hs
      rcases g2 : run dbg s1 bs with _ | ⟨s2, es2⟩
      · simp [g2] at hs
      · simp only [g2, Option.some.injEq, Prod.mk.injEq] at hs
        obtain ⟨rfl, rfl⟩ := hs
        have key : es1 = [] ∧ s1.dead = true ∧ WaitsInVain s1 := by
          clear ih g2
          rcases s with ⟨sh, reqs, reps, next, dead, ps, pp, cs, cp⟩
          simp only at hd
          subst hd
          obtain ⟨h0, ⟨x, hx⟩ | ⟨h1, x, hx⟩⟩ := hw <;> simp only at h0 hx <;> subst hx
          · cases a <;> simp [step, parentStep, h0] at g1 <;> (try (repeat' split at g1)) <;> simp_all <;>
              (obtain ⟨rfl, rfl⟩ := g1; simp_all [WaitsInVain])
          · simp only at h1
            cases a <;> simp [step, parentStep, h1] at g1 <;> (try (repeat' split at g1)) <;> simp_all <;>
              (obtain ⟨rfl, rfl⟩ := g1; simp_all [WaitsInVain])
        obtain ⟨rfl, k1, k2⟩ := key
        obtain ⟨k3, rfl⟩ := ih k1 k2 g2
        exact ⟨k3, rfl⟩

/-- **C79, the flag set, exactly.**  A sandbox is dead and its header says that it has loaded.  The host is released, in the sense of
`dead_sandbox_releases_host_partial`, exactly if it is not in the loading loop, waiting or about to wait for a dead sandbox to wake it. -/
theorem dead_loaded_iff (dbg : Bool) (s : St) (hd : s.dead = true) (hl : s.sh.loaded = true) :
    (∃ B, ∀ bs s' es, run dbg s bs = some (s', es) → hostWork bs ≤ B + 16 * begun bs ∧
      (HostDone s' ∨ (step dbg s' .parent).isSome = true ∨ (step dbg s' .timeout).isSome = true)) ↔ ¬ WaitsInVain s := by
  constructor
  · rintro ⟨B, h⟩ hw
    have reach : ∃ bs s', run dbg s bs = some (s', []) ∧ (∃ x, s'.pp = .l2 x) ∧ s'.sh.parent = 0 := by
      obtain ⟨h0, ⟨x, hx⟩ | ⟨h1, x, hx⟩⟩ := hw
      · exact ⟨[], s, rfl, ⟨x, hx⟩, h0⟩
      · exact ⟨[.parent], { s with pp := .l2 x }, by simp [run, step, parentStep, hx, h1], ⟨x, rfl⟩, h0⟩
    obtain ⟨bs, s', hr, ⟨x, hx⟩, h0⟩ := reach
    rcases (h bs s' [] hr).2 with hh | hh | hh
    · rcases hh with hh | hh | hh <;> rw [hx] at hh <;> cases hh
    · simp [step, parentStep, hx, h0] at hh
    · simp [step, hx] at hh
  · intro hw
    exact dead_sandbox_releases_host_partial dbg s ⟨hd, hl, hw⟩

/-- The host is in a call that cannot get past the loading loop: in the loop, or in a handler that the loop called, or it was aborted
(`src/libsandbox.cc:940-955`). -/
def Looping (base : List (From × Nat)) (s : St) : Prop :=
  s.dead = true ∧ s.sh.loaded = false ∧ ∃ ls, s.ps = ls ++ base ∧ (∀ f ∈ ls, ∃ x id, f = (From.load x, id)) ∧
    ((∃ x, s.pp = .s0 x ∨ s.pp = .l1 x ∨ s.pp = .l2 x ∨ s.pp = .l3 x ∨ s.pp = .l4 x ∨ s.pp = .l5 x ∨ s.pp = .l6 x) ∨
      s.pp = .aborted ∨ s.pp = .user ∧ ls ≠ [])

/-- The event is a call's way out of the loading loop or out of the call (`src/libsandbox.cc:956-992`). -/
def Passing : Ev → Prop
  | .enter _ | .leave | .raised => True
  | _ => False

theorem looping_step {dbg : Bool} {base : List (From × Nat)} {s s' : St} {a : Act} {es : List Ev} (h : Looping base s)
    (hs : step dbg s a = some (s', es)) : Looping base s' ∧ ∀ e ∈ es, ¬ Passing e := by
  obtain ⟨hd, hl, ls, hps, hls, hpp⟩ := h
  rcases s with ⟨sh, reqs, reps, next, dead, ps, pp, cs, cp⟩
  simp only at hd hl hps hpp
  subst hd hps
  rcases hpp with ⟨x, hpp⟩ | rfl | ⟨rfl, hne⟩
  · cases a with
    | parent =>
      rcases hpp with rfl | rfl | rfl | rfl | rfl | rfl | rfl <;>
        simp only [step, parentStep, startHandler, wakeChild] at hs <;> (repeat' split at hs) <;> simp at hs <;>
        obtain ⟨rfl, rfl⟩ := hs <;> (refine ⟨⟨rfl, hl, ?_⟩, by simp [Passing]⟩)
      all_goals first
        | (rename_i hc; rw [hl] at hc; cases hc; done)
        | exact ⟨ls, rfl, hls, by simp⟩
        | (refine ⟨(.load x, _) :: ls, rfl, ?_, .inr (.inr ⟨rfl, by simp⟩)⟩
           intro f hf
           rcases List.mem_cons.1 hf with rfl | hf
           · exact ⟨_, _, rfl⟩
           · exact hls f hf)
    | crash =>
      simp [step] at hs
      obtain ⟨rfl, rfl⟩ := hs
      exact ⟨⟨rfl, hl, ls, rfl, hls, .inl ⟨x, hpp⟩⟩, nofun⟩
    | _ =>
      rcases hpp with rfl | rfl | rfl | rfl | rfl | rfl | rfl <;> simp [step] at hs <;>
        (try (split at hs <;> simp at hs))
  · cases a <;> simp [step, parentStep] at hs <;> (try (split at hs <;> simp at hs))
    obtain ⟨rfl, rfl⟩ := hs
    exact ⟨⟨rfl, hl, ls, rfl, hls, .inr (.inl rfl)⟩, nofun⟩
  · cases a with
    | finish v =>
      cases ls with
      | nil => exact absurd rfl hne
      | cons f ls =>
        obtain ⟨x, id, rfl⟩ := hls f List.mem_cons_self
        simp [step] at hs
        obtain ⟨rfl, rfl⟩ := hs
        exact ⟨⟨rfl, hl, ls, rfl, fun f hf => hls f (List.mem_cons_of_mem _ hf), .inl ⟨x, by simp⟩⟩, by simp [Passing]⟩
    | call y =>
      simp [step] at hs
      obtain ⟨rfl, rfl⟩ := hs
      exact ⟨⟨rfl, hl, ls, rfl, hls, .inl ⟨y, by simp⟩⟩, nofun⟩
    | crash =>
      simp [step] at hs
      obtain ⟨rfl, rfl⟩ := hs
      exact ⟨⟨rfl, hl, ls, rfl, hls, .inr (.inr ⟨rfl, hne⟩)⟩, nofun⟩
    | _ => simp_all [step, parentStep] <;> (try (split at hs <;> simp at hs))

theorem looping_run {dbg : Bool} {base : List (From × Nat)} (bs : List Act) : ∀ {s s' : St} {es : List Ev}, Looping base s →
    run dbg s bs = some (s', es) → Looping base s' ∧ ∀ e ∈ es, ¬ Passing e := by
  induction bs with
  | nil =>
    intro s s' es h hs
    simp [run] at hs
    obtain ⟨rfl, rfl⟩ := hs
    exact ⟨h, nofun⟩
  | cons a bs ih =>
    intro s s' es h hs
    simp only [run] at hs
    rcases g1 : step dbg s a with _ | ⟨s1, es1⟩
    · simp [g1] at hs
    · simp only [g1] at hs
      rcases g2 : run dbg s1 bs with _ | ⟨s2, es2⟩
      · simp [g2] at hs
      · simp only [g2, Option.some.injEq, Prod.mk.injEq] at hs
        obtain ⟨rfl, rfl⟩ := hs
        obtain ⟨k1, k2⟩ := looping_step h g1
        obtain ⟨k3, k4⟩ := ih k1 g2
        refine ⟨k3, fun e he => ?_⟩
        rcases List.mem_append.1 he with he | he
        · exact k2 e he
        · exact k4 e he

/-- **C79, the flag clear.**  A sandbox is dead and its header says that it has not loaded, whatever else it says and whatever requests
are waiting.  A call that begins then never returns and never raises: the callbacks it may still answer change nothing, and calls
made by their handlers do not come out either.  What can end it is only that the host aborts. -/
theorem flag_clear_never_returns (dbg : Bool) (s : St) (x : Nat) (hd : s.dead = true) (hl : s.sh.loaded = false) (hp : s.pp = .s0 x)
    (bs : List Act) (s' : St) (es : List Ev) (hs : run dbg s bs = some (s', es)) :
    .leave ∉ es ∧ .raised ∉ es ∧ (∀ y, .enter y ∉ es) ∧ s'.pp ≠ .gone ∧ (s'.pp = .user → s.ps.length < s'.ps.length) := by
  obtain ⟨⟨-, -, ls, h1, -, h2⟩, h3⟩ := looping_run bs (base := s.ps) ⟨hd, hl, [], rfl, nofun, .inl ⟨x, .inl hp⟩⟩ hs
  refine ⟨fun h => h3 _ h trivial, fun h => h3 _ h trivial, fun y h => h3 _ h trivial, ?_, ?_⟩
  · intro h
    rw [h] at h2
    rcases h2 with ⟨y, h2⟩ | h2 | h2
    · rcases h2 with h2 | h2 | h2 | h2 | h2 | h2 | h2 <;> cases h2
    · cases h2
    · cases h2.1
  · intro h
    rw [h] at h2
    rcases h2 with ⟨y, h2⟩ | h2 | h2
    · rcases h2 with h2 | h2 | h2 | h2 | h2 | h2 | h2 <;> cases h2
    · cases h2
    · rw [h1, List.length_append]
      have := List.length_pos_iff.2 h2.2
      omega

/-- **C79, violated by the code: the flag is believed.**  A sandbox that has loaded clears `is_child_loaded` in the header
and exits.  The host's next call then polls the header forever: whatever happens, it never returns, raises or even looks
at the state of the process. -/
theorem cleared_flag_hangs (dbg : Bool) :
    ∃ as s es, run dbg init as = some (s, es) ∧ s.dead = true ∧ .loaded ∈ es ∧ .leave ∈ es ∧ s.pp = .s0 7 ∧
      ∀ bs s' es', run dbg s bs = some (s', es') → (s'.pp = .s0 7 ∨ s'.pp = .l1 7) ∧ es' = [] := by
  let as := startActs ++ .ret :: List.replicate 4 .child ++ List.replicate 2 .parent ++
    [.write ⟨0, 0, 0, false, false, false, none⟩, .crash, .call 7]
  have hr : (run dbg init as).map (fun r => (r.1.dead, r.1.sh.loaded, r.1.sh.depth, r.1.pp, decide (Ev.loaded ∈ r.2),
      decide (Ev.leave ∈ r.2))) = some (true, false, 0, .s0 7, true, true) := by cases dbg <;> decide +kernel
  rcases h : run dbg init as with _ | ⟨s, es⟩
  · simp [h] at hr
  · simp only [h, Option.map_some, Option.some.injEq, Prod.mk.injEq, decide_eq_true_eq] at hr
    obtain ⟨hd, hl, hdp, hpp, h1, h2⟩ := hr
    exact ⟨as, s, es, h, hd, h1, h2, hpp, fun bs s' es' hs => polls_forever bs hd hl hdp (.inl hpp) hs⟩

/-- **C79, violated by the code: no hostility is needed.**  A sandbox dies while its library is loading (its initialisers
crash, or the library is missing), between callbacks.  The first call into it, and every call `x`, polls forever; no
exception is raised. -/
theorem death_while_loading_hangs (dbg : Bool) (x : Nat) :
    ∃ as s es, run dbg init as = some (s, es) ∧ s.dead = true ∧ (∀ sh, .write sh ∉ as) ∧ (∀ id, .inject id ∉ as) ∧
      s.pp = .s0 x ∧
      ∀ bs s' es', run dbg s bs = some (s', es') → (s'.pp = .s0 x ∨ s'.pp = .l1 x) ∧ es' = [] := by
  refine ⟨[.crash, .call x], { init with dead := true, pp := .s0 x }, [], rfl, rfl, by simp, by simp, rfl, ?_⟩
  exact fun bs s' es' hs => polls_forever bs rfl rfl rfl (.inl rfl) hs

/-- A hostile sandbox announces a callback, wakes the host, sends a request, says that it has not loaded, and dies.  The host's call
answers the request and does not come out. -/
example (dbg : Bool) : ∃ as s es, run dbg init as = some (s, es) ∧ s.pp = .s0 7 ∧ s.dead = true ∧ s.sh.loaded = false ∧
    ∃ s' es', run dbg s [.parent, .parent, .parent, .parent, .finish 3, .parent, .parent, .parent] = some (s', es') ∧
      es' = [.serve 8, .answer 8 3] ∧ s'.pp = .s0 7 ∧ .leave ∉ es' :=
  ⟨[.write ⟨0, 1, 1, false, false, false, none⟩, .inject 8, .crash, .call 7], _, _, rfl, rfl, rfl, rfl,
    _, _, by cases dbg <;> rfl, rfl, rfl, by decide⟩

/-- A sandbox that makes a callback while it loads dies after it has announced it and before it wakes the host: a host that is in the
loading loop waits in vain even if the flag is then set. -/
example : ∃ s es, run false init [.call 7, .parent, .write ⟨0, 0, 1, false, false, false, none⟩, .parent,
    .write ⟨0, 0, 1, false, true, false, none⟩, .crash] = some (s, es) ∧ s.sh.loaded = true ∧ WaitsInVain s :=
  ⟨_, _, rfl, rfl, rfl, .inl ⟨7, rfl⟩⟩

/-- The hypothesis of `dead_sandbox_releases_host_partial` holds of a hostile history: a running function writes nonsense
to the header, sends two requests, and dies during the call. -/
example (dbg : Bool) : ∃ as s es, run dbg init as = some (s, es) ∧ DeadLoaded s ∧ s.pp = .w 0 ∧ s.sh.parent = 1 ∧
    s.reqs = [8, 9] := by
  let as := startActs ++ [.write ⟨1, 1, 57, true, true, true, some 3⟩, .inject 8, .inject 9, .crash]
  have hr : (run dbg init as).map (fun r => (r.1.dead, r.1.sh.loaded, r.1.pp, r.1.sh.parent, r.1.reqs)) =
      some (true, true, .w 0, 1, [8, 9]) := by cases dbg <;> decide +kernel
  rcases h : run dbg init as with _ | ⟨s, es⟩
  · simp [h] at hr
  · simp only [h, Option.map_some, Option.some.injEq, Prod.mk.injEq] at hr
    exact ⟨as, s, es, h, ⟨hr.1, hr.2.1, fun x => by have := x.1; rw [hr.2.2.2.1] at this; cases this⟩, hr.2.2⟩

end Verif.Token
