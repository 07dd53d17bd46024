import Verif.Token.Hang

/-!
# Calls into a sandbox that has died (property C110)

The host is at rest and the sandbox is dead; nothing is said about what it left in the header and the socket.
-/

namespace Verif.Token
open Spec

namespace Spec

/-- The sandbox is dead and the host is in none of its calls (outside `src/libsandbox.cc:934-1018`). -/
structure DeadRest (s : St) : Prop where
  dead : s.dead = true
  user : s.pp = .user
  rest : s.ps = []

/-- The host has just called `Library::send` for call `x` (`src/libsandbox.cc:934`). -/
def called (s : St) (x : Nat) : St := { s with pp := .s0 x }

/-- The host's only next step beside a dead sandbox: a timed wait gives up exactly if the semaphore is not set, as nobody else changes it
(`src/libsandbox.cc:971-977`). -/
def hostNext (s : St) : Act :=
  match s.pp with
  | .w _ => if s.sh.parent = 0 then .timeout else .parent
  | _ => .parent

/-- The host runs until it has nothing more to do in its protocol (`src/libsandbox.cc:934-1018`); `es` are the events on the way. -/
inductive Alone (dbg : Bool) : St → List Ev → St → Prop where
  | stop {s} (h : HostDone s) : Alone dbg s [] s
  | go {s s1 s2 e es} (hn : ¬ HostDone s) (h : step dbg s (hostNext s) = some (s1, e)) (t : Alone dbg s1 es s2) :
      Alone dbg s (e ++ es) s2

/-- What the caller of `Library::send` sees (`src/libsandbox.cc:934-992`). -/
inductive Outcome where
  /-- the exception -/
  | raised
  /-- the call returns as if the function had run -/
  | returned
  /-- the host is aborted -/
  | hostEnds
  deriving DecidableEq, Repr

/-- What becomes of a call into a dead sandbox that has left this header, with `is_child_loaded` set (`src/libsandbox.cc:956-991`). -/
def fate (dbg : Bool) (sh : Sh) : Outcome :=
  if dbg = true ∧ sh.executing = true then .hostEnds
  else if sh.child ≠ 0 then .hostEnds
  else if sh.parent = 0 then .raised
  else if dbg = true ∧ sh.parent ≠ 1 then .hostEnds
  else .returned

/-- The end of a call (`src/libsandbox.cc:956-991`), seen from outside: no function has begun in any case. -/
def Shows (x : Nat) (o : Outcome) (es : List Ev) (s : St) : Prop :=
  match o with
  | .raised => es = [.enter x, .raised] ∧ DeadRest s ∧ s.sh.child = 1
  | .returned => es = [.enter x, .leave] ∧ DeadRest s ∧ s.sh.child = 1
  | .hostEnds => es = [.enter x] ∧ s.pp = .aborted

end Spec

theorem alone_det {dbg : Bool} {s : St} {es es' : List Ev} {t t' : St} (h : Alone dbg s es t) (h' : Alone dbg s es' t') :
    es = es' ∧ t = t' := by
  induction h generalizing es' t' with
  | stop hd =>
    cases h' with
    | stop => exact ⟨rfl, rfl⟩
    | go hn => exact absurd hd hn
  | go hn hs _ ih =>
    cases h' with
    | stop hd => exact absurd hd hn
    | go _ hs' ht' =>
      rw [hs] at hs'
      simp only [Option.some.injEq, Prod.mk.injEq] at hs'
      obtain ⟨rfl, rfl⟩ := hs'
      obtain ⟨rfl, rfl⟩ := ih ht'
      exact ⟨rfl, rfl⟩

/-- **C110, exactly what a call does.**  The host is at rest, the sandbox dead, and the header says that it has loaded; it may hold anything else.  A
call ends, and what the caller sees is determined by three fields that the sandbox could write: `fate`. -/
theorem later_call (dbg : Bool) {s : St} (x : Nat) (h : DeadRest s) (hl : s.sh.loaded = true) :
    ∃ es s', Alone dbg (called s x) es s' ∧ Shows x (fate dbg s.sh) es s' := by
  obtain ⟨⟨child, parent, depth, executing, loaded, shouldExit, msg⟩, reqs, reps, next, dead, ps, pp, cs, cp⟩ := s
  obtain ⟨hd, hu, hr⟩ := h
  simp only at hd hu hr hl
  subst hd hu hr hl
  have nd : ∀ t : St, t.pp ≠ .user → t.pp ≠ .gone → t.pp ≠ .aborted → ¬ HostDone t := by
    intro t h1 h2 h3 h4
    rcases h4 with h4 | h4 | h4 <;> contradiction
  -- up to the assertion
  have pre : ∀ es t, Alone dbg ⟨⟨child, parent, depth, executing, true, shouldExit, some x⟩, reqs, reps, next, true, [],
      .a3 depth, cs, cp⟩ es t →
      Alone dbg (called ⟨⟨child, parent, depth, executing, true, shouldExit, msg⟩, reqs, reps, next, true, [], .user, cs, cp⟩ x)
        (.enter x :: es) t := by
    intro es t ht
    refine Alone.go (e := []) (nd _ nofun nofun nofun) rfl ?_
    refine Alone.go (e := []) (nd _ nofun nofun nofun) rfl ?_
    exact Alone.go (e := [.enter x]) (nd _ nofun nofun nofun) rfl ht
  by_cases hx : dbg = true ∧ executing = true
  · have : fate dbg ⟨child, parent, depth, executing, true, shouldExit, msg⟩ = .hostEnds := if_pos hx
    rw [this]
    refine ⟨[.enter x], ⟨⟨child, parent, depth, executing, true, shouldExit, some x⟩, reqs, reps, next, true, [],
      .aborted, cs, cp⟩, pre [] _ ?_, rfl, rfl⟩
    refine Alone.go (e := []) (es := []) (nd _ nofun nofun nofun) ?_ (Alone.stop (Or.inr (Or.inr rfl)))
    simp [hostNext, step, parentStep, hx]
  -- up to the wait
  have pre2 : ∀ es t, Alone dbg ⟨⟨child, parent, depth, true, true, shouldExit, some x⟩, reqs, reps, next, true, [],
      .a5 depth, cs, cp⟩ es t →
      Alone dbg (called ⟨⟨child, parent, depth, executing, true, shouldExit, msg⟩, reqs, reps, next, true, [], .user, cs, cp⟩ x)
        (.enter x :: es) t := by
    intro es t ht
    refine pre es t ?_
    refine Alone.go (e := []) (s1 := ⟨⟨child, parent, depth, executing, true, shouldExit, some x⟩, reqs, reps, next, true, [],
      .a4 depth, cs, cp⟩) (nd _ nofun nofun nofun) ?_ ?_
    · simp [hostNext, step, parentStep, hx]
    · exact Alone.go (e := []) (nd _ nofun nofun nofun) rfl ht
  have f1 : fate dbg ⟨child, parent, depth, executing, true, shouldExit, msg⟩ =
      if child ≠ 0 then .hostEnds else if parent = 0 then .raised
      else if dbg = true ∧ parent ≠ 1 then .hostEnds else .returned := if_neg hx
  rw [f1]
  by_cases hc : child ≠ 0
  · rw [if_pos hc]
    refine ⟨[.enter x], ⟨⟨child, parent, depth, true, true, shouldExit, some x⟩, reqs, reps, next, true, [], .aborted, cs, cp⟩,
      pre2 [] _ ?_, rfl, rfl⟩
    refine Alone.go (e := []) (es := []) (nd _ nofun nofun nofun) ?_ (Alone.stop (Or.inr (Or.inr rfl)))
    simp [hostNext, step, parentStep, wakeChild, hc]
  rw [if_neg hc]
  have hc : child = 0 := Classical.not_not.mp hc
  subst hc
  have pre3 : ∀ es t, Alone dbg ⟨⟨1, parent, depth, true, true, shouldExit, some x⟩, reqs, reps, next, true, [],
      .w depth, cs, cp⟩ es t →
      Alone dbg (called ⟨⟨0, parent, depth, executing, true, shouldExit, msg⟩, reqs, reps, next, true, [], .user, cs, cp⟩ x)
        (.enter x :: es) t := by
    intro es t ht
    exact pre2 es t (Alone.go (e := []) (nd _ nofun nofun nofun) rfl ht)
  by_cases hp : parent = 0
  · subst hp
    rw [if_pos rfl]
    exact ⟨[.enter x, .raised], _, pre3 _ _ (Alone.go (e := [.raised]) (es := []) (nd _ nofun nofun nofun) rfl
      (Alone.stop (Or.inl rfl))), rfl, ⟨rfl, rfl, rfl⟩, rfl⟩
  rw [if_neg hp]
  by_cases hd : dbg = true ∧ parent ≠ 1
  · rw [if_pos hd]
    refine ⟨[.enter x], ⟨⟨1, parent, depth, true, true, shouldExit, some x⟩, reqs, reps, next, true, [], .aborted, cs, cp⟩,
      pre3 [] _ ?_, rfl, rfl⟩
    refine Alone.go (e := []) (es := []) (nd _ nofun nofun nofun) ?_ (Alone.stop (Or.inr (Or.inr rfl)))
    simp [hostNext, step, parentStep, hp, hd]
  · rw [if_neg hd]
    refine ⟨[.enter x, .leave], ⟨⟨1, parent - 1, depth, true, true, shouldExit, some x⟩, reqs, reps, next, true, [], .user, cs, cp⟩,
      pre3 _ _ ?_, rfl, ⟨rfl, rfl, rfl⟩, rfl⟩
    refine Alone.go (e := []) (s1 := ⟨⟨1, parent - 1, depth, true, true, shouldExit, some x⟩, reqs, reps, next, true, [],
      .c1 depth, cs, cp⟩) (es := [.leave]) (nd _ nofun nofun nofun) ?_ ?_
    · simp [hostNext, step, parentStep, hp, hd]
    · refine Alone.go (e := [.leave]) (es := []) (nd _ nofun nofun nofun) ?_ (Alone.stop (Or.inl rfl))
      simp [hostNext, step, parentStep]

/-- Beside a dead sandbox that never said it had loaded, no call ends: not by returning, not by the exception. -/
theorem alone_unloaded {dbg : Bool} {s s' : St} {es : List Ev} (hD : LoadDead s) (h : Alone dbg s es s') :
    .leave ∉ es ∧ .raised ∉ es := by
  induction h with
  | stop => simp
  | go hn hs _ ih =>
    obtain ⟨h1, h2, h3⟩ := loadDead_step hD hs
    obtain ⟨h4, h5⟩ := ih h1
    simp [h2, h3, h4, h5]

theorem called_unloaded {s : St} (x : Nat) (h : DeadRest s) (hl : s.sh.loaded = false) : LoadDead (called s x) :=
  ⟨h.dead, hl, .s0 x, by simp [called, h.rest]⟩

/-- **C110**, the part that holds: a call into a dead sandbox raises the exception exactly if the sandbox left both semaphores clear, the
flag `is_child_loaded` set and, where assertions are compiled in, `is_child_executing` clear.  Missing, because false: that it
always does (`returns_iff`, `next_call_ends_host`, and C79 for the flag). -/
theorem raises_iff_partial (dbg : Bool) {s : St} (x : Nat) (h : DeadRest s) :
    (∃ es s', Alone dbg (called s x) es s' ∧ .raised ∈ es) ↔
      s.sh.loaded = true ∧ s.sh.child = 0 ∧ s.sh.parent = 0 ∧ (dbg = true → s.sh.executing = false) := by
  cases hl : s.sh.loaded with
  | false =>
    constructor
    · rintro ⟨es, s', ha, hm⟩
      exact absurd hm (alone_unloaded (called_unloaded x h hl) ha).2
    · rintro ⟨h1, -⟩
      contradiction
  | true =>
    obtain ⟨es, s', ha, hs⟩ := later_call dbg x h hl
    have key : .raised ∈ es ↔ fate dbg s.sh = .raised := by
      revert hs
      cases fate dbg s.sh <;> simp only [Shows] <;> rintro ⟨rfl, -⟩ <;> simp
    have hf : fate dbg s.sh = .raised ↔ s.sh.child = 0 ∧ s.sh.parent = 0 ∧ (dbg = true → s.sh.executing = false) := by
      unfold fate
      grind
    constructor
    · rintro ⟨es2, s2, ha2, hm⟩
      obtain ⟨rfl, rfl⟩ := alone_det ha ha2
      exact ⟨rfl, hf.mp (key.mp hm)⟩
    · rintro ⟨-, hh⟩
      exact ⟨es, s', ha, key.mpr (hf.mpr hh)⟩

/-- **C110 fails: the call returns.**  If the semaphore of the host is set and nothing else is amiss, the call returns like any other, though no
function has run: its results are what the frame held before. -/
theorem returns_iff (dbg : Bool) {s : St} (x : Nat) (h : DeadRest s) :
    (∃ es s', Alone dbg (called s x) es s' ∧ .leave ∈ es) ↔
      s.sh.loaded = true ∧ s.sh.child = 0 ∧ s.sh.parent ≠ 0 ∧
        (dbg = true → s.sh.executing = false ∧ s.sh.parent = 1) := by
  cases hl : s.sh.loaded with
  | false =>
    constructor
    · rintro ⟨es, s', ha, hm⟩
      exact absurd hm (alone_unloaded (called_unloaded x h hl) ha).1
    · rintro ⟨h1, -⟩
      contradiction
  | true =>
    obtain ⟨es, s', ha, hs⟩ := later_call dbg x h hl
    have key : .leave ∈ es ↔ fate dbg s.sh = .returned := by
      revert hs
      cases fate dbg s.sh <;> simp only [Shows] <;> rintro ⟨rfl, -⟩ <;> simp
    have hf : fate dbg s.sh = .returned ↔ s.sh.child = 0 ∧ s.sh.parent ≠ 0 ∧
        (dbg = true → s.sh.executing = false ∧ s.sh.parent = 1) := by
      unfold fate
      grind
    constructor
    · rintro ⟨es2, s2, ha2, hm⟩
      obtain ⟨rfl, rfl⟩ := alone_det ha ha2
      exact ⟨rfl, hf.mp (key.mp hm)⟩
    · rintro ⟨-, hh⟩
      exact ⟨es, s', ha, key.mpr (hf.mpr hh)⟩

/-- A call that has ended leaves the flag alone. -/
theorem alone_keeps_loaded {dbg : Bool} {s s' : St} {es : List Ev} (hd : s.dead = true) (hl : s.sh.loaded = true)
    (h : Alone dbg s es s') : s'.sh.loaded = true := by
  induction h with
  | stop => exact hl
  | @go s s1 s2 e es hn hs _ ih =>
    have : s1.dead = true ∧ s1.sh.loaded = true := by
      clear ih
      obtain ⟨sh, reqs, reps, next, dead, ps, pp, cs, cp⟩ := s
      simp only at hd hl
      subst hd
      cases pp <;> simp only [hostNext, step, parentStep, startHandler, wakeChild] at hs <;> grind
    exact ih this.1 this.2

/-- **C110 fails: the second call ends the host.**  After a call into a dead sandbox has raised the exception or returned, the next one
ends too, and aborts the host, whatever the sandbox has left behind. -/
theorem next_call_ends_host (dbg : Bool) {s s' : St} {x : Nat} {es : List Ev} (h : DeadRest s) (hl : s.sh.loaded = true)
    (h1 : Alone dbg (called s x) es s') (hu : s'.pp ≠ .aborted) (y : Nat) :
    ∃ s'', Alone dbg (called s' y) [.enter y] s'' ∧ s''.pp = .aborted := by
  obtain ⟨es2, s2, ha, hs⟩ := later_call dbg x h hl
  obtain ⟨rfl, rfl⟩ := alone_det h1 ha
  have hl' : s'.sh.loaded = true := alone_keeps_loaded (s := called s x) h.dead hl h1
  have hr : DeadRest s' ∧ s'.sh.child = 1 := by
    revert hs
    cases fate dbg s.sh <;> simp only [Shows]
    · exact fun ⟨_, a, b⟩ => ⟨a, b⟩
    · exact fun ⟨_, a, b⟩ => ⟨a, b⟩
    · exact fun ⟨_, a⟩ => absurd a hu
  obtain ⟨es3, s3, ha3, hs3⟩ := later_call dbg y hr.1 hl'
  have hf : fate dbg s'.sh = .hostEnds := by
    unfold fate
    rw [hr.2]
    grind
  rw [hf] at hs3
  obtain ⟨rfl, hp⟩ := hs3
  exact ⟨s3, ha3, hp⟩

/-- The function of call 5 runs to its end, and the sandbox has set the host's semaphore (`src/library_runner.cc:337-345`). -/
def doneActs : List Act := startActs ++ [.ret, .child, .child, .child]

/-- **C110 fails, without hostility.**  The sandbox runs the repository's own code.  It ends just after it has reported the end of a function, between
the host's look at the semaphore and its look at the process.  That call raises the exception although its function has run; and the next
call returns although its function has not. -/
theorem crash_makes_call_return (dbg : Bool) :
    ∃ s es, CoopRun dbg init doneActs ∧ run dbg init doneActs = some (s, es) ∧ .done ∈ es ∧
      ∃ s1, step dbg (kill s) .timeout = some (s1, [.raised]) ∧ DeadRest s1 ∧
        ∃ es2 s2, Alone dbg (called s1 6) es2 s2 ∧ es2 = [.enter 6, .leave] := by
  have hw : ∀ s1 : St, DeadRest s1 → s1.sh.loaded = true → fate dbg s1.sh = .returned →
      ∃ es2 s2, Alone dbg (called s1 6) es2 s2 ∧ es2 = [.enter 6, .leave] := by
    intro s1 h1 h2 h3
    obtain ⟨es, s', ha, hs⟩ := later_call dbg 6 h1 h2
    rw [h3] at hs
    exact ⟨es, s', ha, hs.1⟩
  cases dbg <;>
    refine ⟨_, _, ?_, rfl, by decide, _, rfl, ⟨rfl, rfl, rfl⟩, hw _ ⟨rfl, rfl, rfl⟩ rfl (by decide)⟩ <;>
    simp [CoopRun, doneActs, startActs, callActs, Coop, step, parentStep, childStep, wakeChild, wakeParent, init]

/-- A sandbox that has loaded, died, and left everything clear (`src/library_runner.cc:1115-1116`). -/
def exDead : St := { init with sh := { init.sh with loaded := true }, dead := true }

example : DeadRest exDead ∧ exDead.sh.loaded = true ∧ fate true exDead.sh = .raised ∧ fate false exDead.sh = .raised :=
  ⟨⟨rfl, rfl, rfl⟩, rfl, rfl, rfl⟩

/-- The first call raises, the second ends the host. -/
example (dbg : Bool) : ∃ es s', Alone dbg (called exDead 1) es s' ∧ .raised ∈ es ∧
    ∃ s'', Alone dbg (called s' 2) [.enter 2] s'' ∧ s''.pp = .aborted := by
  have hf : fate dbg exDead.sh = .raised := by cases dbg <;> rfl
  obtain ⟨es, s', ha, hs⟩ := later_call dbg 1 (s := exDead) ⟨rfl, rfl, rfl⟩ rfl
  rw [hf] at hs
  obtain ⟨rfl, hr, -⟩ := hs
  exact ⟨_, s', ha, by simp, next_call_ends_host dbg ⟨rfl, rfl, rfl⟩ rfl ha (by simp [hr.user]) 2⟩

/-- A header with which a call returns, and one with which it ends the host at once. -/
example : fate false ⟨0, 1, 0, false, true, false, none⟩ = .returned ∧ fate false ⟨1, 0, 0, false, true, false, none⟩ = .hostEnds ∧
    fate true ⟨0, 0, 0, true, true, false, none⟩ = .hostEnds := by decide

end Verif.Token
