import Verif.Token.Hang

/-!
# Destroying a sandbox (property C88)

`Library::wait_for_child_exit` (`src/libsandbox.cc:1006-1018`), which the destructor calls, against the loader, the run loop
and the callbacks of the sandbox.  The sandbox may be destroyed at any time at which no call is in progress, also while it
is still loading.
-/

namespace Verif.Token
open Spec

namespace Spec

/-- Everything but the death of the sandbox and what a hostile sandbox does
(`src/libsandbox.cc:934-1018`, `src/library_runner.cc:307-475`). -/
def Tame : Act → Prop
  | .crash => False
  | .write _ => False
  | .inject _ => False
  | _ => True

instance : DecidablePred Tame := fun a => by cases a <;> unfold Tame <;> infer_instance

/-- Steps of the two processes: of the protocol, and of the code that loads the library
(`src/libsandbox.cc:1006-1018`, `src/library_runner.cc:307-475`). -/
def moves : List Act → Nat
  | [] => 0
  | .parent :: as => moves as + 1
  | .child :: as => moves as + 1
  | .ret :: as => moves as + 1
  | .ask :: as => moves as + 1
  | _ :: as => moves as

/-- Waits of the sandbox that end without success (`src/library_runner.cc:320`). -/
def retries : List Act → Nat
  | [] => 0
  | .childTimeout :: as => retries as + 1
  | _ :: as => retries as

/-- The sandbox process has ended and the host is in, or past, the wait for that
(`src/libsandbox.cc:1017`). -/
def Ended (s : St) : Prop := s.pp = .gone ∧ (s.cp = .exited ∨ s.cp = .aborted)

/-- The sandbox has made a callback while loading, which nobody will handle (`src/library_runner.cc:446-475`). -/
def InLoadCallback (s : St) : Prop := s.sh.loaded = false ∧ s.sh.depth = 1

end Spec

/-! ## Before the first call -/

/-- The configurations of a sandbox that is loading, for a host that has not made a call
(`src/library_runner.cc:446-475`, `:1090-1116`). -/
inductive Virgin : St → Prop
  | load {nx} : Virgin ⟨⟨0, 0, 0, false, false, false, none⟩, [], [], nx, false, [], .user, [], .run none⟩
  | loadEnd {nx} : Virgin ⟨⟨0, 0, 0, false, false, false, none⟩, [], [], nx, false, [], .user, [], .ld⟩
  | k2 {nx id} : Virgin ⟨⟨0, 0, 0, false, false, false, none⟩, [id], [], nx, false, [], .user, [], .k2 id none⟩
  | k3 {nx id} : Virgin ⟨⟨0, 0, 1, false, false, false, none⟩, [id], [], nx, false, [], .user, [], .k3 id none 1⟩
  | k4 {nx id} : Virgin ⟨⟨0, 0, 1, false, false, false, none⟩, [id], [], nx, false, [], .user, [], .k4 id none 1⟩
  | asked {nx id c} (hc : Parked 1 c) :
      Virgin ⟨⟨0, 1, 1, false, false, false, none⟩, [id], [], nx, false, [], .user, [(id, none)], c⟩

/-- A host outside all calls, with a sandbox that is loading, has not made a call (`src/libsandbox.cc:940-955`). -/
def First (s : St) : Prop := s.pp = .user → s.ps = [] → s.sh.loaded = false → Virgin s

theorem parent_not_first {dbg : Bool} {s s' : St} {es : List Ev} {σ : List Item} (hI : Inv s σ)
    (h : parentStep dbg s = some (s', es)) : s'.pp = .user → s'.ps = [] → s'.sh.loaded = true := by
  intro hu hp
  inv_cases hI <;> simp [parentStep, startHandler, wakeChild] at h <;>
    (try split at h) <;> (try simp at h) <;> (try (obtain ⟨rfl, rfl⟩ := h)) <;> simp_all

theorem wakeParent_host (s : St) (c : CPc) :
    (wakeParent s c).pp = s.pp ∧ (wakeParent s c).ps = s.ps ∧ (wakeParent s c).sh.loaded = s.sh.loaded := by
  unfold wakeParent; split <;> simp

/-- Actions of the sandbox leave the host alone, and the sandbox does not take back that it has loaded. -/
theorem sandbox_host {dbg : Bool} {s s' : St} {a : Act} {es : List Ev}
    (ha : a = .child ∨ a = .ask ∨ a = .ret ∨ a = .childTimeout) (h : step dbg s a = some (s', es)) :
    s'.pp = s.pp ∧ s'.ps = s.ps ∧ (s'.sh.loaded = false → s.sh.loaded = false) := by
  rcases ha with rfl | rfl | rfl | rfl <;> simp only [step] at h
  · split at h
    · cases h
    · unfold childStep at h
      have hw := wakeParent_host
      repeat' split at h
      all_goals first
        | contradiction
        | (simp only [Option.some.injEq, Prod.mk.injEq] at h
           obtain ⟨rfl, rfl⟩ := h
           simp [hw])
  all_goals
    repeat' split at h
    all_goals first
      | contradiction
      | (simp only [Option.some.injEq, Prod.mk.injEq] at h
         obtain ⟨rfl, rfl⟩ := h
         simp)

theorem virgin_step {dbg : Bool} {s s' : St} {a : Act} {es : List Ev} (hv : Virgin s)
    (ha : a = .child ∨ a = .ask ∨ a = .ret ∨ a = .childTimeout) (h : step dbg s a = some (s', es))
    (hl : s'.sh.loaded = false) : Virgin s' := by
  cases hv
  case asked hc =>
    cases hc <;> rcases ha with rfl | rfl | rfl | rfl <;> simp [step, childStep] at h <;>
      obtain ⟨rfl, rfl⟩ := h <;> first | exact .asked .r0 | exact .asked .r1
  all_goals
    rcases ha with rfl | rfl | rfl | rfl <;> simp [step, childStep, wakeParent] at h <;>
      (try (obtain ⟨rfl, rfl⟩ := h)) <;>
      first
        | exact .load | exact .loadEnd | exact .k2 | exact .k3 | exact .k4 | exact .asked .r0
        | (simp at hl)

theorem first_step {dbg : Bool} {s s' : St} {a : Act} {es : List Ev} {σ : List Item} (hI : Inv s σ)
    (hf : First s) (ha : Coop s a) (h : step dbg s a = some (s', es)) : First s' := by
  intro hu hp hl
  have sb (hk : a = .child ∨ a = .ask ∨ a = .ret ∨ a = .childTimeout) : Virgin s' := by
    obtain ⟨h1, h2, h3⟩ := sandbox_host hk h
    exact virgin_step (hf (h1 ▸ hu) (h2 ▸ hp) (h3 hl)) hk h hl
  cases a with
  | parent =>
    simp only [step] at h
    rw [parent_not_first hI h hu hp] at hl
    cases hl
  | call x =>
    simp only [step] at h
    split at h
    · simp only [Option.some.injEq, Prod.mk.injEq] at h
      obtain ⟨rfl, rfl⟩ := h
      cases hu
    · cases h
  | finish v =>
    simp only [step] at h
    split at h
    · simp only [Option.some.injEq, Prod.mk.injEq] at h
      obtain ⟨rfl, rfl⟩ := h
      dsimp only at hu
      split at hu <;> cases hu
    · cases h
  | destroy =>
    simp only [step, hI.alive] at h
    split at h
    · simp only [Option.some.injEq, Prod.mk.injEq] at h
      obtain ⟨rfl, rfl⟩ := h
      cases hu
    · cases h
  | timeout =>
    simp only [step, hI.alive] at h
    split at h
    · simp only [Bool.false_eq_true, if_false, Option.some.injEq, Prod.mk.injEq] at h
      obtain ⟨rfl, rfl⟩ := h
      simp_all
    · cases h
  | child => exact sb (by simp)
  | ask => exact sb (by simp)
  | ret => exact sb (by simp)
  | childTimeout => exact sb (by simp)
  | crash => exact ha.elim
  | write _ => exact ha.elim
  | inject _ => exact ha.elim

theorem first_run {dbg : Bool} (as : List Act) {s s' : St} {es : List Ev} {σ : List Item} (hI : Inv s σ) (hf : First s)
    (hc : CoopRun dbg s as) (h : run dbg s as = some (s', es)) : First s' := by
  induction as generalizing s σ es with
  | nil => simp [run] at h; obtain ⟨rfl, rfl⟩ := h; exact hf
  | cons a as ih =>
    simp only [run] at h
    rcases h1 : step dbg s a with _ | ⟨s1, es1⟩
    · simp [h1] at h
    · simp only [h1] at h
      rcases h2 : run dbg s1 as with _ | ⟨s2, es2⟩
      · simp [h2] at h
      · simp only [h2, Option.some.injEq, Prod.mk.injEq] at h
        obtain ⟨rfl, rfl⟩ := h
        obtain ⟨σ1, -, hI1⟩ := inv_step hI hc.1 h1
        exact ih hI1 (first_step hI hf hc.1 h1) (hc.2 _ _ h1) h2

/-! ## From the beginning of the destruction -/

/-- The host's part: how far `wait_for_child_exit` has come (`src/libsandbox.cc:1006-1018`). -/
def HostPart (s : St) : Prop :=
  (s.pp = .d1 ∧ s.sh.shouldExit = false ∧ s.sh.child = 0 ∧ s.sh.executing = false) ∨
  ((s.pp = .d2 ∨ s.pp = .d3) ∧ s.sh.shouldExit = true ∧ s.sh.child = 0 ∧ s.sh.executing = false) ∨
  (s.pp = .d4 ∧ s.sh.shouldExit = true ∧ s.sh.child = 0) ∨
  (s.pp = .gone ∧ s.sh.shouldExit = true ∧ s.sh.child ≤ 1)

/-- The sandbox's part (`src/library_runner.cc:307-475`). -/
def SandboxPart (s : St) : Prop :=
  match s.cp with
  | .run none => s.sh.parent = 0 ∧ s.sh.depth = 0 ∧ s.sh.loaded = false
  | .ld => s.sh.parent = 0 ∧ s.sh.depth = 0 ∧ s.sh.loaded = false
  | .k2 _ none => s.sh.parent = 0 ∧ s.sh.depth = 0 ∧ s.sh.loaded = false
  | .k3 _ none n => s.sh.parent = 0 ∧ n = 1 ∧ s.sh.depth = 1 ∧ s.sh.loaded = false
  | .k4 _ none n => s.sh.parent = 0 ∧ n = 1 ∧ s.sh.depth = 1 ∧ s.sh.loaded = false
  | .r0 n => n = s.sh.depth ∧ (s.sh.loaded = true ∧ n = 0 ∧ (s.sh.parent = 0 ∨ s.pp = .gone) ∨
      s.sh.loaded = false ∧ n = 1 ∧ s.sh.parent = 1)
  | .r1 n => n = s.sh.depth ∧ (s.pp = .d4 ∨ s.pp = .gone → s.sh.executing = true) ∧ (s.pp = .gone → s.sh.child = 1) ∧
      (s.sh.loaded = true ∧ n = 0 ∧ s.sh.parent = 0 ∨ s.sh.loaded = false ∧ n = 1 ∧ s.sh.parent = 1)
  | .r2 n => s.pp = .gone ∧ n = s.sh.depth ∧ s.sh.executing = true ∧
      (s.sh.loaded = true ∧ n = 0 ∧ s.sh.parent = 0 ∨ s.sh.loaded = false ∧ n = 1 ∧ s.sh.parent = 1)
  | .r3 n none => s.pp = .gone ∧ n = s.sh.depth ∧
      (s.sh.loaded = true ∧ n = 0 ∧ s.sh.parent = 0 ∨ s.sh.loaded = false ∧ n = 1 ∧ s.sh.parent = 1)
  | .r4 n => s.pp = .gone ∧ n = s.sh.depth ∧
      (s.sh.loaded = true ∧ n = 0 ∧ s.sh.parent = 0 ∨ s.sh.loaded = false ∧ n = 1 ∧ s.sh.parent = 1)
  | .r5 n => s.pp = .gone ∧ n = s.sh.depth ∧
      (s.sh.loaded = true ∧ n = 0 ∧ s.sh.parent = 0 ∨ s.sh.loaded = false ∧ n = 1 ∧ s.sh.parent = 1)
  | .r6 n => s.pp = .gone ∧ n = s.sh.depth ∧
      (s.sh.loaded = true ∧ n = 0 ∧ s.sh.parent = 0 ∨ s.sh.loaded = false ∧ n = 1 ∧ s.sh.parent = 1)
  | .exited => True
  | .aborted => s.pp = .gone ∧ s.sh.loaded = false ∧ s.sh.depth = 1
  | _ => False

/-- The invariant of a destruction (`src/libsandbox.cc:1006-1018`). -/
def Ends (s : St) : Prop := s.dead = false ∧ s.ps = [] ∧ s.sh.msg = none ∧ HostPart s ∧ SandboxPart s

/-- Steps left for the host (`src/libsandbox.cc:1013-1017`). -/
def hostLeft : PPc → Nat
  | .d1 => 4
  | .d2 => 3
  | .d3 => 2
  | .d4 => 1
  | _ => 0

/-- Steps left for the sandbox (`src/library_runner.cc:307-475`). -/
def sandboxLeft (s : St) : Nat :=
  match s.cp with
  | .run _ => 12
  | .k2 _ _ => 11
  | .k3 _ _ _ => 10
  | .k4 _ _ _ => 9
  | .ld => 9
  | .r0 _ => if s.sh.shouldExit then 1 else 8
  | .r1 _ => 7
  | .r2 _ => 6
  | .r3 _ _ => 5
  | .r4 _ => 4
  | .r5 _ => 3
  | .r6 _ => 2
  | _ => 0

theorem ends_step {dbg : Bool} {s s' : St} {a : Act} {es : List Ev} (hE : Ends s) (ha : Tame a)
    (h : step dbg s a = some (s', es)) :
    Ends s' ∧ moves [a] + (hostLeft s'.pp + sandboxLeft s') ≤ hostLeft s.pp + sandboxLeft s + retries [a] := by
  obtain ⟨⟨c, p, d, e, l, x, m⟩, reqs, reps, nx, dead, ps, pp, cs, cp⟩ := s
  obtain ⟨h1, h2, h3, h4, h5⟩ := hE
  simp only at h1 h2 h3
  subst h1 h2 h3
  cases a
  case crash => exact ha.elim
  case write => exact ha.elim
  case inject => exact ha.elim
  case parent =>
    simp only [HostPart] at h4
    rcases h4 with ⟨rfl, rfl, rfl, rfl⟩ | ⟨rfl | rfl, rfl, rfl, rfl⟩ | ⟨rfl, rfl, rfl⟩ | ⟨rfl, rfl, hc⟩ <;>
      simp [step, parentStep, wakeChild] at h <;> obtain ⟨rfl, rfl⟩ := h <;>
      rcases cp with ((_ | _) | _ | ⟨_, (_ | _)⟩ | ⟨_, (_ | _), _⟩ | ⟨_, (_ | _), _⟩ | _ | _ | _ | ⟨_, (_ | _)⟩ | _ | _ | _ | _ | _ | _) <;>
      simp_all [Ends, HostPart, SandboxPart, moves, retries, hostLeft, sandboxLeft] <;> grind
  case call =>
    simp only [HostPart] at h4
    rcases h4 with ⟨rfl, rfl, rfl, rfl⟩ | ⟨rfl | rfl, rfl, rfl, rfl⟩ | ⟨rfl, rfl, rfl⟩ | ⟨rfl, rfl, hc⟩ <;> simp [step] at h
  case finish =>
    simp [step] at h
  case destroy =>
    simp only [HostPart] at h4
    rcases h4 with ⟨rfl, rfl, rfl, rfl⟩ | ⟨rfl | rfl, rfl, rfl, rfl⟩ | ⟨rfl, rfl, rfl⟩ | ⟨rfl, rfl, hc⟩ <;> simp [step] at h
  case timeout =>
    simp only [HostPart] at h4
    rcases h4 with ⟨rfl, rfl, rfl, rfl⟩ | ⟨rfl | rfl, rfl, rfl, rfl⟩ | ⟨rfl, rfl, rfl⟩ | ⟨rfl, rfl, hc⟩ <;> simp [step] at h
  all_goals
    simp only [SandboxPart] at h5
    rcases cp with ((_ | _) | _ | ⟨_, (_ | _)⟩ | ⟨_, (_ | _), _⟩ | ⟨_, (_ | _), _⟩ | _ | _ | _ | ⟨_, (_ | _)⟩ | _ | _ | _ | _ | _ | _) <;>
      simp only [step, childStep] at h h5 <;> (try contradiction)
    all_goals
      simp only [HostPart] at h4
      rcases h4 with ⟨rfl, rfl, rfl, rfl⟩ | ⟨rfl | rfl, rfl, rfl, rfl⟩ | ⟨rfl, rfl, rfl⟩ | ⟨rfl, rfl, hc⟩ <;>
        simp [wakeParent] at h <;> (repeat' split at h) <;> (try simp at h) <;>
        (try contradiction) <;>
        (try (obtain ⟨rfl, rfl⟩ := h)) <;>
        simp_all [Ends, HostPart, SandboxPart, moves, retries, hostLeft, sandboxLeft] <;> grind

theorem moves_cons (a : Act) (as : List Act) : moves (a :: as) = moves [a] + moves as := by
  cases a <;> simp [moves] <;> omega

theorem retries_cons (a : Act) (as : List Act) : retries (a :: as) = retries [a] + retries as := by
  cases a <;> simp [retries] <;> omega

theorem ends_run {dbg : Bool} (bs : List Act) {s s' : St} {es : List Ev} (hE : Ends s) (ht : ∀ a ∈ bs, Tame a)
    (h : run dbg s bs = some (s', es)) :
    Ends s' ∧ moves bs + (hostLeft s'.pp + sandboxLeft s') ≤ hostLeft s.pp + sandboxLeft s + retries bs := by
  induction bs generalizing s es with
  | nil => simp [run] at h; obtain ⟨rfl, rfl⟩ := h; simp [moves, retries, hE]
  | cons a as ih =>
    simp only [run] at h
    rcases h1 : step dbg s a with _ | ⟨s1, es1⟩
    · simp [h1] at h
    · simp only [h1] at h
      rcases h2 : run dbg s1 as with _ | ⟨s2, es2⟩
      · simp [h2] at h
      · simp only [h2, Option.some.injEq, Prod.mk.injEq] at h
        obtain ⟨rfl, rfl⟩ := h
        obtain ⟨hE1, hm1⟩ := ends_step hE (ht a (by simp)) h1
        obtain ⟨hE2, hm2⟩ := ih hE1 (fun b hb => ht b (by simp [hb])) h2
        refine ⟨hE2, ?_⟩
        rw [moves_cons, retries_cons]
        omega

theorem ends_begin {dbg : Bool} {s s1 : St} {es : List Ev} {σ : List Item} (hI : Inv s σ) (hf : First s)
    (h : step dbg s .destroy = some (s1, es)) :
    Ends s1 ∧ hostLeft s1.pp + sandboxLeft s1 ≤ 16 := by
  simp only [step, hI.alive] at h
  split at h
  · rename_i hu
    simp only [Bool.false_eq_true, if_false, Option.some.injEq, Prod.mk.injEq] at h
    obtain ⟨rfl, rfl⟩ := h
    by_cases hl : s.sh.loaded = true
    · obtain ⟨hu1, hu2⟩ := hu
      inv_cases hI <;> simp at hu1 hu2 hl <;> subst hu2 <;> cases ‹Base _ _ _ _› <;>
        simp [Ends, HostPart, SandboxPart, hostLeft, sandboxLeft]
    · have hv := hf hu.1 hu.2 (by simpa using hl)
      cases hv <;> (try cases ‹Parked _ _›) <;>
        simp [Ends, HostPart, SandboxPart, hostLeft, sandboxLeft]
  · cases h

/-- A destruction in progress does not stall: the host's step, the sandbox's step, or the end of the code that loads the
library is possible. -/
theorem ends_live (dbg : Bool) {s : St} (hE : Ends s) :
    Ended s ∨ ∃ a, (a = .parent ∨ a = .child ∨ (a = .ret ∧ s.cp = .run none)) ∧ (step dbg s a).isSome := by
  obtain ⟨⟨c, p, d, e, l, x, m⟩, reqs, reps, nx, dead, ps, pp, cs, cp⟩ := s
  obtain ⟨h1, h2, h3, h4, h5⟩ := hE
  simp only at h1 h2 h3
  subst h1 h2 h3
  simp only [HostPart] at h4
  rcases h4 with ⟨rfl, rfl, rfl, rfl⟩ | ⟨rfl | rfl, rfl, rfl, rfl⟩ | ⟨rfl, rfl, rfl⟩ | ⟨rfl, rfl, hc⟩
  case inr.inr.inr =>
    rcases cp with ((_ | _) | _ | ⟨_, (_ | _)⟩ | ⟨_, (_ | _), _⟩ | ⟨_, (_ | _), _⟩ | _ | _ | _ | ⟨_, (_ | _)⟩ | _ | _ | _ | _ | _ | _) <;>
      simp only [SandboxPart] at h5
    case exited => exact .inl ⟨rfl, .inl rfl⟩
    case aborted => exact .inl ⟨rfl, .inr rfl⟩
    case run.none => exact .inr ⟨.ret, .inr (.inr ⟨rfl, rfl⟩), by simp [step]⟩
    all_goals
      refine .inr ⟨.child, .inr (.inl rfl), ?_⟩
      simp only [step, childStep, Bool.false_eq_true, if_false]
      grind
  all_goals exact .inr ⟨.parent, .inl rfl, by simp [step, parentStep]⟩

theorem wakeChild_loaded (s : St) (p : PPc) : (wakeChild s p).sh.loaded = s.sh.loaded := by
  unfold wakeChild; split <;> rfl

theorem startHandler_loaded (s : St) (f : From) (p : PPc) : (startHandler s f p).1.sh.loaded = s.sh.loaded := by
  unfold startHandler; split <;> rfl

/-- Unless the sandbox is hostile, that it has loaded is not taken back. -/
theorem loaded_step {dbg : Bool} {s s' : St} {a : Act} {es : List Ev} (ha : Tame a) (hl : s.sh.loaded = true)
    (h : step dbg s a = some (s', es)) : s'.sh.loaded = true := by
  have sb (hk : a = .child ∨ a = .ask ∨ a = .ret ∨ a = .childTimeout) : s'.sh.loaded = true := by
    have h3 := (sandbox_host hk h).2.2
    rcases hx : s'.sh.loaded with _ | _
    · rw [h3 hx] at hl; cases hl
    · rfl
  cases a with
  | child => exact sb (by simp)
  | ask => exact sb (by simp)
  | ret => exact sb (by simp)
  | childTimeout => exact sb (by simp)
  | crash => exact ha.elim
  | write _ => exact ha.elim
  | inject _ => exact ha.elim
  | parent =>
    simp only [step, parentStep] at h
    have hs := startHandler_loaded
    repeat' split at h
    all_goals first
      | contradiction
      | (simp only [Option.some.injEq, Prod.mk.injEq] at h
         obtain ⟨rfl, rfl⟩ := h
         simp [wakeChild_loaded, hl])
      | (simp only [Option.some.injEq] at h
         have := congrArg (fun r => r.1.sh.loaded) h
         simp only [hs, hl] at this
         exact this.symm)
  | _ =>
    simp only [step] at h
    repeat' split at h
    all_goals first
      | contradiction
      | (simp only [Option.some.injEq, Prod.mk.injEq] at h
         obtain ⟨rfl, rfl⟩ := h
         simp [hl])

theorem loaded_run {dbg : Bool} (bs : List Act) {s s' : St} {es : List Ev} (ht : ∀ a ∈ bs, Tame a)
    (hl : s.sh.loaded = true) (h : run dbg s bs = some (s', es)) : s'.sh.loaded = true := by
  induction bs generalizing s es with
  | nil => simp [run] at h; obtain ⟨rfl, rfl⟩ := h; exact hl
  | cons a as ih =>
    simp only [run] at h
    rcases h1 : step dbg s a with _ | ⟨s1, es1⟩
    · simp [h1] at h
    · simp only [h1] at h
      rcases h2 : run dbg s1 as with _ | ⟨s2, es2⟩
      · simp [h2] at h
      · simp only [h2, Option.some.injEq, Prod.mk.injEq] at h
        obtain ⟨rfl, rfl⟩ := h
        exact ih (fun b hb => ht b (by simp [hb])) (loaded_step (ht a (by simp)) hl h1) h2

/-- **C88** (destruction ends).  Take any run of a host and a sandbox that co-operate, at whose end no call is in progress,
and let the host destroy the sandbox, whether it has loaded, is still loading, or waits, while loading, for the answer to a
callback.  Then, however the two processes are scheduled: the host is not aborted; the two processes together take at most 16
more steps, plus one for each time the sandbox's wait ends without success; as long as the sandbox process has not ended, one
of them can take a step (while the library is loading: once the loading code returns); and the sandbox ends by `exit(0)`,
unless it waits, while loading, for the answer to a callback; in particular a sandbox that had loaded always does. -/
theorem destroy_ends (dbg : Bool) (as bs : List Act) (s s1 s2 : St) (es es1 es2 : List Ev)
    (hc : CoopRun dbg init as) (h : run dbg init as = some (s, es)) (hd : step dbg s .destroy = some (s1, es1))
    (ht : ∀ a ∈ bs, Tame a) (hb : run dbg s1 bs = some (s2, es2)) :
    s2.pp ≠ .aborted ∧ moves bs ≤ 16 + retries bs ∧
    (Ended s2 ∨ ∃ a, (a = .parent ∨ a = .child ∨ (a = .ret ∧ s2.cp = .run none)) ∧ (step dbg s2 a).isSome) ∧
    (s2.cp = .aborted → InLoadCallback s2) ∧ (s.sh.loaded = true → s2.cp ≠ .aborted) := by
  obtain ⟨σ, -, hI⟩ := inv_run as inv_init hc h
  have hf : First s := first_run as inv_init (fun _ _ _ => .load) hc h
  obtain ⟨hE1, hr⟩ := ends_begin hI hf hd
  obtain ⟨hE2, hm⟩ := ends_run bs hE1 ht hb
  have hlast : s2.cp = .aborted → InLoadCallback s2 := by
    intro ha
    obtain ⟨-, -, -, -, hp⟩ := hE2
    simp only [SandboxPart, ha] at hp
    exact hp.2
  refine ⟨?_, by omega, ends_live dbg hE2, hlast, ?_⟩
  · obtain ⟨-, -, -, hp, -⟩ := hE2
    intro ha
    simp [HostPart, ha] at hp
  · intro hl ha
    have h2 := loaded_run bs ht (loaded_step (a := .destroy) trivial hl hd) hb
    rw [(hlast ha).1] at h2
    cases h2

/-- The run before the destruction in the two examples below: a callback made while loading, with the sandbox waiting
(`src/library_runner.cc:446-475`). -/
def exAsked : List Act := [.ask, .child, .child, .child, .child]

/-- The hypotheses of `destroy_ends` hold of a sandbox that is destroyed while its loader waits for the answer to a
callback, with the whole destruction as continuation. -/
example (dbg : Bool) : ∃ s s1 s2 es es1 es2 bs, CoopRun dbg init exAsked ∧ run dbg init exAsked = some (s, es) ∧
    step dbg s .destroy = some (s1, es1) ∧ (∀ a ∈ bs, Tame a) ∧ run dbg s1 bs = some (s2, es2) ∧ moves bs = 10 ∧
    s.sh.depth = 1 := by
  cases dbg <;> exact ⟨_, _, _, _, _, _, List.replicate 4 .parent ++ List.replicate 6 .child,
    coopRun_of_check _ (by decide +kernel), rfl, rfl, by decide, rfl, by decide, by decide⟩

/-- The hypotheses of `destroy_ends` hold of a sandbox that has loaded and served nested calls. -/
example (dbg : Bool) : ∃ s s1 es es1, CoopRun dbg init exRun ∧ run dbg init exRun = some (s, es) ∧
    step dbg s .destroy = some (s1, es1) ∧ s.sh.loaded = true := by
  have h : (run dbg init exRun).map (fun r => (r.1.pp, r.1.ps, r.1.sh.loaded)) =
      some (.user, [], true) := by cases dbg <;> decide +kernel
  rcases hr : run dbg init exRun with _ | ⟨s, es⟩
  · simp [hr] at h
  · simp [hr] at h
    refine ⟨s, { s with pp := if s.dead then .gone else .d1 }, es, [], exRun_coop dbg, rfl, ?_, h.2.2⟩
    simp [step, h.1, h.2.1]

/-- **C88** (negation: the exit code).  A sandbox that is destroyed while its loader waits for the answer to a callback is
woken with its callback unanswered, takes that for an empty call, and aborts on the semaphore of the host, which is still
set: it does not end by `exit(0)`. -/
theorem destroy_in_callback_aborts (dbg : Bool) :
    ∃ s s1 s2 es es1 es2 bs, CoopRun dbg init exAsked ∧ run dbg init exAsked = some (s, es) ∧
      step dbg s .destroy = some (s1, es1) ∧ (∀ a ∈ bs, Tame a) ∧ run dbg s1 bs = some (s2, es2) ∧
      s2.pp = .gone ∧ s2.cp = .aborted := by
  cases dbg <;> exact ⟨_, _, _, _, _, _, List.replicate 4 .parent ++ List.replicate 6 .child,
    coopRun_of_check _ (by decide +kernel), rfl, rfl, by decide, rfl, rfl, rfl⟩

set_option linter.unusedSimpArgs false in
/-- **C88** (negation: no limit).  The destructor sets no deadline and sends no signal: while the code of the library neither
returns nor makes a callback, the destructor does not return, however often the host is scheduled and whatever is written to
the shared memory. -/
theorem destroy_waits {dbg : Bool} (bs : List Act) {s s' : St} {es : List Ev} (e : Option Int) (hp : s.pp = .gone)
    (hd : s.dead = false) (hc : s.cp = .run e) (hb : ∀ a ∈ bs, a ≠ .ret ∧ a ≠ .ask ∧ a ≠ .crash)
    (h : run dbg s bs = some (s', es)) : s'.pp = .gone ∧ s'.dead = false ∧ s'.cp = .run e := by
  induction bs generalizing s es with
  | nil => simp [run] at h; obtain ⟨rfl, rfl⟩ := h; exact ⟨hp, hd, hc⟩
  | cons a as ih =>
    simp only [run] at h
    rcases h1 : step dbg s a with _ | ⟨s1, es1⟩
    · simp [h1] at h
    · simp only [h1] at h
      rcases h2 : run dbg s1 as with _ | ⟨s2, es2⟩
      · simp [h2] at h
      · simp only [h2, Option.some.injEq, Prod.mk.injEq] at h
        obtain ⟨rfl, rfl⟩ := h
        have ha := hb a (by simp)
        have hk : s1.pp = .gone ∧ s1.dead = false ∧ s1.cp = .run e := by
          cases a <;> simp [step, parentStep, childStep, hp, hd, hc] at h1 ha <;>
            obtain ⟨rfl, rfl⟩ := h1 <;> simp [hp, hd, hc]
        exact ih hk.1 hk.2.1 hk.2.2 (fun b hbm => hb b (by simp [hbm])) h2

/-- Such a state is reached by destroying a sandbox whose loader runs; hostile writes are possible from it. -/
example (dbg : Bool) : ∃ s es, run dbg init (.destroy :: List.replicate 4 .parent) = some (s, es) ∧ s.pp = .gone ∧
    s.dead = false ∧ s.cp = .run none ∧ (run dbg s [.write init.sh, .write init.sh]).isSome := by
  cases dbg <;> exact ⟨_, _, rfl, rfl, rfl, rfl, rfl⟩

/-- **C88** (a wait that fails).  A sandbox whose wait ends without success, for a signal say, and which then goes on, has ended
by `exit(0)` if the host has asked it to, whether or not it was woken; otherwise it waits as before.  Nothing else has
changed. -/
theorem failed_wait (dbg : Bool) (s : St) (n : Int) (hd : s.dead = false) (hc : s.cp = .r1 n) :
    run dbg s [.childTimeout, .child] = some (if s.sh.shouldExit then { s with cp := .exited } else s, []) := by
  obtain ⟨sh, reqs, reps, nx, dead, ps, pp, cs, cp⟩ := s
  simp only at hd hc
  subst hd hc
  simp only [run, step, childStep]
  cases h : sh.shouldExit <;> simp [h]

/-- The hypotheses can be met, before the host has asked the sandbox to end and after that. -/
example (dbg b : Bool) : ∃ s n, s.dead = false ∧ s.cp = .r1 n ∧ s.sh.shouldExit = b ∧
    ∃ es, run dbg init (exLoad ++ exEnter ++ exReturn ++ if b then [.destroy, .parent] else []) = some (s, es) := by
  cases dbg <;> cases b <;> exact ⟨_, 0, rfl, rfl, rfl, _, rfl⟩

end Verif.Token
