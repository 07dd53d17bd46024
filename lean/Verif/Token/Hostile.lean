import Verif.Token.Crash

/-!
# What one write by a hostile sandbox does to the host (property C32)
-/

namespace Verif.Token.Spec

/-- What the host does, with its caller and its handlers (`src/libsandbox.cc:934-1018`). -/
def HostAct (a : Act) : Prop :=
  a = .parent ∨ (∃ x, a = .call x) ∨ (∃ v, a = .finish v) ∨ a = .destroy ∨ a = .timeout

/-- How many steps the host takes in its call protocol (`src/libsandbox.cc:934-1018`). -/
def hostSteps : List Act → Nat
  | [] => 0
  | .parent :: as => hostSteps as + 1
  | _ :: as => hostSteps as

end Verif.Token.Spec

namespace Verif.Token

open Spec

/-- How far the host is from being aborted. -/
private def far : PPc → Nat
  | .user => 6
  | .s0 _ => 6 | .a1 _ => 5 | .a2 _ _ => 4 | .a3 _ => 3 | .a4 _ => 2 | .a5 _ => 1
  | .l1 _ => 9 | .l2 _ => 8 | .l3 _ => 7 | .l4 _ => 3 | .l5 _ => 2 | .l6 _ => 1
  | .w _ => 9 | .c1 _ => 8 | .h1 _ => 7 | .h3 _ => 3 | .h4 _ => 2 | .h5 _ => 1
  | .d1 => 4 | .d2 => 3 | .d3 => 2 | .d4 => 1
  | .gone | .aborted => 0

/-- The header is as the sandbox left it. -/
private structure Trap (s : St) : Prop where
  alive : s.dead = false
  child : s.sh.child = 1
  loaded : s.sh.loaded = true
  parent : (∀ d, s.pp = .w d → s.sh.parent = 1 ∧ d < s.sh.depth) ∧ ∀ x, s.pp = .l2 x → s.sh.parent = 1
  deep : (∀ d, s.pp = .c1 d → d < s.sh.depth) ∧ ∀ x, s.pp = .l1 x → s.sh.parent = 1
  stays : s.pp ≠ .gone

private theorem trap_step {dbg : Bool} {s s' : St} {a : Act} {es : List Ev} (ht : Trap s) (ha : HostAct a)
    (h : step dbg s a = some (s', es)) :
    Trap s' ∧ (∀ e ∈ es, e ≠ .leave ∧ e ≠ .raised) ∧ hostSteps [a] + far s'.pp ≤ far s.pp := by
  obtain ⟨sh, reqs, reps, nx, dead, ps, pp, cs, cp⟩ := s
  obtain ⟨h1, h2, h3, h4, h5, h6⟩ := ht
  simp only at h1 h2 h3 h4 h5 h6
  rcases ha with rfl | ⟨x, rfl⟩ | ⟨v, rfl⟩ | rfl | rfl
  · cases pp <;> simp only [step, parentStep, startHandler, wakeChild] at h <;>
      (try split at h) <;> (try split at h) <;> (try simp only [Option.some.injEq, Prod.mk.injEq, reduceCtorEq] at h) <;>
      first
      | exact h.elim
      | (obtain ⟨rfl, rfl⟩ := h
         refine ⟨⟨?_, ?_, ?_, ?_, ?_, ?_⟩, ?_, ?_⟩ <;> (try split) <;> simp_all [hostSteps, far] <;> omega)
      | (obtain ⟨rfl, rfl⟩ := h
         refine ⟨⟨?_, ?_, ?_, ?_, ?_, ?_⟩, ?_, ?_⟩ <;> simp_all [hostSteps, far])
      | grind [hostSteps, far]
  · simp only [step] at h
    split at h
    · obtain ⟨rfl, rfl⟩ := by simpa using h
      rename_i hp
      subst hp
      exact ⟨⟨h1, h2, h3, ⟨by simp, by simp⟩, ⟨by simp, by simp⟩, by simp⟩, by simp, by simp [hostSteps, far]⟩
    · cases h
  · simp only [step] at h
    cases pp <;> try (cases h; done)
    rcases ps with _ | ⟨⟨f, id⟩, ps⟩
    · cases h
    · obtain ⟨rfl, rfl⟩ := by simpa using h
      cases f <;> exact ⟨⟨h1, h2, h3, ⟨by simp, by simp⟩, ⟨by simp, by simp⟩, by simp⟩, by simp, by simp [hostSteps, far]⟩
  · simp only [step] at h
    split at h
    · rename_i hp
      obtain ⟨rfl, rfl⟩ := by simpa using h
      obtain ⟨rfl, rfl⟩ := hp
      subst h1
      exact ⟨⟨rfl, h2, h3, ⟨by simp, by simp⟩, ⟨by simp, by simp⟩, by simp⟩, by simp, by simp [hostSteps, far]⟩
    · cases h
  · simp only [step] at h
    cases pp <;> try (cases h; done)
    subst h1
    obtain ⟨rfl, rfl⟩ := by simpa using h
    exact ⟨⟨rfl, h2, h3, h4, h5, h6⟩, by simp, by simp [hostSteps]⟩

private theorem trap_live (dbg : Bool) {s : St} (ht : Trap s) :
    s.pp = .aborted ∨ s.pp = .user ∨ (step dbg s .parent).isSome := by
  obtain ⟨sh, reqs, reps, nx, dead, ps, pp, cs, cp⟩ := s
  obtain ⟨h1, h2, h3, h4, h5, h6⟩ := ht
  simp only at h1 h2 h3 h4 h5 h6
  cases pp <;> simp only [step, parentStep] <;> (try split) <;> (try split) <;> simp_all

private theorem hostSteps_cons (a : Act) (as : List Act) : hostSteps (a :: as) = hostSteps [a] + hostSteps as := by
  cases a <;> simp [hostSteps] <;> omega

private theorem trap_run {dbg : Bool} (bs : List Act) : ∀ {s s' : St} {es : List Ev}, Trap s → (∀ a ∈ bs, HostAct a) →
    run dbg s bs = some (s', es) → Trap s' ∧ (∀ e ∈ es, e ≠ .leave ∧ e ≠ .raised) ∧ hostSteps bs + far s'.pp ≤ far s.pp := by
  induction bs with
  | nil => intro s s' es ht _ h; simp [run] at h; obtain ⟨rfl, rfl⟩ := h; exact ⟨ht, by simp, by simp [hostSteps]⟩
  | cons a bs ih =>
    intro s s' es ht hb h
    simp only [run] at h
    rcases h1 : step dbg s a with _ | ⟨s1, es1⟩
    · simp [h1] at h
    simp only [h1] at h
    rcases h2 : run dbg s1 bs with _ | ⟨s2, es2⟩
    · simp [h2] at h
    simp only [h2, Option.some.injEq, Prod.mk.injEq] at h
    obtain ⟨rfl, rfl⟩ := h
    obtain ⟨k1, k2, k3⟩ := trap_step ht (hb a (by simp)) h1
    obtain ⟨g1, g2, g3⟩ := ih k1 (fun b hm => hb b (by simp [hm])) h2
    refine ⟨g1, ?_, by rw [hostSteps_cons]; omega⟩
    intro e he
    rcases List.mem_append.mp he with he | he
    · exact k2 e he
    · exact g2 e he

/-- What the sandbox writes. -/
private def bait (p : PPc) : Sh :=
  ⟨1, 1, match p with | .w d | .c1 d => d + 1 | _ => 0, false, true, false, none⟩

/-- **C32** (violation, in full).  At every moment until the sandbox has been told to end, whatever has happened before, a
hostile sandbox can write one header after which, if it does nothing more, the host cannot go on: no call returns or raises any
more, the destructor does not get to wait for the sandbox, and after at most nine steps of its protocol the host is
aborted, unless it stays outside for ever, in a handler or in code that makes no call.  With and without assertions. -/
theorem one_write_aborts (dbg : Bool) (s : St) (hd : s.dead = false) (hg : s.pp ≠ .gone) :
    ∃ sh, ∀ bs s' es, (∀ a ∈ bs, HostAct a) → run dbg s (.write sh :: bs) = some (s', es) →
      (∀ e ∈ es, e ≠ .leave ∧ e ≠ .raised) ∧ s'.pp ≠ .gone ∧ hostSteps bs ≤ 9 ∧
        (s'.pp = .aborted ∨ s'.pp = .user ∨ (step dbg s' .parent).isSome) := by
  refine ⟨bait s.pp, fun bs s' es hb h => ?_⟩
  simp only [run, step, hd, Bool.false_eq_true, if_false] at h
  rw [show ({ s with sh := bait s.pp, dead := false } : St) = { s with sh := bait s.pp } by rw [← hd]] at h
  rcases h2 : run dbg { s with sh := bait s.pp } bs with _ | ⟨s2, es2⟩
  · simp [h2] at h
  simp only [h2, Option.some.injEq, Prod.mk.injEq, List.nil_append] at h
  obtain ⟨rfl, rfl⟩ := h
  have ht : Trap { s with sh := bait s.pp } := by
    refine ⟨hd, rfl, rfl, ⟨fun d hp => ?_, fun _ _ => rfl⟩, ⟨fun d hp => ?_, fun _ _ => rfl⟩, hg⟩
    · simp only at hp
      simp only [bait, hp]
      exact ⟨trivial, by omega⟩
    · simp only at hp
      simp only [bait, hp]
      omega
  obtain ⟨k1, k2, k3⟩ := trap_run bs ht hb h2
  refine ⟨k2, k1.stays, ?_, trap_live dbg k1⟩
  have : far s.pp ≤ 9 := by cases s.pp <;> simp [far]
  simp only at k3
  omega

/-- The hypotheses hold while the host waits for a function that it called from a handler; and there the host is indeed
aborted. -/
example (dbg : Bool) : ∃ s es s' es' sh bs, run dbg init (exLoad ++ exEnter ++ exAsk ++ .call 11 :: exEnter) = some (s, es) ∧
    s.dead = false ∧ s.pp = .w 1 ∧ (∀ a ∈ bs, HostAct a) ∧ run dbg s (.write sh :: bs) = some (s', es') ∧ s'.pp = .aborted := by
  cases dbg <;> exact ⟨_, _, _, _, ⟨1, 1, 2, false, true, false, none⟩, List.replicate 6 .parent, rfl, rfl, rfl,
    by simp [HostAct], rfl, rfl⟩

end Verif.Token
