import Verif.Threads.Props

/-!
# Threads that do not take turns, from every state between calls (property C78)

`Props` has one run for each way in which threads that do not take turns break the protocol.  Here each of them is shown
from every state that any number of threads can have reached by taking turns, when no call is in progress: for all
threads, all calls and all answers.  The bystanders are dealt with by `embed_run`: whatever some of the threads can do on
their own, they can do among any others that take no step.
-/

namespace Verif.Threads
open Verif.Token Spec

/-- The threads of `n` are among those of `m`: host thread `i` of `n` is host thread `f i` of `m`, sandbox thread `j` is
sandbox thread `g j`.  All the rest is the same (for the code of `src/libsandbox.cc:934-1018` and
`src/library_runner.cc:307-475`). -/
structure Embeds (f g : Nat → Nat) (n m : MSt) : Prop where
  sh : m.sh = n.sh
  reqs : m.reqs = n.reqs
  reps : m.reps = n.reps
  next : m.next = n.next
  dead : m.dead = n.dead
  hosts : ∀ (i : Nat) h, n.hosts[i]? = some h → m.hosts[f i]? = some h
  kids : ∀ (j : Nat) k, n.kids[j]? = some k → m.kids[g j]? = some k

/-- The action with the thread's number in the larger state (`src/libsandbox.cc:934-1018`, `src/library_runner.cc:307-475`). -/
def rename (f g : Nat → Nat) : MAct → MAct
  | .host i a => .host (f i) a
  | .kid j a => .kid (g j) a

theorem embed_step {dbg : Bool} {f g : Nat → Nat} {n n' m : MSt} {a : MAct} {es : List Ev}
    (hf : ∀ i j, f i = f j → i = j) (hg : ∀ i j, g i = g j → i = j) (h0 : g 0 = 0) (h : Embeds f g n m)
    (hs : mstep dbg n a = some (n', es)) :
    ∃ m', mstep dbg m (rename f g a) = some (m', es) ∧ Embeds f g n' m' := by
  cases a with
  | host i a =>
    simp only [mstep] at hs
    rcases hi : n.hosts[i]? with _ | x
    · simp [hi] at hs
    simp only [hi] at hs
    split at hs
    next ha =>
      rcases hst : step dbg (n.hostView x) a with _ | ⟨s, es'⟩
      · simp [hst] at hs
      simp only [hst, Option.some.injEq, Prod.mk.injEq] at hs
      obtain ⟨rfl, rfl⟩ := hs
      have hv : m.hostView x = n.hostView x := by
        simp [MSt.hostView, h.sh, h.reqs, h.reps, h.next, h.dead]
      refine ⟨m.hostBack (f i) s, by simp [rename, mstep, h.hosts i x hi, ha, hv, hst], ?_⟩
      refine ⟨rfl, rfl, rfl, rfl, rfl, ?_, h.kids⟩
      intro k y hk
      have hl := (List.getElem?_eq_some_iff.1 hi).1
      have hl' := (List.getElem?_eq_some_iff.1 (h.hosts i x hi)).1
      simp only [MSt.hostBack, List.getElem?_set] at hk ⊢
      by_cases hik : i = k
      · subst hik
        rw [if_pos rfl, if_pos hl] at hk
        rw [if_pos rfl, if_pos hl']
        exact hk
      · rw [if_neg hik] at hk
        rw [if_neg (fun e => hik (hf _ _ e))]
        exact h.hosts k y hk
    next => simp at hs
  | kid j a =>
    simp only [mstep] at hs
    rcases hi : n.kids[j]? with _ | x
    · simp [hi] at hs
    simp only [hi] at hs
    have hj : (g j ≠ 0) ↔ (j ≠ 0) := by
      constructor
      · rintro h1 rfl; exact h1 h0
      · intro h1 h2; exact h1 (hg _ _ (h2.trans h0.symm))
    split at hs
    next ha =>
      rcases hst : step dbg (n.kidView x) a with _ | ⟨s, es'⟩
      · simp [hst] at hs
      simp only [hst, Option.some.injEq, Prod.mk.injEq] at hs
      obtain ⟨rfl, rfl⟩ := hs
      have hv : m.kidView x = n.kidView x := by
        simp [MSt.kidView, h.sh, h.reqs, h.reps, h.next, h.dead]
      refine ⟨m.kidBack (g j) s, ?_, ?_⟩
      · simp only [rename, mstep, h.kids j x hi, hv, hst, hj, ha, if_true]
      refine ⟨rfl, rfl, rfl, rfl, rfl, h.hosts, ?_⟩
      intro k y hk
      have hl := (List.getElem?_eq_some_iff.1 hi).1
      have hl' := (List.getElem?_eq_some_iff.1 (h.kids j x hi)).1
      simp only [MSt.kidBack, List.getElem?_set] at hk ⊢
      by_cases hik : j = k
      · subst hik
        rw [if_pos rfl, if_pos hl] at hk
        rw [if_pos rfl, if_pos hl']
        exact hk
      · rw [if_neg hik] at hk
        rw [if_neg (fun e => hik (hg _ _ e))]
        exact h.kids k y hk
    next => simp at hs

/-- Bystanders make no difference: what some threads can do on their own, with the same events, they can do among any
other threads. -/
theorem embed_run {dbg : Bool} {f g : Nat → Nat} (hf : ∀ i j, f i = f j → i = j) (hg : ∀ i j, g i = g j → i = j)
    (h0 : g 0 = 0) : ∀ (as : List MAct) {n n' m : MSt} {es : List Ev}, Embeds f g n m →
    mrun dbg n as = some (n', es) →
    ∃ m', mrun dbg m (as.map (rename f g)) = some (m', es) ∧ Embeds f g n' m' := by
  intro as
  induction as with
  | nil =>
    intro n n' m es h hr
    simp only [mrun, Option.some.injEq, Prod.mk.injEq] at hr
    obtain ⟨rfl, rfl⟩ := hr
    exact ⟨m, rfl, h⟩
  | cons a as ih =>
    intro n n' m es h hr
    simp only [mrun] at hr
    rcases h1 : mstep dbg n a with _ | ⟨n1, es1⟩
    · simp [h1] at hr
    simp only [h1] at hr
    rcases h2 : mrun dbg n1 as with _ | ⟨n2, es2⟩
    · simp [h2] at hr
    simp only [h2, Option.some.injEq, Prod.mk.injEq] at hr
    obtain ⟨rfl, rfl⟩ := hr
    obtain ⟨m1, g1, g2⟩ := embed_step hf hg h0 h h1
    obtain ⟨m2, g3, g4⟩ := ih g2 h2
    exact ⟨m2, by simp [mrun, g1, g3], g4⟩

/-- Numbers two threads `i` and `j`. -/
private def two (i j : Nat) : Nat → Nat
  | 0 => i
  | 1 => j
  | k + 2 => i + j + 1 + k

private theorem two_inj {i j : Nat} (h : i ≠ j) : ∀ a b, two i j a = two i j b → a = b := by
  intro a b
  rcases a with _ | _ | a <;> rcases b with _ | _ | b <;> simp only [two] <;> intro e <;> first | rfl | omega

/-- Numbers the main thread and two others. -/
private def three (i j : Nat) : Nat → Nat
  | 0 => 0
  | k + 1 => two i j k

private theorem three_inj {i j : Nat} (h : i ≠ j) (hi : i ≠ 0) (hj : j ≠ 0) :
    ∀ a b, three i j a = three i j b → a = b := by
  intro a b
  rcases a with _ | _ | _ | a <;> rcases b with _ | _ | _ | b <;> simp only [three, two] <;> intro e <;>
    first | rfl | omega

/-- The state between calls, with only the threads that matter. -/
private def between (nx : Nat) (cp : CPc) (hs : List Host) (ks : List Kid) : MSt :=
  ⟨⟨0, 0, 0, false, true, false, none⟩, [], [], nx, false, hs, ⟨[], cp⟩ :: ks⟩

/-- Between calls, any two host threads and any two of the sandbox's are all that matters. -/
theorem idle_embeds {dbg : Bool} {nh nk : Nat} {as : List MAct} {m : MSt} {es : List Ev}
    (ht : TurnRun dbg (minit nh nk) as) (h : mrun dbg (minit nh nk) as = some (m, es))
    (hi : ∀ x ∈ m.hosts, x = Host.rest) (hl : m.sh.loaded = true) {i j a b : Nat} (hs : List Host) (ks : List Kid)
    (hhs : ∀ (k : Nat) x, hs[k]? = some x → x = Host.rest ∧ two i j k < m.hosts.length)
    (hks : ∀ (k : Nat) x, ks[k]? = some x → x = Kid.rest ∧ two a b k < m.kids.length ∧ two a b k ≠ 0) :
    ∃ cp, Parked 0 cp ∧ Embeds (two i j) (three a b) (between m.next cp hs ks) m := by
  obtain ⟨h1, h2, h3, ⟨k, hk, hc, hp⟩, h5⟩ := turns_idle_partial dbg nh nk as m es ht h hi hl
  obtain ⟨bs, s, hc', hr, r⟩ := sim_run as (rel_init nh nk) ht h
  obtain ⟨σ, -, hI⟩ := inv_run bs inv_init hc' hr
  refine ⟨k.cp, hp, h1, h2, h3, rfl, by rw [r.dead, hI.alive]; rfl, ?_, ?_⟩
  · intro n x hn
    obtain ⟨rfl, hl⟩ := hhs n x hn
    rw [List.getElem?_eq_getElem hl, hi _ (List.getElem_mem hl)]
  · intro n x hn
    cases n with
    | zero =>
      simp only [between, List.getElem?_cons_zero, Option.some.injEq] at hn
      subst hn
      simp only [three, hk]
      rw [← hc]
    | succ n =>
      simp only [between, List.getElem?_cons_succ] at hn
      obtain ⟨rfl, hl, hne⟩ := hks n x hn
      simp only [three]
      rw [List.getElem?_eq_getElem hl, h5 _ hne _ (List.getElem?_eq_getElem hl)]

/-- **C78, violated by the code from every state between calls: the host aborts.**  However many threads have used the
sandbox, taking turns: when no call is in progress, any two host threads that now call it at the same time can end the
host, whatever they call. -/
theorem any_two_calls_abort (dbg : Bool) (nh nk : Nat) (as : List MAct) (m : MSt) (es : List Ev)
    (ht : TurnRun dbg (minit nh nk) as) (h : mrun dbg (minit nh nk) as = some (m, es))
    (hi : ∀ x ∈ m.hosts, x = Host.rest) (hl : m.sh.loaded = true) (i j x y : Nat) (hij : i ≠ j)
    (hil : i < m.hosts.length) (hjl : j < m.hosts.length) :
    ∃ bs m', mrun dbg m (.host i (.call x) :: .host j (.call y) :: bs) = some (m', [.enter x, .enter y]) ∧
      ∃ z : Host, m'.hosts[j]? = some z ∧ z.pp = .aborted := by
  obtain ⟨cp, hp, he⟩ := idle_embeds ht h hi hl (i := i) (j := j) (a := 1) (b := 2) [Host.rest, Host.rest] []
    (by rintro (_ | _ | k) x hk <;> simp at hk <;> simp [hk, two, hil, hjl]) (by simp)
  have small : ∃ n', mrun dbg (between m.next cp [Host.rest, Host.rest] [])
      ([.host 0 (.call x), .host 1 (.call y)] ++ List.replicate 4 (.host 0 .parent) ++
        List.replicate 4 (.host 1 .parent) ++ [.host 0 .parent, .host 1 .parent, .host 0 .parent, .host 1 .parent]) =
      some (n', [.enter x, .enter y]) ∧ ∃ z : Host, n'.hosts[1]? = some z ∧ z.pp = .aborted := by
    cases dbg <;> exact ⟨_, rfl, _, rfl, rfl⟩
  obtain ⟨n', hn, z, hz, hza⟩ := small
  obtain ⟨m', hm, hem⟩ := embed_run (two_inj hij) (three_inj (by decide) (by decide) (by decide)) rfl _ he hn
  exact ⟨_, m', hm, z, hem.hosts 1 z hz, hza⟩

/-- The steps of the main thread from the state between calls to the next function. -/
private def wakeUp (cp : CPc) : Nat := match cp with | .r0 _ => 4 | _ => 3

/-- **C78, violated by the code from every state between calls: the wrong function runs.**  Any two host threads that
call at the same time, whatever they call: one call returns to its caller although its function never ran, and only the
function of the other did. -/
theorem any_two_calls_mix (dbg : Bool) (nh nk : Nat) (as : List MAct) (m : MSt) (es : List Ev)
    (ht : TurnRun dbg (minit nh nk) as) (h : mrun dbg (minit nh nk) as = some (m, es))
    (hi : ∀ x ∈ m.hosts, x = Host.rest) (hl : m.sh.loaded = true) (i j x y : Nat) (hij : i ≠ j)
    (hil : i < m.hosts.length) (hjl : j < m.hosts.length) :
    ∃ bs m', mrun dbg m (.host i (.call x) :: .host j (.call y) :: bs) =
        some (m', [.enter x, .enter y, .begin y, .done, .leave]) ∧
      m'.hosts[i]? = some Host.rest := by
  obtain ⟨cp, hp, he⟩ := idle_embeds ht h hi hl (i := i) (j := j) (a := 1) (b := 2) [Host.rest, Host.rest] []
    (by rintro (_ | _ | k) x hk <;> simp at hk <;> simp [hk, two, hil, hjl]) (by simp)
  have small : ∃ n', mrun dbg (between m.next cp [Host.rest, Host.rest] [])
      ([.host 0 (.call x), .host 1 (.call y)] ++ List.replicate 3 (.host 0 .parent) ++
        List.replicate 3 (.host 1 .parent) ++ List.replicate 3 (.host 0 .parent) ++
        List.replicate (wakeUp cp) (.kid 0 .child) ++
        .kid 0 .ret :: List.replicate 3 (.kid 0 .child) ++ List.replicate 2 (.host 0 .parent)) =
      some (n', [.enter x, .enter y, .begin y, .done, .leave]) ∧ n'.hosts[0]? = some Host.rest := by
    cases hp <;> cases dbg <;> exact ⟨_, rfl, rfl⟩
  obtain ⟨n', hn, hz⟩ := small
  obtain ⟨m', hm, hem⟩ := embed_run (two_inj hij) (three_inj (by decide) (by decide) (by decide)) rfl _ he hn
  exact ⟨_, m', hm, hem.hosts 0 _ hz⟩

/-- **C78, violated by the code from every state between calls: a call that has not run.**  If any thread of the sandbox
but the main one makes a callback while no call is in progress, the next call of any host thread can return to its caller
before its function has started. -/
theorem any_late_callback_ends_next_call (dbg : Bool) (nh nk : Nat) (as : List MAct) (m : MSt) (es : List Ev)
    (ht : TurnRun dbg (minit nh nk) as) (h : mrun dbg (minit nh nk) as = some (m, es))
    (hi : ∀ x ∈ m.hosts, x = Host.rest) (hl : m.sh.loaded = true) (i a x : Nat)
    (hil : i < m.hosts.length) (ha : a ≠ 0) (hal : a < m.kids.length) :
    ∃ bs m', mrun dbg m (.kid a .ask :: bs) = some (m', [.ask m.next, .enter x, .leave]) ∧
      m'.hosts[i]? = some Host.rest := by
  obtain ⟨cp, hp, he⟩ := idle_embeds ht h hi hl (i := i) (j := i + 1) (a := a) (b := a + 1) [Host.rest] [Kid.rest]
    (by rintro (_ | k) x hk <;> simp at hk; simp [hk, two, hil])
    (by rintro (_ | k) x hk <;> simp at hk; simp [hk, two, hal, ha])
  have small : ∃ n', mrun dbg (between m.next cp [Host.rest] [Kid.rest])
      (.kid 1 .ask :: List.replicate 3 (.kid 1 .child) ++ .host 0 (.call x) :: List.replicate 8 (.host 0 .parent)) =
      some (n', [.ask m.next, .enter x, .leave]) ∧ n'.hosts[0]? = some Host.rest := by
    cases dbg <;> exact ⟨_, rfl, rfl⟩
  obtain ⟨n', hn, hz⟩ := small
  obtain ⟨m', hm, hem⟩ := embed_run (two_inj (by omega)) (three_inj (by omega) ha (by omega)) rfl _ he hn
  exact ⟨_, m', hm, hem.hosts 0 _ hz⟩

private theorem mrun_append' {dbg : Bool} {as bs : List MAct} {m m1 m2 : MSt} {es fs : List Ev}
    (h1 : mrun dbg m as = some (m1, es)) (h2 : mrun dbg m1 bs = some (m2, fs)) :
    mrun dbg m (as ++ bs) = some (m2, es ++ fs) := by
  induction as generalizing m es with
  | nil =>
    simp only [mrun, Option.some.injEq, Prod.mk.injEq] at h1
    obtain ⟨rfl, rfl⟩ := h1
    exact h2
  | cons a as ih =>
    simp only [mrun] at h1
    rcases h3 : mstep dbg m a with _ | ⟨m3, es3⟩
    · simp [h3] at h1
    simp only [h3] at h1
    rcases h4 : mrun dbg m3 as with _ | ⟨m4, es4⟩
    · simp [h4] at h1
    simp only [h4, Option.some.injEq, Prod.mk.injEq] at h1
    obtain ⟨rfl, rfl⟩ := h1
    simp only [List.cons_append, mrun, h3, ih h4, List.append_assoc]

/-- The state in a call whose function runs. -/
private def during (nx : Nat) : MSt :=
  ⟨⟨0, 0, 0, true, true, false, none⟩, [], [], nx, false, [⟨[], .w 0⟩],
    [⟨[], .run (some 0)⟩, Kid.rest, Kid.rest]⟩

private theorem call_begins (dbg : Bool) (nx x : Nat) {cp : CPc} (hp : Parked 0 cp) :
    mrun dbg (between nx cp [Host.rest] [Kid.rest, Kid.rest])
      (.host 0 (.call x) :: List.replicate 6 (.host 0 .parent) ++ List.replicate (wakeUp cp) (.kid 0 .child)) =
      some (during nx, [.enter x, .begin x]) := by
  cases hp <;> cases dbg <;> rfl

/-- The state after the second of two callbacks has signalled. -/
private def crossing (nx : Nat) : MSt :=
  ⟨⟨0, 1, 1, false, true, false, none⟩, [nx, nx + 1], [], nx + 2, false, [⟨[], .w 0⟩],
    [⟨[], .run (some 0)⟩, ⟨[], .k2 nx none⟩, ⟨[(nx + 1, none)], .r0 1⟩]⟩

private theorem callbacks_begin (dbg : Bool) (nx : Nat) :
    mrun dbg (during nx) ([.kid 1 .ask, .kid 2 .ask] ++ List.replicate 3 (.kid 2 .child)) =
      some (crossing nx, [.ask nx, .ask (nx + 1)]) := by
  cases dbg <;> rfl

private theorem callbacks_cross (dbg : Bool) (nx v : Nat) : ∃ n',
    mrun dbg (crossing nx) (List.replicate 3 (.host 0 .parent) ++
        .host 0 (.finish v) :: List.replicate 3 (.host 0 .parent) ++ List.replicate 6 (.kid 2 .child)) =
      some (n', [.serve nx, .answer nx v, .got (nx + 1) nx v]) := by
  cases dbg <;> exact ⟨_, rfl⟩

/-- **C78, violated by the code in every call: another thread's reply.**  In the next call of any host thread, any two
threads of the sandbox that make callbacks at the same time can get each other's replies: the second callback returns with
the answer, whatever it is, that the host gave to the first. -/
theorem any_two_callbacks_cross (dbg : Bool) (nh nk : Nat) (as : List MAct) (m : MSt) (es : List Ev)
    (ht : TurnRun dbg (minit nh nk) as) (h : mrun dbg (minit nh nk) as = some (m, es))
    (hi : ∀ x ∈ m.hosts, x = Host.rest) (hl : m.sh.loaded = true) (i a b x v : Nat)
    (hil : i < m.hosts.length) (ha : a ≠ 0) (hal : a < m.kids.length) (hb : b ≠ 0) (hbl : b < m.kids.length)
    (hab : a ≠ b) :
    ∃ bs m', mrun dbg m (.host i (.call x) :: bs) =
      some (m', [.enter x, .begin x, .ask m.next, .ask (m.next + 1), .serve m.next, .answer m.next v,
        .got (m.next + 1) m.next v]) := by
  obtain ⟨cp, hp, he⟩ := idle_embeds ht h hi hl (i := i) (j := i + 1) (a := a) (b := b) [Host.rest]
    [Kid.rest, Kid.rest]
    (by rintro (_ | k) x hk <;> simp at hk; simp [hk, two, hil])
    (by rintro (_ | _ | k) x hk <;> simp at hk <;> simp [hk, two, hal, ha, hbl, hb])
  obtain ⟨n', hn⟩ := callbacks_cross dbg m.next v
  have hn := mrun_append' (mrun_append' (call_begins dbg m.next x hp) (callbacks_begin dbg m.next)) hn
  obtain ⟨m', hm, -⟩ := embed_run (two_inj (by omega)) (three_inj hab ha hb) rfl _ he hn
  exact ⟨_, m', hm⟩

/-- **C78, violated by the code in every call: the sandbox aborts.**  In the next call of any host thread, any two threads
of the sandbox that make callbacks at the same time can end the sandbox. -/
theorem any_two_callbacks_abort (dbg : Bool) (nh nk : Nat) (as : List MAct) (m : MSt) (es : List Ev)
    (ht : TurnRun dbg (minit nh nk) as) (h : mrun dbg (minit nh nk) as = some (m, es))
    (hi : ∀ x ∈ m.hosts, x = Host.rest) (hl : m.sh.loaded = true) (i a b x : Nat)
    (hil : i < m.hosts.length) (ha : a ≠ 0) (hal : a < m.kids.length) (hb : b ≠ 0) (hbl : b < m.kids.length)
    (hab : a ≠ b) :
    ∃ bs m', mrun dbg m (.host i (.call x) :: bs) =
        some (m', [.enter x, .begin x, .ask m.next, .ask (m.next + 1)]) ∧
      ∃ k : Kid, m'.kids[b]? = some k ∧ k.cp = .aborted := by
  obtain ⟨cp, hp, he⟩ := idle_embeds ht h hi hl (i := i) (j := i + 1) (a := a) (b := b) [Host.rest]
    [Kid.rest, Kid.rest]
    (by rintro (_ | k) x hk <;> simp at hk; simp [hk, two, hil])
    (by rintro (_ | _ | k) x hk <;> simp at hk <;> simp [hk, two, hal, ha, hbl, hb])
  have small : ∃ n', mrun dbg (during m.next) ([.kid 1 .ask, .kid 2 .ask] ++ List.replicate 3 (.kid 1 .child) ++
      List.replicate 3 (.kid 2 .child)) = some (n', [.ask m.next, .ask (m.next + 1)]) ∧
      ∃ k : Kid, n'.kids[2]? = some k ∧ k.cp = .aborted := by
    cases dbg <;> exact ⟨_, rfl, _, rfl, rfl⟩
  obtain ⟨n', hn, k, hk, hka⟩ := small
  have hn := mrun_append' (call_begins dbg m.next x hp) hn
  obtain ⟨m', hm, hem⟩ := embed_run (two_inj (by omega)) (three_inj hab ha hb) rfl _ he hn
  exact ⟨_, m', hm, k, hem.kids 2 k hk, hka⟩

/-- The hypotheses of these theorems hold after the first call of three host threads on a library with two threads. -/
example (dbg : Bool) : TurnRun dbg (minit 2 2) (loadCall ++ endCall) ∧
    (mrun dbg (minit 2 2) (loadCall ++ endCall)).map (fun r => (r.1.hosts, r.1.sh.loaded, r.1.kids.length)) =
      some ([Host.rest, Host.rest, Host.rest], true, 3) :=
  ⟨turnRun_of _ (by cases dbg <;> decide +kernel), by cases dbg <;> decide +kernel⟩

end Verif.Threads
