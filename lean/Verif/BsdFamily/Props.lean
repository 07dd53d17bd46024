import Verif.BsdFamily.Spec
import Verif.Child.Pd

/-!
# Several children of one host on FreeBSD: property C125
-/

namespace Verif.BsdFamily
open Verif.Child (ExitStatus KAns Result)

/-- What always holds in a host that goes on: each sandbox has a descriptor of its own process and a queue of its own, which waits
for the end of that process until the end is known; nothing else is open but what the host opened itself. -/
structure Inv (s : St) : Prop where
  own : ∀ (i : Nat) (h : Hdl), s.handles[i]? = some (some h) → s.fds h.pd = some (.proc i) ∧ ∃ l, s.life i = some l ∧
    ((h.status = ⟨false, 0⟩ ∧ s.fds h.kq = some (.queue (some i))) ∨
      ∃ st w, l = some st ∧ h.status = ⟨true, st / 256⟩ ∧ s.fds h.kq = some (.queue w))
  procs : ∀ f p, s.fds f = some (.proc p) → ∃ h, s.handles[p]? = some (some h) ∧ h.pd = f
  queues : ∀ f w, s.fds f = some (.queue w) → ∃ (i : Nat) (h : Hdl), s.handles[i]? = some (some h) ∧ h.kq = f
  uniq : ∀ (i j : Nat) (h h' : Hdl), s.handles[i]? = some (some h) → s.handles[j]? = some (some h') → h.kq = h'.kq → i = j
  born : ∀ p, s.life p ≠ none → p < s.handles.length

/-- What was seen is true: a query that said that the process had ended said so rightly, and nobody was killed by what was
meant for another. -/
def LogOk (s : St) : Prop :=
  (∀ i e, .said i e ∈ s.log → e = truth none ∨ ∃ st, s.life i = some (some st) ∧ e = truth (some st)) ∧
  ∀ i who, .killed i who ∈ s.log → who = i

theorem inv_start : Inv {} := by
  constructor <;> simp

theorem pdWait_one (e : ExitStatus) (he : e.hasExited = false) (k n d : Nat) :
    Child.pdWait e (List.replicate k .eintr ++ [.events n d]) =
      if n = 1 then (.status ⟨true, d / 256⟩, ⟨true, d / 256⟩, []) else (.status e, e, []) := by
  have h := (Child.pdAsk_some (List.replicate k .eintr ++ [.events n d]) (.events n d) []).2 ⟨by simp, k, rfl⟩
  rw [Child.pdWait, if_neg (by simp [he]), h]
  rfl

theorem set_self {α : Type} {l : List α} {i : Nat} {x : α} (h : l[i]? = some x) : l.set i x = l := by
  apply List.ext_getElem?
  intro j
  rw [List.getElem?_set]
  grind

/-- A query about a process that runs. -/
theorem ask_running {s : St} (g : Inv s) {i k : Nat} {h : Hdl} (hi : s.handles[i]? = some (some h)) (hl : s.life i = some none)
    (b : Bool) : ask s i k b = if b then none else some (some (truth none), s) := by
  obtain ⟨_, l, h2, h3⟩ := g.own i h hi
  rw [hl] at h2
  cases h2
  rcases h3 with ⟨h3, h4⟩ | ⟨st, w, h3, _⟩
  · have hx : ¬ h.status.hasExited = true := by rw [h3]; simp
    simp only [ask, hi, if_neg hx, kevent, h4, Option.bind_some, hl]
    cases b
    · simp only [Bool.false_eq_true, if_false]
      rw [pdWait_one _ (by rw [h3]) k]
      simp only [Nat.zero_ne_one, if_false, h3, truth]
      rw [← h3, set_self hi]
    · simp
  · cases h3

/-- A query about a process that has ended. -/
theorem ask_ended {s : St} (g : Inv s) {i k st : Nat} {h : Hdl} (hi : s.handles[i]? = some (some h))
    (hl : s.life i = some (some st)) (b : Bool) :
    ∃ s', ask s i k b = some (some (truth (some st)), s') ∧ Inv s' ∧ s'.life = s.life ∧ s'.log = s.log ∧ s'.over = s.over ∧
      s'.handles.length = s.handles.length ∧
      s'.handles[i]? = some (some { h with status := truth (some st) }) := by
  obtain ⟨h1, l, h2, h3⟩ := g.own i h hi
  rw [hl] at h2
  cases h2
  rcases h3 with ⟨h3, h4⟩ | ⟨st', w, h3, h4, h5⟩
  · have hx : ¬ h.status.hasExited = true := by rw [h3]; simp
    have hlt : i < s.handles.length := (List.getElem?_eq_some_iff.1 hi).1
    simp only [ask, hi, if_neg hx, kevent, h4, Option.bind_some, hl]
    rw [pdWait_one _ (by rw [h3]) k]
    simp only [if_true]
    refine ⟨_, rfl, ?_, rfl, rfl, rfl, by simp, by simp [hlt, truth]⟩
    have hset : ∀ j h', (s.handles.set i (some { h with status := ⟨true, st / 256⟩ }))[j]? = some (some h') →
        (j = i ∧ h' = { h with status := ⟨true, st / 256⟩ }) ∨ (j ≠ i ∧ s.handles[j]? = some (some h')) := by
      intro j h' hj
      rw [List.getElem?_set] at hj
      split at hj
      · rename_i e
        subst e
        cases hj
        exact .inl ⟨rfl, rfl⟩
      · rename_i e
        exact .inr ⟨fun e' => e e'.symm, hj⟩
    have hget : ∀ (j : Nat) (h' : Hdl), s.handles[j]? = some (some h') →
        ∃ h'' : Hdl, (s.handles.set i (some { h with status := ⟨true, st / 256⟩ }))[j]? = some (some h'') ∧
          h''.pd = h'.pd ∧ h''.kq = h'.kq := by
      intro j h' hj
      rw [List.getElem?_set]
      by_cases e : i = j
      · subst e
        rw [hi] at hj
        cases hj
        exact ⟨{ h with status := ⟨true, st / 256⟩ }, by rw [if_pos rfl, if_pos hlt], rfl, rfl⟩
      · exact ⟨h', by rw [if_neg e]; exact hj, rfl, rfl⟩
    constructor
    · intro j h' hj
      rcases hset j h' hj with ⟨rfl, rfl⟩ | ⟨hne, hj⟩
      · refine ⟨?_, some st, hl, .inr ⟨st, none, rfl, rfl, by simp [upd]⟩⟩
        simp only [upd]
        split
        · rename_i e; rw [e, h4] at h1; cases h1
        · exact h1
      · obtain ⟨g1, l, g2, g3⟩ := g.own j h' hj
        have hk : h'.kq ≠ h.kq := fun e => hne (g.uniq j i h' h hj hi e)
        refine ⟨?_, l, g2, ?_⟩
        · simp only [upd]
          split
          · rename_i e; rw [e, h4] at g1; cases g1
          · exact g1
        · simp only [upd, if_neg hk]
          exact g3
    · intro f p hf
      simp only [upd] at hf
      split at hf
      · cases hf
      · obtain ⟨h', e1, e2⟩ := g.procs f p hf
        obtain ⟨h'', e3, e4, _⟩ := hget p h' e1
        exact ⟨h'', e3, e4.trans e2⟩
    · intro f w hf
      have : ∃ w, s.fds f = some (.queue w) := by
        simp only [upd] at hf
        split at hf
        · rename_i e; exact ⟨_, e ▸ h4⟩
        · exact ⟨w, hf⟩
      obtain ⟨w', hw'⟩ := this
      obtain ⟨j, h', e1, e2⟩ := g.queues f w' hw'
      obtain ⟨h'', e3, _, e4⟩ := hget j h' e1
      exact ⟨j, h'', e3, e4.trans e2⟩
    · intro a b ha hb hA hB hk
      have hh : ∀ (j : Nat) (h' : Hdl), (s.handles.set i (some { h with status := ⟨true, st / 256⟩ }))[j]? = some (some h') →
          ∃ h'' : Hdl, s.handles[j]? = some (some h'') ∧ h''.kq = h'.kq := by
        intro j h' hj
        rcases hset j h' hj with ⟨rfl, rfl⟩ | ⟨_, hj⟩
        · exact ⟨h, hi, rfl⟩
        · exact ⟨h', hj, rfl⟩
      obtain ⟨a', a1, a2⟩ := hh a ha hA
      obtain ⟨b', b1, b2⟩ := hh b hb hB
      exact g.uniq a b a' b' a1 b1 (a2.trans (hk.trans b2.symm))
    · intro p hp
      have := g.born p hp
      simpa using this
  · cases h3
    have hx : h.status.hasExited = true := by rw [h4]
    refine ⟨s, ?_, g, rfl, rfl, rfl, rfl, ?_⟩
    · simp only [ask, hi, if_pos hx]
      rw [h4, truth]
    · have : { h with status := truth (some st) } = h := by
        rw [truth, ← h4]
      rw [this, hi]

/-- Destroying a sandbox whose process has ended. -/
theorem close_own {s : St} (g : Inv s) {i st : Nat} {h : Hdl} (hi : s.handles[i]? = some (some h))
    (hl : s.life i = some (some st)) :
    Inv { close (close s h.pd) h.kq with handles := (close (close s h.pd) h.kq).handles.set i none } ∧
      (close (close s h.pd) h.kq).life = s.life ∧ (close (close s h.pd) h.kq).log = s.log ∧
      (close (close s h.pd) h.kq).over = s.over ∧ reached s h.pd = none := by
  obtain ⟨h1, l, h2, h3⟩ := g.own i h hi
  obtain ⟨w, hq⟩ : ∃ w, s.fds h.kq = some (.queue w) := by
    rcases h3 with ⟨_, h⟩ | ⟨_, w, _, _, h⟩
    · exact ⟨_, h⟩
    · exact ⟨w, h⟩
  have hne : h.kq ≠ h.pd := by intro e; rw [e, h1] at hq; cases hq
  have hnr : ¬ s.life i = some none := by rw [hl]; simp
  obtain ⟨s1, hs1⟩ : ∃ s1, s1 = close (close s h.pd) h.kq := ⟨_, rfl⟩
  have hfd : s1.fds = fun y => if y = h.kq then none else if y = h.pd then none else
      match s.fds y with
      | some (.queue w) => some (.queue (if w = some i then none else w))
      | o => o := by
    rw [hs1]
    funext y
    simp only [close, h1, if_neg hne, hq]
    rfl
  have hrest : s1.handles = s.handles ∧ s1.life = s.life ∧ s1.log = s.log ∧ s1.over = s.over := by
    rw [hs1]
    simp only [close, h1, if_neg hne, hq, if_neg hnr, and_self]
  have hlt : i < s.handles.length := (List.getElem?_eq_some_iff.1 hi).1
  rw [← hs1]
  refine ⟨?_, hrest.2.1, hrest.2.2.1, hrest.2.2.2, by simp only [reached, h1, if_neg hnr]⟩
  have hset : ∀ j h', (s1.handles.set i none)[j]? = some (some h') ↔ j ≠ i ∧ s.handles[j]? = some (some h') := by
    intro j h'
    rw [hrest.1, List.getElem?_set]
    by_cases e : i = j
    · subst e; rw [if_pos rfl, if_pos hlt]; simp
    · rw [if_neg e]; exact ⟨fun h => ⟨fun e' => e e'.symm, h⟩, fun h => h.2⟩
  constructor
  · intro j h' hj
    obtain ⟨hji, hj⟩ := (hset j h').1 hj
    obtain ⟨g1, l', g2, g3⟩ := g.own j h' hj
    have k1 : h'.pd ≠ h.kq := by intro e; rw [e, hq] at g1; cases g1
    have k2 : h'.pd ≠ h.pd := by intro e; rw [e, h1] at g1; cases g1; exact hji rfl
    have k3 : h'.kq ≠ h.kq := fun e => hji (g.uniq j i h' h hj hi e)
    refine ⟨?_, l', by simp only [hrest.2.1]; exact g2, ?_⟩
    · simp only [hfd, if_neg k1, if_neg k2, g1]
    · rcases g3 with ⟨e1, e2⟩ | ⟨st', w', e1, e2, e3⟩
      · have k4 : h'.kq ≠ h.pd := by intro e; rw [e, h1] at e2; cases e2
        left
        refine ⟨e1, ?_⟩
        simp only [hfd, if_neg k3, if_neg k4, e2, Option.some.injEq, if_neg hji]
      · have k4 : h'.kq ≠ h.pd := by intro e; rw [e, h1] at e3; cases e3
        right
        refine ⟨st', if w' = some i then none else w', e1, e2, ?_⟩
        simp only [hfd, if_neg k3, if_neg k4, e3]
  · intro f p hf
    simp only [hfd] at hf
    split at hf
    · cases hf
    · split at hf
      · cases hf
      · rename_i n1 n2
        split at hf
        · cases hf
        · obtain ⟨h', e1, e2⟩ := g.procs f p hf
          refine ⟨h', (hset p h').2 ⟨?_, e1⟩, e2⟩
          rintro rfl
          rw [hi] at e1
          cases e1
          exact n2 e2.symm
  · intro f w' hf
    simp only [hfd] at hf
    split at hf
    · cases hf
    · split at hf
      · cases hf
      · rename_i n1 n2
        have : ∃ w, s.fds f = some (.queue w) := by
          split at hf
          · rename_i w hw; exact ⟨w, hw⟩
          · exact ⟨_, hf⟩
        obtain ⟨w2, hw2⟩ := this
        obtain ⟨j, h', e1, e2⟩ := g.queues f w2 hw2
        refine ⟨j, h', (hset j h').2 ⟨?_, e1⟩, e2⟩
        rintro rfl
        rw [hi] at e1
        cases e1
        exact n1 e2.symm
  · intro a b ha hb hA hB hk
    exact g.uniq a b ha hb ((hset a ha).1 hA).2 ((hset b hb).1 hB).2 hk
  · intro p hp
    simp only [hrest.2.1] at hp
    have := g.born p hp
    simpa [hrest.1] using this

theorem log_mono {s s' : St} (h : LogOk s) (hlog : s'.log = s.log)
    (hlife : ∀ i st, s.life i = some (some st) → s'.life i = some (some st)) : LogOk s' := by
  refine ⟨?_, fun i who hm => h.2 i who (hlog ▸ hm)⟩
  intro i e hm
  rcases h.1 i e (hlog ▸ hm) with h1 | ⟨st, h1, h2⟩
  · exact .inl h1
  · exact .inr ⟨st, hlife i st h1, h2⟩

theorem inv_log {s : St} (g : Inv s) (l : List Event) : Inv { s with log := l } := ⟨g.own, g.procs, g.queues, g.uniq, g.born⟩

/-- A new process and its queue. -/
theorem inv_make {s : St} (g : Inv s) {pd q : Int} (hpd : s.fds pd = none) (hq : s.fds q = none) (hne : q ≠ pd) :
    Inv { s with
      fds := upd (upd s.fds pd (some (.proc s.handles.length))) q (some (.queue (some s.handles.length))),
      life := upd s.life s.handles.length (some none),
      handles := s.handles ++ [some ⟨q, pd, ⟨false, 0⟩⟩] } := by
  have hget : ∀ (j : Nat) (h' : Hdl), (s.handles ++ [some ⟨q, pd, ⟨false, 0⟩⟩])[j]? = some (some h') →
      (j = s.handles.length ∧ h' = ⟨q, pd, ⟨false, 0⟩⟩) ∨ (j < s.handles.length ∧ s.handles[j]? = some (some h')) := by
    intro j h' hj
    by_cases hlt : j < s.handles.length
    · rw [List.getElem?_append_left hlt] at hj
      exact .inr ⟨hlt, hj⟩
    · rw [List.getElem?_append_right (by omega)] at hj
      have : j - s.handles.length = 0 := by
        by_cases h0 : j - s.handles.length = 0
        · exact h0
        · rw [List.getElem?_eq_none (by simp; omega)] at hj
          cases hj
      rw [this] at hj
      cases hj
      exact .inl ⟨by omega, rfl⟩
  have hold : ∀ (j : Nat) (h' : Hdl), s.handles[j]? = some (some h') →
      (s.handles ++ [some ⟨q, pd, ⟨false, 0⟩⟩])[j]? = some (some h') := by
    intro j h' hj
    rw [List.getElem?_append_left (List.getElem?_eq_some_iff.1 hj).1]
    exact hj
  constructor
  · intro j h' hj
    rcases hget j h' hj with ⟨rfl, rfl⟩ | ⟨hlt, hj⟩
    · exact ⟨by simp [upd, Ne.symm hne], none, by simp [upd], .inl ⟨rfl, by simp [upd]⟩⟩
    · obtain ⟨g1, l, g2, g3⟩ := g.own j h' hj
      have k1 : h'.pd ≠ pd := by intro e; rw [e, hpd] at g1; cases g1
      have k2 : h'.pd ≠ q := by intro e; rw [e, hq] at g1; cases g1
      have k3 : j ≠ s.handles.length := by omega
      refine ⟨by simp only [upd, if_neg k1, if_neg k2, g1], l, by simp only [upd, if_neg k3, g2], ?_⟩
      obtain ⟨w, hw⟩ : ∃ w, s.fds h'.kq = some (.queue w) := by
        rcases g3 with ⟨_, h⟩ | ⟨_, w, _, _, h⟩
        · exact ⟨_, h⟩
        · exact ⟨w, h⟩
      have k4 : h'.kq ≠ pd := by intro e; rw [e, hpd] at hw; cases hw
      have k5 : h'.kq ≠ q := by intro e; rw [e, hq] at hw; cases hw
      simp only [upd, if_neg k4, if_neg k5]
      exact g3
  · intro f p hf
    simp only [upd] at hf
    split at hf
    · cases hf
    · split at hf
      · rename_i e
        cases hf
        exact ⟨⟨q, pd, ⟨false, 0⟩⟩, by simp, e.symm⟩
      · obtain ⟨h', e1, e2⟩ := g.procs f p hf
        exact ⟨h', hold p h' e1, e2⟩
  · intro f w hf
    simp only [upd] at hf
    split at hf
    · rename_i e
      exact ⟨s.handles.length, ⟨q, pd, ⟨false, 0⟩⟩, by simp, e.symm⟩
    · split at hf
      · cases hf
      · obtain ⟨i, h', e1, e2⟩ := g.queues f w hf
        exact ⟨i, h', hold i h' e1, e2⟩
  · intro a b ha hb hA hB hk
    have hno : ∀ (j : Nat) (h' : Hdl), s.handles[j]? = some (some h') → h'.kq ≠ q := by
      intro j h' hj e
      obtain ⟨_, _, _, g3⟩ := g.own j h' hj
      rcases g3 with ⟨_, h⟩ | ⟨_, w, _, _, h⟩ <;> (rw [e, hq] at h; cases h)
    rcases hget a ha hA with ⟨ea, rfl⟩ | ⟨_, hA⟩ <;> rcases hget b hb hB with ⟨eb, rfl⟩ | ⟨_, hB⟩
    · omega
    · exact absurd hk.symm (hno b hb hB)
    · exact absurd hk (hno a ha hA)
    · exact g.uniq a b ha hb hA hB hk
  · intro p hp
    simp only [upd] at hp
    simp only [List.length_append, List.length_singleton]
    split at hp
    · omega
    · have := g.born p hp; omega

/-- Something else is opened or closed. -/
theorem inv_other {s : St} (g : Inv s) {f : Int} (hf : s.fds f = none ∨ s.fds f = some .other) {o : Option Obj}
    (ho : o = none ∨ o = some .other) : Inv { s with fds := upd s.fds f o } := by
  have key : ∀ x, (∀ p, s.fds x = some (.proc p) → upd s.fds f o x = some (.proc p)) ∧
      (∀ w, s.fds x = some (.queue w) → upd s.fds f o x = some (.queue w)) ∧
      (∀ p, upd s.fds f o x = some (.proc p) → s.fds x = some (.proc p)) ∧
      (∀ w, upd s.fds f o x = some (.queue w) → s.fds x = some (.queue w)) := by
    intro x
    by_cases e : x = f
    · subst e
      simp only [upd, if_true]
      rcases hf with h | h <;> rcases ho with h' | h' <;> simp [h, h']
    · simp [upd, if_neg e]
  constructor
  · intro i h hi
    obtain ⟨g1, l, g2, g3⟩ := g.own i h hi
    refine ⟨(key _).1 _ g1, l, g2, ?_⟩
    rcases g3 with ⟨e1, e2⟩ | ⟨st, w, e1, e2, e3⟩
    · exact .inl ⟨e1, (key _).2.1 _ e2⟩
    · exact .inr ⟨st, w, e1, e2, (key _).2.1 _ e3⟩
  · exact fun x p h => g.procs x p ((key x).2.2.1 p h)
  · exact fun x w h => g.queues x w ((key x).2.2.2 w h)
  · exact g.uniq
  · exact g.born

/-- A process ends. -/
theorem inv_ends {s : St} (g : Inv s) {p st : Nat} (hp : s.life p = some none) :
    Inv { s with life := upd s.life p (some (some st)) } := by
  constructor
  · intro i h hi
    obtain ⟨g1, l, g2, g3⟩ := g.own i h hi
    refine ⟨g1, ?_⟩
    simp only [upd]
    by_cases e : i = p
    · subst e
      rw [hp] at g2
      cases g2
      refine ⟨some st, by simp, ?_⟩
      rcases g3 with h3 | ⟨_, _, h3, _⟩
      · exact .inl h3
      · cases h3
    · exact ⟨l, by rw [if_neg e]; exact g2, g3⟩
  · exact g.procs
  · exact g.queues
  · exact g.uniq
  · intro q hq
    refine g.born q ?_
    simp only [upd] at hq
    split at hq
    · rename_i e; rw [e, hp]; simp
    · exact hq

/-- Every careful step keeps what was seen true; and unless the host ends, everything stays in order. -/
theorem good_step {s s' : St} (g : Inv s) (hl : LogOk s) {a : Act} (hc : Careful s a) (h : step s a = some s') :
    LogOk s' ∧ (s'.over = true → ∃ pd v, a = .make pd v none) ∧ (s'.over = false → Inv s') := by
  have ho : s.over = false := by
    cases hx : s.over
    · rfl
    · simp [step, hx] at h
  rw [step.eq_def, if_neg (by simp [ho])] at h
  -- a query about an existing sandbox
  have hask : ∀ i k b r, ask s i k b = some r → ∃ hd, s.handles[i]? = some (some hd) ∧
      ((s.life i = some none ∧ b = false ∧ r = (some (truth none), s)) ∨
        ∃ st, s.life i = some (some st) ∧ r.1 = some (truth (some st)) ∧ Inv r.2 ∧ r.2.life = s.life ∧ r.2.log = s.log ∧
          r.2.over = s.over ∧ r.2.handles[i]? = some (some { hd with status := truth (some st) })) := by
    intro i k b r hr
    cases hh : s.handles[i]? with
    | none => simp [ask, hh] at hr
    | some o =>
      cases o with
      | none => simp [ask, hh] at hr
      | some hd =>
        refine ⟨hd, rfl, ?_⟩
        obtain ⟨_, l, h2, _⟩ := g.own i hd hh
        cases l with
        | none =>
          rw [ask_running g hh h2] at hr
          cases b
          · simp only [Bool.false_eq_true, if_false, Option.some.injEq] at hr
            exact .inl ⟨h2, rfl, hr.symm⟩
          · simp at hr
        | some st =>
          obtain ⟨t, e1, e2, e3, e4, e5, _, e6⟩ := ask_ended (k := k) g hh h2 b
          rw [e1] at hr
          cases hr
          exact .inr ⟨st, h2, rfl, e2, e3, e4, e5, e6⟩
  cases a with
  | make pd v q =>
    cases pd with
    | none => exact absurd rfl hc
    | some pd =>
      simp only at h
      split at h
      · cases h
      · rename_i hfree
        have hpd : s.fds pd = none := by
          cases hx : s.fds pd with
          | none => rfl
          | some _ => exact absurd (.inr (by rw [hx]; rfl)) hfree
        have hnew : s.life s.handles.length = none := by
          cases hx : s.life s.handles.length with
          | none => rfl
          | some _ => have := g.born s.handles.length (by rw [hx]; simp); omega
        have hm : ∀ i st, s.life i = some (some st) → upd s.life s.handles.length (some none) i = some (some st) := by
          intro i st hi
          have : i ≠ s.handles.length := by rintro rfl; rw [hnew] at hi; cases hi
          simp only [upd, if_neg this, hi]
        cases q with
        | none =>
          simp only [register, Option.some.injEq] at h
          subst h
          exact ⟨log_mono hl rfl hm, fun _ => ⟨_, _, rfl⟩, fun hx => nomatch hx⟩
        | some q =>
          simp only [register] at h
          split at h
          · cases h
          · rename_i hqf
            have hq : upd s.fds pd (some (.proc s.handles.length)) q = none := by
              cases hx : upd s.fds pd (some (.proc s.handles.length)) q with
              | none => rfl
              | some _ => exact absurd (.inr (by rw [hx]; rfl)) hqf
            have hne : q ≠ pd := by rintro rfl; simp [upd] at hq
            have hq' : s.fds q = none := by simpa [upd, if_neg hne] using hq
            have hp : upd s.fds pd (some (.proc s.handles.length)) pd = some (.proc s.handles.length) := by simp [upd]
            simp only [hp, Option.some.injEq] at h
            subst h
            exact ⟨log_mono hl rfl hm, fun hx => by simp [ho] at hx, fun _ => inv_make g hpd hq' hne⟩
  | opens f =>
    simp only at h
    split at h
    · cases h
    · rename_i hfree
      have hf : s.fds f = none := by
        cases hx : s.fds f with
        | none => rfl
        | some _ => exact absurd (.inr (by rw [hx]; rfl)) hfree
      cases h
      exact ⟨log_mono hl rfl fun _ _ h => h, fun hx => by simp [ho] at hx, fun _ => inv_other g (.inl hf) (.inr rfl)⟩
  | closes f =>
    have hf : s.fds f = some .other := hc
    cases h
    have : close s f = { s with fds := upd s.fds f none } := by simp only [close, hf]
    rw [this]
    exact ⟨log_mono hl rfl fun _ _ h => h, fun hx => by simp [ho] at hx, fun _ => inv_other g (.inr hf) (.inl rfl)⟩
  | ends p st =>
    simp only at h
    split at h
    · rename_i hp
      cases h
      refine ⟨log_mono hl rfl ?_, fun hx => by simp [ho] at hx, fun _ => inv_ends g hp⟩
      intro i st' hi
      have : i ≠ p := by rintro rfl; rw [hp] at hi; cases hi
      simp only [upd, if_neg this, hi]
    · cases h
  | query i k b =>
    simp only at h
    cases hr : ask s i k b with
    | none => rw [hr] at h; cases h
    | some r =>
      obtain ⟨hd, hh, h2⟩ := hask i k b r hr
      rw [hr] at h
      rcases h2 with ⟨h2, _, rfl⟩ | ⟨st, h2, h3, h4, h5, h6, h7, _⟩
      · cases h
        refine ⟨⟨?_, ?_⟩, fun hx => by simp [ho] at hx, fun _ => inv_log g _⟩
        · intro j e hm
          rcases List.mem_cons.1 hm with hm | hm
          · cases hm; exact .inl rfl
          · exact hl.1 j e hm
        · intro j w hm
          rcases List.mem_cons.1 hm with hm | hm
          · cases hm
          · exact hl.2 j w hm
      · obtain ⟨r1, t⟩ := r
        simp only at h3 h4 h5 h6 h7
        subst h3
        cases h
        refine ⟨⟨?_, ?_⟩, fun hx => by simp [h7, ho] at hx, fun _ => inv_log h4 _⟩
        · intro j e hm
          simp only [h5, h6] at hm ⊢
          rcases List.mem_cons.1 hm with hm | hm
          · cases hm; exact .inr ⟨st, h2, rfl⟩
          · exact hl.1 j e hm
        · intro j w hm
          simp only [h6] at hm
          rcases List.mem_cons.1 hm with hm | hm
          · cases hm
          · exact hl.2 j w hm
  | term i k =>
    simp only at h
    cases hr : ask s i k false with
    | none => rw [hr] at h; cases h
    | some r =>
      obtain ⟨hd, hh, h2⟩ := hask i k false r hr
      rw [hr] at h
      rcases h2 with ⟨h2, _, rfl⟩ | ⟨st, h2, h3, h4, h5, h6, h7, _⟩
      · simp only [truth, Bool.false_eq_true, if_false, hh, Option.some.injEq] at h
        subst h
        have hre : reached s hd.pd = some i := by simp only [reached, (g.own i hd hh).1, h2, if_true]
        refine ⟨⟨?_, ?_⟩, fun hx => by simp [ho] at hx, fun _ => inv_log g _⟩
        · intro j e hm
          simp only [hre, noted, List.singleton_append] at hm
          rcases List.mem_cons.1 hm with hm | hm
          · cases hm
          · exact hl.1 j e hm
        · intro j w hm
          simp only [hre, noted, List.singleton_append] at hm
          rcases List.mem_cons.1 hm with hm | hm
          · cases hm; rfl
          · exact hl.2 j w hm
      · obtain ⟨r1, t⟩ := r
        simp only at h3 h4 h5 h6 h7
        subst h3
        simp only [truth, if_true, Option.some.injEq] at h
        subst h
        exact ⟨log_mono hl h6 (by rw [h5]; exact fun _ _ h => h), fun hx => (by rw [h7, ho] at hx; cases hx), fun _ => h4⟩
  | destroy i k =>
    simp only at h
    cases hr : ask s i k true with
    | none => rw [hr] at h; cases h
    | some r =>
      obtain ⟨hd, hh, h2⟩ := hask i k true r hr
      rw [hr] at h
      rcases h2 with ⟨_, h2, _⟩ | ⟨st, h2, h3, h4, h5, h6, h7, h8⟩
      · cases h2
      · obtain ⟨r1, t⟩ := r
        simp only at h3 h4 h5 h6 h7 h8
        subst h3
        simp only [h8, Option.some.injEq] at h
        obtain ⟨c1, c2, c3, c4, c5⟩ := close_own h4 h8 (by rw [h5]; exact h2)
        simp only [c5, noted, List.nil_append] at h
        subst h
        refine ⟨log_mono hl (by simp only [c3, h6]) (by simp only [c2, h5]; exact fun _ _ h => h),
          fun hx => (by simp [c4, h7, ho] at hx), fun _ => inv_log c1 _⟩

theorem good_run : ∀ (as : List Act) {s s' : St}, s.over = false → Inv s → LogOk s → CarefulRun s as → run s as = some s' →
    LogOk s' ∧ (s'.over = false → Inv s')
  | [], s, s', _, g, hl, _, h => by
    cases h
    exact ⟨hl, fun _ => g⟩
  | a :: as, s, s', ho, g, hl, hc, h => by
    rw [run] at h
    cases hs : step s a with
    | none => rw [hs] at h; cases h
    | some t =>
      rw [hs] at h
      obtain ⟨g1, _, g3⟩ := good_step g hl hc.1 hs
      cases ht : t.over with
      | false => exact good_run as ht (g3 ht) g1 (hc.2 t hs) h
      | true =>
        cases as with
        | nil => cases h; exact ⟨g1, g3⟩
        | cons b bs => simp only [run, step, ht, if_true] at h; cases h

/-- **C125.**  Partial: `pdfork` must not fail (what happens then is `failed_pdfork_takes_other`), and the host program must not
close descriptors of the library.  Whatever such a host does, in whatever order: a query that says that a process has ended tells the truth about
the process of that sandbox, and nothing that is meant for one sandbox ever kills the process of another.  While the host goes on,
the open descriptors of processes and the open queues are exactly those of the sandboxes that exist. -/
theorem bsd_own_child_partial {s : St} (r : Reached s) :
    (∀ i e, .said i e ∈ s.log → e = truth none ∨ ∃ st, s.life i = some (some st) ∧ e = truth (some st)) ∧
    (∀ i who, .killed i who ∈ s.log → who = i) ∧
    (s.over = false →
      (∀ f p, s.fds f = some (.proc p) ↔ ∃ h, s.handles[p]? = some (some h) ∧ h.pd = f) ∧
      (∀ f, (∃ w, s.fds f = some (.queue w)) ↔ ∃ (i : Nat) (h : Hdl), s.handles[i]? = some (some h) ∧ h.kq = f)) := by
  obtain ⟨as, hc, hr⟩ := r
  obtain ⟨hl, hg⟩ := good_run as rfl inv_start ⟨by simp, by simp⟩ hc hr
  refine ⟨hl.1, hl.2, fun ho => ?_⟩
  have g := hg ho
  refine ⟨fun f p => ⟨g.procs f p, ?_⟩, fun f => ⟨fun ⟨w, h⟩ => g.queues f w h, ?_⟩⟩
  · rintro ⟨h, h1, rfl⟩
    exact (g.own p h h1).1
  · rintro ⟨i, h, h1, rfl⟩
    obtain ⟨_, _, _, g3⟩ := g.own i h h1
    rcases g3 with ⟨_, e⟩ | ⟨_, w, _, _, e⟩
    · exact ⟨_, e⟩
    · exact ⟨w, e⟩

theorem reached_inv {s : St} (r : Reached s) (ho : s.over = false) : Inv s := by
  obtain ⟨as, hc, hr⟩ := r
  exact (good_run as rfl inv_start ⟨by simp, by simp⟩ hc hr).2 ho

/-- In a careful host, every sandbox that exists has a process; asking about it says exactly what is so, however often the call is
interrupted; waiting comes back exactly when the process has ended, and says how; and no query changes what any process does or
what was seen. -/
theorem bsd_query_truth_partial {s : St} (r : Reached s) (ho : s.over = false) {i : Nat} {h : Hdl}
    (hi : s.handles[i]? = some (some h)) (k : Nat) :
    ∃ l, s.life i = some l ∧
      (∃ s', ask s i k false = some (some (truth l), s') ∧ s'.life = s.life ∧ s'.log = s.log ∧ s'.over = false) ∧
      (l = none → ask s i k true = none) ∧
      (l ≠ none → ∃ s', ask s i k true = some (some (truth l), s') ∧ s'.life = s.life ∧ s'.log = s.log ∧ s'.over = false) := by
  have g := reached_inv r ho
  obtain ⟨_, l, h2, _⟩ := g.own i h hi
  refine ⟨l, h2, ?_⟩
  cases l with
  | none =>
    refine ⟨⟨s, by rw [ask_running g hi h2]; rfl, rfl, rfl, ho⟩, fun _ => by rw [ask_running g hi h2]; rfl, fun e => absurd rfl e⟩
  | some st =>
    have key : ∀ b, ∃ s', ask s i k b = some (some (truth (some st)), s') ∧ s'.life = s.life ∧ s'.log = s.log ∧ s'.over = false := by
      intro b
      obtain ⟨t, e1, _, e3, e4, e5, _⟩ := ask_ended (k := k) g hi h2 b
      exact ⟨t, e1, e3, e4, e5.trans ho⟩
    exact ⟨key false, fun e => (nomatch e), fun _ => key true⟩

/-- In a careful host, terminating a sandbox kills its process if it runs, and nobody otherwise. -/
theorem bsd_terminate_partial {s : St} (r : Reached s) (ho : s.over = false) {i : Nat} {h : Hdl}
    (hi : s.handles[i]? = some (some h)) (k : Nat) :
    ∃ s', step s (.term i k) = some s' ∧ s'.over = false ∧
      s'.log = (if s.life i = some none then [.killed i i] else []) ++ s.log := by
  have g := reached_inv r ho
  obtain ⟨h1, l, h2, _⟩ := g.own i h hi
  rw [step.eq_def, if_neg (by simp [ho])]
  cases l with
  | none =>
    have hre : reached s h.pd = some i := by simp only [reached, h1, h2, if_true]
    simp only [ask_running g hi h2, Bool.false_eq_true, if_false, truth, hi, hre, h2, if_true]
    exact ⟨_, rfl, ho, rfl⟩
  | some st =>
    obtain ⟨t, e1, _, e3, e4, e5, _⟩ := ask_ended (k := k) g hi h2 false
    simp only [e1, truth, if_true]
    refine ⟨t, rfl, e5.trans ho, ?_⟩
    rw [if_neg (by rw [h2]; simp), e4]
    rfl

theorem close_handles (s : St) (f : Int) : (close s f).handles = s.handles := by
  rw [close]
  split <;> rfl

theorem kevent_handles {s s' : St} {q : Int} {b : Bool} {a : KAns} (h : kevent s q b = some (a, s')) : s'.handles = s.handles := by
  rw [kevent] at h
  split at h
  · split at h
    · cases h; rfl
    · split at h
      · cases h
      · cases h; rfl
  · cases h; rfl

theorem ask_others {s s' : St} {i k : Nat} {b : Bool} {r : Option ExitStatus} (h : ask s i k b = some (r, s')) (j : Nat) (hj : j ≠ i) :
    s'.handles[j]? = s.handles[j]? := by
  rw [ask] at h
  split at h
  · split at h
    · cases h; rfl
    · split at h
      · cases h
      · rename_i hk
        have := kevent_handles hk
        split at h
        · cases h
          simp only [List.getElem?_set, if_neg (Ne.symm hj), this]
        · cases h
          simp only [this]
  · cases h

/-- In a careful host, destroying a sandbox comes to its end exactly when the process of the sandbox has ended; it kills nobody,
and afterwards the sandbox has neither process descriptor nor queue, and every other sandbox is as it was. -/
theorem bsd_destroy_partial {s : St} (r : Reached s) (ho : s.over = false) {i : Nat} {h : Hdl}
    (hi : s.handles[i]? = some (some h)) (k : Nat) :
    (step s (.destroy i k) = none ↔ s.life i = some none) ∧
    ∀ s', step s (.destroy i k) = some s' → s'.over = false ∧ s'.life = s.life ∧ s'.log = s.log ∧
      s'.handles[i]? = some none ∧ (∀ j, j ≠ i → s'.handles[j]? = s.handles[j]?) ∧ (∀ f, s'.fds f ≠ some (.proc i)) ∧
      (∀ w, s'.fds h.kq ≠ some (.queue w)) := by
  have g := reached_inv r ho
  obtain ⟨h1, l, h2, _⟩ := g.own i h hi
  rw [step.eq_def, if_neg (by simp [ho])]
  cases l with
  | none =>
    simp only [ask_running g hi h2, if_true]
    exact ⟨⟨fun _ => h2, fun _ => trivial⟩, fun s' e => nomatch e⟩
  | some st =>
    obtain ⟨t, e1, e2, e3, e4, e5, e6, e7⟩ := ask_ended (k := k) g hi h2 true
    obtain ⟨c1, c2, c3, c4, c5⟩ := close_own e2 e7 (by rw [e3]; exact h2)
    simp only [e1, e7, c5, noted, List.nil_append]
    refine ⟨⟨(nomatch ·), fun e => (by rw [h2] at e; cases e)⟩, ?_⟩
    intro s' e
    cases e
    have hlt : i < t.handles.length := (List.getElem?_eq_some_iff.1 e7).1
    have hd : (close (close t h.pd) h.kq).handles = t.handles := by rw [close_handles, close_handles]
    have hset : ((close (close t h.pd) h.kq).handles.set i none)[i]? = some none := by
      rw [hd, List.getElem?_set, if_pos rfl, if_pos hlt]
    refine ⟨c4.trans (e5.trans ho), c2.trans e3, c3.trans e4, hset, ?_, ?_, ?_⟩
    · intro j hj
      simp only [hd, List.getElem?_set, if_neg (Ne.symm hj)]
      exact ask_others e1 j hj
    · intro f hf
      obtain ⟨h', e, _⟩ := c1.procs f i hf
      rw [hset] at e
      cases e
    · intro w hf
      obtain ⟨j, h', e, ek⟩ := c1.queues h.kq w hf
      by_cases hj : i = j
      · subst hj
        rw [hset] at e
        cases e
      · simp only [hd, List.getElem?_set, if_neg hj] at e
        exact hj (e2.uniq i j _ h' e7 e ek.symm)

/-- The host ends only where a queue cannot be had for a new sandbox. -/
theorem bsd_host_ends_partial {s s' : St} (r : Reached s) (ho : s.over = false) {a : Act} (hc : Careful s a) (h : step s a = some s') :
    s'.over = true ↔ ∃ pd v, a = .make pd v none := by
  obtain ⟨as, hcr, hr⟩ := r
  obtain ⟨hl, hg⟩ := good_run as rfl inv_start ⟨by simp, by simp⟩ hcr hr
  refine ⟨(good_step (hg ho) hl hc h).2.1, ?_⟩
  rintro ⟨pd, v, rfl⟩
  rw [step.eq_def, if_neg (by simp [ho])] at h
  cases pd with
  | none => exact absurd rfl hc
  | some pd =>
    simp only [register] at h
    split at h
    · cases h
    · cases h; rfl

/-! ## When `pdfork` fails -/

/-- If the old value of the variable does not name a process of the host, the host ends. -/
theorem failed_pdfork_ends_host {s s' : St} (ho : s.over = false) {g : Int} {q : Option Int}
    (hg : ∀ p, s.fds g ≠ some (.proc p)) (h : step s (.make none g q) = some s') : s'.over = true := by
  rw [step.eq_def, if_neg (by simp [ho])] at h
  simp only [register] at h
  split at h
  · cases h; rfl
  · split at h
    · cases h
    · cases h; rfl

/-- If it names the process of sandbox `j`, a sandbox is made whose handle is for that process: it has no process of its own, asking
about it says what is so of `j`, and terminating it kills the process of `j`. -/
theorem failed_pdfork_takes_other {s : St} (r : Reached s) (ho : s.over = false) {j : Nat} {h : Hdl}
    (hj : s.handles[j]? = some (some h)) {q : Int} (hq0 : 0 ≤ q) (hq : s.fds q = none) :
    ∃ s', step s (.make none h.pd (some q)) = some s' ∧ s'.over = false ∧ s'.life s.handles.length = none ∧
      s'.handles[s.handles.length]? = some (some ⟨q, h.pd, ⟨false, 0⟩⟩) ∧
      (∀ k l, s.life j = some l → (∃ t, ask s' s.handles.length k false = some (some (truth l), t) ∧ t.over = false) ∧
        (l = none → ∃ t, step s' (.term s.handles.length k) = some t ∧ t.log = .killed s.handles.length j :: s'.log)) := by
  have g := reached_inv r ho
  obtain ⟨h1, l, h2, _⟩ := g.own j h hj
  have hpq : h.pd ≠ q := by intro e; rw [e, hq] at h1; cases h1
  have hnew : s.life s.handles.length = none := by
    cases hx : s.life s.handles.length with
    | none => rfl
    | some _ => have := g.born s.handles.length (by rw [hx]; simp); omega
  obtain ⟨s', hs'⟩ : ∃ s', s' = { s with
      fds := upd s.fds q (some (.queue (some j))), handles := s.handles ++ [some (⟨q, h.pd, ⟨false, 0⟩⟩ : Hdl)] } := ⟨_, rfl⟩
  have hst : step s (.make none h.pd (some q)) = some s' := by
    rw [step.eq_def, if_neg (by simp [ho])]
    simp only [register, h1, hs']
    rw [if_neg (by rw [hq]; simp; omega)]
  have hhd : s'.handles[s.handles.length]? = some (some ⟨q, h.pd, ⟨false, 0⟩⟩) := by simp [hs']
  have hlife : s'.life = s.life := by rw [hs']
  have hov : s'.over = false := by rw [hs']; exact ho
  have hfq : s'.fds q = some (.queue (some j)) := by simp [hs', upd]
  have hfp : s'.fds h.pd = some (.proc j) := by simp only [hs', upd, if_neg hpq, h1]
  refine ⟨s', hst, hov, by rw [hlife]; exact hnew, hhd, ?_⟩
  intro k l' hl'
  have hask : ∃ t, ask s' s.handles.length k false = some (some (truth l'), t) ∧ t.over = false ∧
      (l' = none → t.handles[s.handles.length]? = some (some ⟨q, h.pd, ⟨false, 0⟩⟩) ∧ t.fds = s'.fds ∧ t.life = s'.life ∧ t.log = s'.log) := by
    cases l' with
    | none =>
      simp only [ask, hhd, Bool.false_eq_true, if_false, kevent, hfq, Option.bind_some, hlife, hl']
      rw [pdWait_one _ rfl k]
      simp only [Nat.zero_ne_one, if_false]
      exact ⟨_, rfl, hov, fun _ => ⟨by rw [set_self hhd]; exact hhd, rfl, rfl, rfl⟩⟩
    | some st =>
      simp only [ask, hhd, Bool.false_eq_true, if_false, kevent, hfq, Option.bind_some, hlife, hl']
      rw [pdWait_one _ rfl k]
      exact ⟨_, rfl, hov, (nomatch ·)⟩
  obtain ⟨t, t1, t2, t3⟩ := hask
  refine ⟨⟨t, t1, t2⟩, ?_⟩
  rintro rfl
  obtain ⟨t4, t5, t6, t7⟩ := t3 rfl
  rw [step.eq_def, if_neg (by simp [hov])]
  simp only [t1, truth, Bool.false_eq_true, if_false, t4, reached, t5, hfp, t6, hlife, hl', if_true, noted, t7, List.singleton_append]
  exact ⟨_, rfl, rfl⟩

/-- And if the process of `j` ends, and nobody has asked about it since, destroying that sandbox first takes the end from `j`:
whoever asks about `j` afterwards is told that it runs, and waiting for it, and destroying it, never come to an end. -/
theorem failed_pdfork_hides_end {s : St} (r : Reached s) (ho : s.over = false) {j st : Nat} {h : Hdl}
    (hj : s.handles[j]? = some (some h)) (hn : h.status = ⟨false, 0⟩) (hl : s.life j = some (some st))
    {q : Int} (hq0 : 0 ≤ q) (hq : s.fds q = none) (k : Nat) :
    ∃ s', run s [.make none h.pd (some q), .destroy s.handles.length k] = some s' ∧ s'.over = false ∧
      s'.life j = some (some st) ∧
      ∀ k', ask s' j k' false = some (some ⟨false, 0⟩, s') ∧ ask s' j k' true = none ∧ step s' (.destroy j k') = none := by
  have g := reached_inv r ho
  obtain ⟨h1, l, h2, h3⟩ := g.own j h hj
  have hkq : s.fds h.kq = some (.queue (some j)) := by
    rcases h3 with ⟨_, e⟩ | ⟨_, _, _, e, _⟩
    · exact e
    · rw [hn] at e; cases e
  have hpq : h.pd ≠ q := by intro e; rw [e, hq] at h1; cases h1
  have hkq' : h.kq ≠ q := by intro e; rw [e, hq] at hkq; cases hkq
  have hkp : h.kq ≠ h.pd := by intro e; rw [e, h1] at hkq; cases hkq
  have hlt : j < s.handles.length := (List.getElem?_eq_some_iff.1 hj).1
  have hnr : ¬ s.life j = some none := by rw [hl]; simp
  have hst : step s (.make none h.pd (some q)) = some { s with
      fds := upd s.fds q (some (.queue (some j))), handles := s.handles ++ [some (⟨q, h.pd, ⟨false, 0⟩⟩ : Hdl)] } := by
    rw [step.eq_def, if_neg (by simp [ho])]
    simp only [register, h1]
    rw [if_neg (by rw [hq]; simp; omega)]
  have hask : ask { s with fds := upd s.fds q (some (.queue (some j))), handles := s.handles ++ [some (⟨q, h.pd, ⟨false, 0⟩⟩ : Hdl)] }
      s.handles.length k true = some (some (truth (some st)), { s with
        fds := upd (upd s.fds q (some (.queue (some j)))) q (some (.queue none)),
        handles := s.handles ++ [some (⟨q, h.pd, ⟨true, st / 256⟩⟩ : Hdl)] }) := by
    have hu : upd s.fds q (some (.queue (some j))) q = some (.queue (some j)) := by simp [upd]
    simp only [ask, List.getElem?_concat_length, Bool.false_eq_true, if_false, kevent, hu, Option.bind_some, hl]
    rw [pdWait_one _ rfl k]
    simp [truth]
  obtain ⟨u, hu⟩ : ∃ u, u = ({ s with
      fds := upd (upd s.fds q (some (.queue (some j)))) q (some (.queue none)),
      handles := s.handles ++ [some (⟨q, h.pd, ⟨true, st / 256⟩⟩ : Hdl)] } : St) := ⟨_, rfl⟩
  rw [← hu] at hask
  have u1 : u.fds h.pd = some (.proc j) := by simp only [hu, upd, if_neg hpq, h1]
  have u2 : u.fds h.kq = some (.queue (some j)) := by simp only [hu, upd, if_neg hkq', hkq]
  have u3 : u.fds q = some (.queue none) := by simp [hu, upd]
  have u4 : u.life = s.life := by rw [hu]
  have u5 : u.handles[s.handles.length]? = some (some ⟨q, h.pd, ⟨true, st / 256⟩⟩) := by simp [hu]
  have u6 : u.handles[j]? = some (some h) := by
    simp only [hu]
    rw [List.getElem?_append_left hlt]
    exact hj
  have u7 : u.over = false := by rw [hu]; exact ho
  have hre : reached u h.pd = none := by simp only [reached, u1, u4, if_neg hnr]
  obtain ⟨v, hv⟩ : ∃ v, v = close (close u h.pd) q := ⟨_, rfl⟩
  have v0 : (close u h.pd).fds q = some (.queue none) := by
    simp only [close, u1, if_neg (Ne.symm hpq), u3]
    simp
  have v1 : v.fds h.kq = some (.queue none) := by
    rw [hv, close, v0]
    simp only [upd, if_neg hkq']
    simp only [close, u1, if_neg hkp, u2, if_true]
  have v2 : v.life = s.life := by
    rw [hv, close, v0]
    simp only [close, u1, u4, if_neg hnr]
  have v3 : v.handles = u.handles := by rw [hv, close_handles, close_handles]
  have v4 : v.over = false := by
    rw [hv, close, v0]
    simp only [close, u1, u7]
  refine ⟨{ v with handles := v.handles.set s.handles.length none }, ?_, v4, by rw [← hl, ← v2], ?_⟩
  · simp only [run, hst]
    rw [step.eq_def, if_neg (by simp [ho])]
    simp only [hask, u5, hre, noted, List.nil_append, ← hv]
  · intro k'
    obtain ⟨x, hx⟩ : ∃ x, x = ({ v with handles := v.handles.set s.handles.length none } : St) := ⟨_, rfl⟩
    rw [← hx]
    have x1 : x.handles[j]? = some (some h) := by
      simp only [hx, v3, List.getElem?_set, if_neg (show ¬ s.handles.length = j by omega)]
      exact u6
    have x2 : x.fds h.kq = some (.queue none) := by rw [hx]; exact v1
    have x3 : x.over = false := by rw [hx]; exact v4
    have hnx : ¬ h.status.hasExited = true := by rw [hn]; simp
    have y1 : ask x j k' false = some (some ⟨false, 0⟩, x) := by
      simp only [ask, x1, if_neg hnx, kevent, x2, Option.bind_none, Bool.false_eq_true, if_false]
      rw [pdWait_one _ (by rw [hn]) k']
      simp only [Nat.zero_ne_one, if_false, hn]
      rw [← hn, set_self x1]
    have y2 : ask x j k' true = none := by
      simp only [ask, x1, if_neg hnx, kevent, x2, Option.bind_none, if_true]
    refine ⟨y1, y2, ?_⟩
    rw [step.eq_def, if_neg (by simp [x3])]
    simp only [y2]

/-! ## When the host program closes what is not its own -/

/-- A host program that closes the descriptor of the process of a sandbox kills it; afterwards it seems to run for ever, and
waiting for it never comes to an end. -/
theorem closed_process_lost {s : St} (r : Reached s) (ho : s.over = false) {i : Nat} {h : Hdl}
    (hi : s.handles[i]? = some (some h)) (hl : s.life i = some none) :
    ∃ s', step s (.closes h.pd) = some s' ∧ s'.life i = some (some 9) ∧
      ∀ k, ask s' i k false = some (some (truth none), s') ∧ ask s' i k true = none := by
  have g := reached_inv r ho
  obtain ⟨h1, l, h2, h3⟩ := g.own i h hi
  rw [hl] at h2
  cases h2
  rcases h3 with ⟨h3, h4⟩ | ⟨_, _, h3, _⟩
  · have hne : h.kq ≠ h.pd := by intro e; rw [e, h1] at h4; cases h4
    obtain ⟨s', hs'⟩ : ∃ s', s' = close s h.pd := ⟨_, rfl⟩
    have e1 : s'.life i = some (some 9) := by simp [hs', close, h1, hl, upd]
    have e2 : s'.fds h.kq = some (.queue none) := by simp only [hs', close, h1, if_neg hne, h4, if_true]
    have e3 : s'.handles[i]? = some (some h) := by rw [hs', close_handles]; exact hi
    refine ⟨s', by rw [step.eq_def, if_neg (by simp [ho])]; simp only [hs'], e1, fun k => ?_⟩
    have hnx : ¬ h.status.hasExited = true := by rw [h3]; simp
    constructor
    · simp only [ask, e3, if_neg hnx, kevent, e2, Option.bind_none, Bool.false_eq_true, if_false]
      rw [pdWait_one _ (by rw [h3]) k]
      simp only [Nat.zero_ne_one, if_false, h3, truth]
      rw [← h3, set_self e3]
    · simp only [ask, e3, if_neg hnx, kevent, e2, Option.bind_none, if_true]
  · cases h3

/-- And if it closes the queue of a sandbox whose end it does not know yet, the next query ends the host. -/
theorem closed_queue_ends_host {s : St} (r : Reached s) (ho : s.over = false) {i : Nat} {h : Hdl}
    (hi : s.handles[i]? = some (some h)) (hn : h.status.hasExited = false) (k : Nat) (b : Bool) :
    ∃ s' t, step s (.closes h.kq) = some s' ∧ step s' (.query i k b) = some t ∧ t.over = true := by
  have g := reached_inv r ho
  obtain ⟨_, l, _, h3⟩ := g.own i h hi
  obtain ⟨w, hw⟩ : ∃ w, s.fds h.kq = some (.queue w) := by
    rcases h3 with ⟨_, h⟩ | ⟨_, w, _, _, h⟩
    · exact ⟨_, h⟩
    · exact ⟨w, h⟩
  have hc : close s h.kq = { s with fds := upd s.fds h.kq none } := by simp only [close, hw]
  have hf : upd s.fds h.kq none h.kq = none := by simp [upd]
  have hp : Child.pdWait h.status (List.replicate k .eintr ++ [.failed]) = (.hostExit, h.status, []) := by
    have h := (Child.pdAsk_some (List.replicate k .eintr ++ [.failed]) .failed []).2 ⟨by simp, k, rfl⟩
    rw [Child.pdWait, if_neg (by simp [hn]), h]
  refine ⟨_, { s with fds := upd s.fds h.kq none, over := true }, by rw [step.eq_def, if_neg (by simp [ho])], ?_, rfl⟩
  rw [hc, step.eq_def, if_neg (by simp [ho])]
  simp only [ask, hi, if_neg (show ¬ h.status.hasExited = true by simp [hn]), kevent, hf, hp]

/-! ## The hypotheses can be met -/

/-- Two sandboxes; one ends and is destroyed, and its numbers are used again, by the host and by a third sandbox. -/
private def demo : List Act :=
  [.make (some 3) 0 (some 4), .make (some 5) 0 (some 6), .query 0 2 false, .ends 0 512, .query 0 1 true, .destroy 0 0, .opens 3,
   .make (some 4) 0 (some 7), .term 1 0, .ends 1 9, .closes 3]

/-- Are all steps careful? -/
private def careful (s : St) : List Act → Bool
  | [] => true
  | a :: as =>
    (match a with
    | .make none _ _ => false
    | .closes f => s.fds f == some .other
    | _ => true) &&
    match step s a with
    | some s' => careful s' as
    | none => true

private theorem careful_run : ∀ (as : List Act) (s : St), careful s as = true → CarefulRun s as
  | [], _, _ => trivial
  | a :: as, s, h => by
    simp only [careful, Bool.and_eq_true] at h
    refine ⟨?_, fun s' e => careful_run as s' (by rw [e] at h; exact h.2)⟩
    cases a with
    | make pd _ _ => cases pd <;> simp_all [Careful]
    | closes f => exact eq_of_beq h.1
    | _ => trivial

private theorem demo_careful : CarefulRun {} demo := careful_run demo {} (by decide +kernel)

private theorem demo_runs : (run {} demo).isSome = true := by decide +kernel

/-- After it: what was seen, and which descriptors belong to whom. -/
example : ∃ s, Reached s ∧ s.over = false ∧ s.log = [.killed 1 1, .said 0 ⟨true, 2⟩, .said 0 ⟨false, 0⟩] ∧
    s.handles = [none, some ⟨6, 5, ⟨false, 0⟩⟩, some ⟨7, 4, ⟨false, 0⟩⟩] ∧
    (s.fds 3, s.fds 4, s.fds 5) = (none, some (.proc 2), some (.proc 1)) ∧ s.life 1 = some (some 9) ∧ s.life 2 = some none ∧
    s.fds 8 = none := by
  refine ⟨(run {} demo).get demo_runs, ⟨demo, demo_careful, by simp⟩, ?_⟩
  decide +kernel

/-- A failed `pdfork` in that state with the old value 4, and with the old value 3. -/
example : ((run {} (demo ++ [.make none 4 (some 8), .term 3 0])).map (·.log.head?)) = some (some (.killed 3 2)) ∧
    ((run {} (demo ++ [.make none 3 (some 8)])).map (·.over)) = some true ∧
    ((run {} (demo ++ [.make none 5 (some 8), .destroy 3 0, .query 1 0 false])).map (·.log.head?)) =
      some (some (.said 1 ⟨false, 0⟩)) := by
  decide +kernel

/-- The host closes the descriptor of the process of the third sandbox, and the queue of the second. -/
example : ((run {} (demo ++ [.closes 4, .query 2 0 false])).map (fun s => (s.life 2, s.log.head?))) =
      some (some (some 9), some (.said 2 ⟨false, 0⟩)) ∧
    ((run {} (demo ++ [.closes 6, .query 1 0 true])).map (·.over)) = some true := by
  decide +kernel

end Verif.BsdFamily
