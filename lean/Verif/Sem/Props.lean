import Verif.Sem.Spec

/-!
# The one-bit semaphore (property C33)
-/

namespace Verif.Sem
open Spec

/-- What holds in every reachable state. -/
structure Good (s : St) : Prop where
  bit : s.aborted = false → s.flag ≤ 1
  seen : ∀ (i : Nat) f, s.threads[i]? = some (Pc.cas1 f) ∨ s.threads[i]? = some (Pc.cas2 f) → f = 1
  heard : s.aborted = false → s.flag = 1 →
    (∃ i : Nat, s.threads[i]? = some Pc.signal) ∨
      (∃ (i : Nat) (p : Pc), s.threads[i]? = some p ∧ Active p) ∨ ∀ i : Nat, s.threads[i]? ≠ some Pc.asleep

theorem at_get (s : St) (i j : Nat) (p : Pc) :
    (s.at i p).threads[j]? = if i = j then (if i < s.threads.length then some p else none)
      else s.threads[j]? := by
  simp [St.at, List.getElem?_set]

theorem lt_of_get {l : List Pc} {i : Nat} {p : Pc} (h : l[i]? = some p) : i < l.length := by
  rcases List.getElem?_eq_some_iff.1 h with ⟨h, -⟩; exact h

theorem good_init (n : Nat) : Good (init n) := by
  refine ⟨by simp [init], ?_, by simp [init]⟩
  intro i f h
  simp [init, List.getElem?_replicate] at h

/-- A thread moves and the flag stays. -/
theorem good_at {s : St} {i : Nat} {p q : Pc} (hI : Good s) (hi : s.threads[i]? = some p)
    (hq : ∀ f, q = .cas1 f ∨ q = .cas2 f → f = 1)
    (hh : s.aborted = false → s.flag = 1 → Active q ∨ (¬ Active p ∧ p ≠ .signal ∧ q ≠ .asleep)) :
    Good (s.at i q) := by
  have hl := lt_of_get hi
  refine ⟨hI.bit, ?_, ?_⟩
  · intro j f
    simp only [at_get]
    have := hI.seen j f
    grind
  · intro h1 h2
    simp only [at_get]
    rcases hh h1 h2 with hA | ⟨h3, h4, h5⟩
    · exact Or.inr (Or.inl ⟨i, q, by simp [hl], hA⟩)
    · rcases hI.heard h1 h2 with ⟨j, h⟩ | ⟨j, p', h, hp⟩ | h
      · exact Or.inl ⟨j, by grind⟩
      · exact Or.inr (Or.inl ⟨j, p', by grind, hp⟩)
      · refine Or.inr (Or.inr fun j => ?_)
        have := h j
        grind

/-- A thread takes the flag. -/
theorem good_take {s : St} {i : Nat} (hI : Good s) :
    Good ({ s with flag := 1 - 1 }.at i (.waited true)) := by
  refine ⟨by simp [St.at], ?_, by simp [St.at]⟩
  intro j f
  simp only [at_get]
  have := hI.seen j f
  grind

theorem good_step {dbg : Bool} {s s' : St} {a : Act} (hI : Good s) (h : step dbg s a = some s') :
    Good s' := by
  cases a with
  | startWait i =>
    simp only [step] at h
    split at h <;> simp at h
    rename_i hi
    subst h
    exact good_at hI hi (by simp) (by simp [Active])
  | startWake i =>
    simp only [step] at h
    split at h <;> simp at h
    rename_i hi
    subst h
    exact good_at hI hi (by simp) (by simp [Active])
  | go i =>
    simp only [step] at h
    split at h
    · cases h
    rename_i hab
    have hb : s.flag ≤ 1 := hI.bit (by simpa using hab)
    split at h
    · rename_i hi
      split at h
      · rw [if_neg (by omega)] at h
        simp at h; subst h
        exact good_at hI hi (by simp; omega) (by simp [Active])
      · simp at h; subst h
        exact good_at hI hi (by simp) (by simp [Active])
    · rename_i f hi
      have hf := hI.seen i f (Or.inl hi)
      subst hf
      split at h
      · simp at h; subst h
        exact good_take hI
      · simp at h; subst h
        exact good_at hI hi (by simp) (by simp [Active])
    · rename_i hi
      split at h
      · simp at h; subst h
        exact good_at hI hi (by simp) (by omega)
      · simp at h; subst h
        exact good_at hI hi (by simp) (by simp [Active])
    · rename_i hi
      split at h
      · rw [if_neg (by omega)] at h
        simp at h; subst h
        exact good_at hI hi (by simp; omega) (by simp [Active])
      · simp at h; subst h
        exact good_at hI hi (by simp) (by omega)
    · rename_i f hi
      have hf := hI.seen i f (Or.inr hi)
      subst hf
      split at h
      · simp at h; subst h
        exact good_take hI
      · simp at h; subst h
        exact good_at hI hi (by simp) (by omega)
    · rename_i hi
      have hl := lt_of_get hi
      split at h
      · rename_i h0
        simp at h; subst h
        refine ⟨by simp [St.at, h0], ?_, ?_⟩
        · intro j f
          simp only [at_get]
          have := hI.seen j f
          grind
        · intro _ _
          exact Or.inl ⟨i, by simp [at_get, hl]⟩
      · simp at h; subst h
        exact ⟨by simp, hI.seen, by simp⟩
    · rename_i hi
      simp at h; subst h
      exact good_at hI hi (by simp) (by simp [Active])
    · rename_i hi
      simp at h; subst h
      exact good_at hI hi (by simp) (by simp [Active])
    · cases h
  | signal i j =>
    simp only [step] at h
    split at h
    · cases h
    · split at h <;> simp at h
      rename_i hij
      obtain ⟨hi, hj⟩ := hij
      subst h
      have hli := lt_of_get hi
      have hlj := lt_of_get hj
      have hne : i ≠ j := by rintro rfl; rw [hi] at hj; cases hj
      refine ⟨hI.bit, ?_, ?_⟩
      · intro k f
        simp only [at_get]
        have := hI.seen k f
        grind
      · intro _ _
        exact Or.inr (Or.inl ⟨j, .load2, by rw [at_get]; simp [St.at, hlj], trivial⟩)
  | signalNone i =>
    simp only [step] at h
    split at h
    · cases h
    · split at h <;> simp at h
      rename_i hij
      obtain ⟨hi, hn⟩ := hij
      subst h
      refine ⟨hI.bit, ?_, ?_⟩
      · intro k f
        simp only [at_get]
        have := hI.seen k f
        grind
      · intro _ _
        refine Or.inr (Or.inr fun k => ?_)
        simp only [at_get]
        intro hk
        split at hk
        · split at hk <;> cases hk
        · exact hn _ (List.mem_of_getElem? hk) rfl
  | timeout i =>
    simp only [step] at h
    split at h <;> simp at h
    rename_i hi
    subst h
    exact good_at hI hi (by simp) (by simp [Active])
  | interrupt i =>
    simp only [step] at h
    split at h <;> simp at h
    rename_i hi
    subst h
    exact good_at hI hi (by simp) (by simp [Active])

theorem good_run {dbg : Bool} (as : List Act) {s s' : St} (hI : Good s)
    (h : run dbg s as = some s') : Good s' := by
  induction as generalizing s with
  | nil => simp [run] at h; subst h; exact hI
  | cons a as ih =>
    simp only [run] at h
    rcases h1 : step dbg s a with _ | s1
    · simp [h1] at h
    · simp only [h1] at h
      exact ih (good_step hI h1) h

theorem set_count {l : List Pc} {i : Nat} {p : Pc} (q : Pc) (h : l[i]? = some p) (w : Pc) :
    (l.set i q).count w + (if p = w then 1 else 0) = l.count w + (if q = w then 1 else 0) := by
  induction l generalizing i with
  | nil => simp at h
  | cons a l ih =>
    cases i with
    | zero =>
      simp only [List.getElem?_cons_zero, Option.some.injEq] at h
      subst h
      simp only [List.set_cons_zero, List.count_cons, beq_iff_eq]
      omega
    | succ i =>
      simp only [List.getElem?_cons_succ] at h
      have := ih h
      simp only [List.set_cons_succ, List.count_cons]
      omega

theorem at_pending {s : St} {i : Nat} {p : Pc} (q : Pc) (h : s.threads[i]? = some p) :
    pending (s.at i q) + (if p = .waited true then 1 else 0) =
      pending s + (if q = .waited true then 1 else 0) := set_count q h _

theorem take_pending {s : St} {i : Nat} {p : Pc} (n : Nat) (q : Pc) (h : s.threads[i]? = some p) :
    pending ({ s with flag := n }.at i q) + (if p = .waited true then 1 else 0) =
      pending s + (if q = .waited true then 1 else 0) := set_count q h _

/-- One step conserves signals: the flag, the successes under way and the successes returned add up. -/
theorem step_conserves {dbg : Bool} {s s' : St} {a : Act} (hI : Good s) (h : step dbg s a = some s') :
    s.flag + pending s + signal1 s a = s'.flag + pending s' + success1 s a := by
  cases a with
  | go i =>
    simp only [step] at h
    split at h
    · cases h
    rcases hi : s.threads[i]? with _ | p
    · simp [hi] at h
    · have h1 := fun q => at_pending q hi
      have h2 := fun n q => take_pending n q hi
      cases p <;> simp only [hi] at h
      case cas1 f =>
        have hf := hI.seen i f (Or.inl hi)
        split at h <;> simp at h <;> subst h
        · have := h2 (f - 1) (.waited true)
          simp [signal1, success1, hi, St.at] at this ⊢; omega
        · have := h1 .enter
          simp [signal1, success1, hi, St.at] at this ⊢; omega
      case cas2 f =>
        have hf := hI.seen i f (Or.inr hi)
        split at h <;> simp at h <;> subst h
        · have := h2 (f - 1) (.waited true)
          simp [signal1, success1, hi, St.at] at this ⊢; omega
        · have := h1 (.waited false)
          simp [signal1, success1, hi, St.at] at this ⊢; omega
      all_goals grind [pending, St.at, signal1, success1]
  | signal i j =>
    simp only [step] at h
    split at h
    · cases h
    · split at h <;> simp at h
      rename_i hij
      subst h
      have hne : i ≠ j := by intro e; rw [e] at hij; rw [hij.2] at hij; cases hij.1
      have h1 := at_pending .woke hij.1
      have h2 : (s.at i .woke).threads[j]? = some .asleep := by
        rw [at_get, if_neg hne]; exact hij.2
      have h3 := at_pending .load2 h2
      simp [signal1, success1, St.at] at h1 h3 ⊢
      omega
  | signalNone i =>
    simp only [step] at h
    split at h
    · cases h
    · split at h <;> simp at h
      rename_i hij
      subst h
      have h1 := at_pending .woke hij.1
      simp [signal1, success1, St.at] at h1 ⊢
      omega
  | startWait i =>
    simp only [step] at h
    split at h <;> simp at h
    rename_i hi
    subst h
    have h1 := at_pending .load1 hi
    simp [signal1, success1, St.at] at h1 ⊢
    omega
  | startWake i =>
    simp only [step] at h
    split at h <;> simp at h
    rename_i hi
    subst h
    have h1 := at_pending .add hi
    simp [signal1, success1, St.at] at h1 ⊢
    omega
  | timeout i =>
    simp only [step] at h
    split at h <;> simp at h
    rename_i hi
    subst h
    have h1 := at_pending .load2 hi
    simp [signal1, success1, St.at] at h1 ⊢
    omega
  | interrupt i =>
    simp only [step] at h
    split at h <;> simp at h
    rename_i hi
    subst h
    have h1 := at_pending .enter hi
    simp [signal1, success1, St.at] at h1 ⊢
    omega

theorem run_conserves {dbg : Bool} (as : List Act) {s s' : St} (hI : Good s)
    (h : run dbg s as = some s') :
    s.flag + pending s + signals dbg s as = s'.flag + pending s' + successes dbg s as := by
  induction as generalizing s with
  | nil => simp [run] at h; subst h; simp [signals, successes]
  | cons a as ih =>
    simp only [run] at h
    rcases h1 : step dbg s a with _ | s1
    · simp [h1] at h
    · simp only [h1] at h
      have h2 := step_conserves hI h1
      have h3 := ih (good_step hI h1) h
      simp only [signals, successes, h1]
      omega

/-- **C33** (one success per signal).  In every interleaving of any number of waiting and signalling
threads, at any time the number of signals is the number of waits that returned success, plus those
about to do so, plus the flag, and unless the second of two signals with no wait between has aborted,
the flag is 0 or 1: each signal lets exactly one wait succeed, and each success is preceded by a signal
of its own. -/
theorem one_success_per_signal (dbg : Bool) (n : Nat) (as : List Act) (s : St)
    (h : run dbg (init n) as = some s) :
    signals dbg (init n) as = successes dbg (init n) as + pending s + s.flag ∧
      (s.aborted = false → s.flag ≤ 1) := by
  have h1 := run_conserves as (good_init n) h
  have h2 := good_run as (good_init n) h
  refine ⟨?_, h2.bit⟩
  have h3 : pending (init n) = 0 := by
    simp [pending, init, List.count_replicate]
  have h4 : (init n).flag = 0 := rfl
  omega

/-- **C33** (no lost wake-up).  Whenever the flag is set and the signalling thread has made its system
call, a thread is awake inside `wait`, or none is asleep: a signal that arrives between the check and the
sleep of a waiter is not lost. -/
theorem no_lost_wakeup (dbg : Bool) (n : Nat) (as : List Act) (s : St)
    (h : run dbg (init n) as = some s) (ha : s.aborted = false) (hf : s.flag = 1)
    (hw : ∀ i : Nat, s.threads[i]? ≠ some Pc.signal) :
    (∃ (i : Nat) (p : Pc), s.threads[i]? = some p ∧ Active p) ∨ ∀ i : Nat, s.threads[i]? ≠ some Pc.asleep := by
  rcases (good_run as (good_init n) h).heard ha hf with ⟨i, h⟩ | h | h
  · exact absurd h (hw i)
  · exact Or.inl h
  · exact Or.inr h

/-- **C33** (the waiter that is awake succeeds).  If the flag is set, every thread that is awake inside
`wait` succeeds when it runs alone, within three steps. -/
theorem active_succeeds (dbg : Bool) (n : Nat) (as : List Act) (s : St)
    (h : run dbg (init n) as = some s) (ha : s.aborted = false) (hf : s.flag = 1) (i : Nat) (p : Pc)
    (hi : s.threads[i]? = some p) (hp : Active p) :
    ∃ k s', k ≤ 3 ∧ run dbg s (List.replicate k (.go i)) = some s' ∧
      s'.threads[i]? = some (.waited true) ∧ s'.flag = 0 ∧ s'.aborted = false := by
  have hl := lt_of_get hi
  have hI := good_run as (good_init n) h
  have cas : ∀ t : St, t.aborted = false → t.flag = 1 → i < t.threads.length →
      t.threads[i]? = some (.cas1 1) ∨ t.threads[i]? = some (.cas2 1) →
      ∃ s', step dbg t (.go i) = some s' ∧ s'.threads[i]? = some (.waited true) ∧ s'.flag = 0 ∧
        s'.aborted = false := by
    intro t h1 h2 h3 h4
    rcases h4 with h4 | h4 <;>
    exact ⟨{ t with flag := 1 - 1 }.at i (.waited true), by simp [step, h1, h4, h2],
      by simp [at_get, h3], rfl, h1⟩
  have ld : ∀ t : St, t.aborted = false → t.flag = 1 → i < t.threads.length →
      t.threads[i]? = some .load1 ∨ t.threads[i]? = some .load2 →
      ∃ s1 s', step dbg t (.go i) = some s1 ∧ step dbg s1 (.go i) = some s' ∧
        s'.threads[i]? = some (.waited true) ∧ s'.flag = 0 ∧ s'.aborted = false := by
    intro t h1 h2 h3 h4
    rcases h4 with h4 | h4
    · obtain ⟨s', h5⟩ := cas (t.at i (.cas1 1)) h1 h2 (by simpa [St.at] using h3)
        (Or.inl (by simp [at_get, h3]))
      exact ⟨_, s', by simp [step, h1, h4, h2], h5⟩
    · obtain ⟨s', h5⟩ := cas (t.at i (.cas2 1)) h1 h2 (by simpa [St.at] using h3)
        (Or.inr (by simp [at_get, h3]))
      exact ⟨_, s', by simp [step, h1, h4, h2], h5⟩
  cases p <;> simp only [Active] at hp
  case load1 =>
    obtain ⟨s1, s', h1, h2, h3⟩ := ld s ha hf hl (Or.inl hi)
    exact ⟨2, s', by omega, by simp [run, List.replicate, h1, h2], h3⟩
  case load2 =>
    obtain ⟨s1, s', h1, h2, h3⟩ := ld s ha hf hl (Or.inr hi)
    exact ⟨2, s', by omega, by simp [run, List.replicate, h1, h2], h3⟩
  case cas1 f =>
    have := hI.seen i f (Or.inl hi)
    subst this
    obtain ⟨s', h1, h2⟩ := cas s ha hf hl (Or.inl hi)
    exact ⟨1, s', by omega, by simp [run, List.replicate, h1], h2⟩
  case cas2 f =>
    have := hI.seen i f (Or.inr hi)
    subst this
    obtain ⟨s', h1, h2⟩ := cas s ha hf hl (Or.inr hi)
    exact ⟨1, s', by omega, by simp [run, List.replicate, h1], h2⟩
  case enter =>
    obtain ⟨s1, s', h1, h2, h3⟩ := ld (s.at i .load2) ha hf (by simpa [St.at] using hl)
      (Or.inr (by simp [at_get, hl]))
    have h0 : step dbg s (.go i) = some (s.at i .load2) := by simp [step, ha, hi, hf]
    exact ⟨3, s', by omega, by simp [run, List.replicate, h0, h1, h2], h3⟩

/-- **C33** (a signal of a set semaphore aborts). -/
theorem second_signal_aborts (dbg : Bool) (s : St) (i : Nat) (ha : s.aborted = false)
    (hi : s.threads[i]? = some .add) (hf : s.flag ≠ 0) :
    ∃ s', step dbg s (.go i) = some s' ∧ s'.aborted = true := by
  exact ⟨{ s with flag := s.flag + 1, aborted := true }, by simp [step, ha, hi, hf], rfl⟩

theorem alternates_step {dbg : Bool} {s s' : St} {a : Act} (hI : Good s)
    (ha : s.aborted = false) (hd : ∀ i, a = .go i → s.threads[i]? = some .add → s.flag = 0)
    (h : step dbg s a = some s') : s'.aborted = false := by
  have hb := hI.bit ha
  cases a with
  | go i =>
    have := hd i rfl
    simp only [step] at h
    split at h
    · cases h
    rcases hi : s.threads[i]? with _ | p
    · simp [hi] at h
    · cases p <;> simp only [hi] at h <;> grind [St.at]
  | _ => simp only [step] at h; grind [St.at]

/-- **C33** (no abort under the discipline).  If no thread signals while the flag is set, nothing
aborts, in either build, for any number of threads and any interleaving. -/
theorem alternating_never_aborts (dbg : Bool) (n : Nat) (as : List Act) (s : St)
    (hd : Alternates dbg (init n) as) (h : run dbg (init n) as = some s) : s.aborted = false := by
  have key : ∀ as s0, Good s0 → s0.aborted = false → Alternates dbg s0 as →
      run dbg s0 as = some s → s.aborted = false := by
    intro as
    induction as with
    | nil => intro s0 _ h1 _ h2; simp [run] at h2; subst h2; exact h1
    | cons a as ih =>
      intro s0 hI h1 hd h2
      simp only [run] at h2
      rcases h3 : step dbg s0 a with _ | s1
      · simp [h3] at h2
      · simp only [h3] at h2
        exact ih s1 (good_step hI h3) (alternates_step hI h1 hd.1 h3) (hd.2 _ h3) h2
  exact key as _ (good_init n) rfl hd h

/-! ## Concrete runs -/

/-- Two waiters: the first checks the flag and finds it clear; before it sleeps, thread 2 signals; the
second waiter sleeps not at all. -/
def exActs : List Act :=
  [.startWait 0, .startWait 1, .startWake 2, .go 0, .go 2, .signalNone 2, .go 0]

/-- The hypotheses of `one_success_per_signal`, `no_lost_wakeup` and `active_succeeds` hold, with the
signal between the check and the sleep of thread 0. -/
example : ∃ s, run true (init 3) exActs = some s ∧ s.aborted = false ∧ s.flag = 1 ∧
    (∀ i : Nat, s.threads[i]? ≠ some Pc.signal) ∧ s.threads[0]? = some Pc.load2 ∧ Active .load2 :=
  ⟨⟨1, [.load2, .load1, .woke], false⟩, rfl, rfl, rfl,
    fun i => by rcases i with _ | _ | _ | i <;> simp, rfl, trivial⟩

/-- The discipline holds of the run above. -/
example : Alternates true (init 3) exActs := by
  simp [Alternates, exActs, init, step, St.at]

/-- A sleeping thread is woken by the kernel. -/
example : ∃ s, run false (init 2)
    [.startWait 0, .go 0, .go 0, .startWake 1, .go 1, .signal 1 0, .go 0, .go 0] = some s ∧
    s.threads[0]? = some (.waited true) ∧ s.flag = 0 := ⟨_, rfl, rfl, rfl⟩

/-- The hypotheses of `second_signal_aborts` hold after one signal. -/
example : ∃ s, run false (init 2) [.startWake 0, .startWake 1, .go 0] = some s ∧ s.aborted = false ∧
    s.threads[1]? = some Pc.add ∧ s.flag ≠ 0 := ⟨_, rfl, rfl, rfl, by simp [St.at, init]⟩

end Verif.Sem
