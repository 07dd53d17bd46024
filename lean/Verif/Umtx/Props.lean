import Verif.Umtx.Spec

/-!
# The one-bit semaphore of FreeBSD (property C68)
-/

namespace Verif.Umtx
open Spec

/-- What holds in every reachable state. -/
structure Good (s : St) : Prop where
  bit : s.aborted = false → s.word.value ≤ 1
  seen : ∀ (i : Nat) f, s.threads[i]? = some (Pc.cas1 f) ∨ s.threads[i]? = some (Pc.cas2 f) → f.value = 1
  one : s.threads.count .pick ≤ 1
  mark : s.word.waiters = false →
    s.threads.count .asleep = 0 ∨ (s.threads.count .pick = 1 ∧ s.threads.count .asleep = 1)
  heard : s.aborted = false → s.word.value = 1 →
    0 < s.threads.count .signal + s.threads.count .pick ∨
      (∃ (i : Nat) (p : Pc), s.threads[i]? = some p ∧ Alert s.word p) ∨ s.threads.count .asleep = 0

theorem at_get (s : St) (i j : Nat) (p : Pc) :
    (s.at i p).threads[j]? = if i = j then (if i < s.threads.length then some p else none)
      else s.threads[j]? := by
  simp [St.at, List.getElem?_set]

theorem lt_of_get {l : List Pc} {i : Nat} {p : Pc} (h : l[i]? = some p) : i < l.length := by
  rcases List.getElem?_eq_some_iff.1 h with ⟨h, -⟩; exact h

theorem set_count {l : List Pc} {i : Nat} {p : Pc} (q : Pc) (h : l[i]? = some p) (w : Pc) :
    (l.set i q).count w + (if p = w then 1 else 0) = l.count w + (if q = w then 1 else 0) := by
  induction l generalizing i with
  | nil => simp at h
  | cons a l ih =>
    cases i with
    | zero =>
      simp only [List.getElem?_cons_zero, Option.some.injEq] at h
      subst h
      simp only [List.set_cons_zero, List.count_cons, beq_iff_eq]
      omega
    | succ i =>
      simp only [List.getElem?_cons_succ] at h
      have := ih h
      simp only [List.set_cons_succ, List.count_cons]
      omega

theorem at_count {s : St} {i : Nat} {p : Pc} (q : Pc) (h : s.threads[i]? = some p) (w : Pc) :
    (s.at i q).threads.count w + (if p = w then 1 else 0) =
      s.threads.count w + (if q = w then 1 else 0) := set_count q h w

theorem count_pos {l : List Pc} {i : Nat} {p : Pc} (h : l[i]? = some p) : 0 < l.count p :=
  List.count_pos_iff.2 (List.mem_of_getElem? h)

theorem busy_count (s : St) : s.busy = false ↔ s.threads.count .pick = 0 := by
  unfold St.busy
  rw [List.count_eq_zero]
  simp

theorem good_init (n : Nat) : Good (init n) := by
  refine ⟨by simp [init], ?_, ?_, ?_, by simp [init]⟩
  · intro i f h
    simp [init, List.getElem?_replicate] at h
  · simp [init, List.count_replicate]
  · simp [init, List.count_replicate]

/-- A thread moves, not into or out of the queue's business, and the word stays. -/
theorem good_at {s : St} {i : Nat} {p q : Pc} (hI : Good s) (hi : s.threads[i]? = some p)
    (hq : ∀ f, q = .cas1 f ∨ q = .cas2 f → f.value = 1)
    (hqa : q ≠ .asleep) (hqp : q ≠ .pick) (hpp : p ≠ .pick)
    (hh : s.aborted = false → s.word.value = 1 →
      Alert s.word q ∨ (¬ Alert s.word p ∧ (p = .signal → s.threads.count .asleep = 0))) :
    Good (s.at i q) := by
  have hl := lt_of_get hi
  have ha := at_count q hi .asleep
  have hk := at_count q hi .pick
  have hs := at_count q hi .signal
  simp only [hqa, hqp, hpp, if_false] at ha hk
  refine ⟨hI.bit, ?_, ?_, ?_, ?_⟩
  · intro j f
    simp only [at_get]
    have := hI.seen j f
    grind
  · have := hI.one; omega
  · intro h1
    have := hI.mark h1
    have h2 : p = .asleep → 0 < s.threads.count .asleep := fun e => count_pos (e ▸ hi)
    omega
  · intro h1 h2
    simp only [at_get]
    rcases hh h1 h2 with hA | ⟨h3, h4⟩
    · exact Or.inr (Or.inl ⟨i, q, by simp [hl], hA⟩)
    · rcases hI.heard h1 h2 with h | ⟨j, p', h, hp⟩ | h
      · by_cases hps : p = .signal
        · have := h4 hps
          exact Or.inr (Or.inr (by omega))
        · simp only [hps, if_false] at hs
          exact Or.inl (by omega)
      · exact Or.inr (Or.inl ⟨j, p', by grind, hp⟩)
      · exact Or.inr (Or.inr (by omega))

/-- A thread takes the token. -/
theorem good_take {s : St} {i : Nat} {p : Pc} (hI : Good s) (hi : s.threads[i]? = some p)
    (hp : p ≠ .asleep ∧ p ≠ .pick) (b : Bool) (hb : s.word.waiters = b) :
    Good ({ s with word := ⟨1 - 1, b⟩ }.at i (.waited true)) := by
  have ha := set_count (.waited true) hi .asleep
  have hk := set_count (.waited true) hi .pick
  simp only [hp.1, hp.2, if_false] at ha hk
  refine ⟨by simp [St.at], ?_, ?_, ?_, by simp [St.at]⟩
  · intro j f
    simp only [at_get]
    have := hI.seen j f
    grind
  · have := hI.one
    simp [St.at] at ha hk ⊢; omega
  · intro h1
    simp [St.at] at h1 ha hk ⊢
    have := hI.mark (hb.trans h1)
    omega

theorem good_step {dbg : Bool} {s s' : St} {a : Act} (hI : Good s) (h : step dbg s a = some s') :
    Good s' := by
  cases a with
  | startWait i =>
    simp only [step] at h
    split at h <;> simp at h
    rename_i hi
    subst h
    exact good_at hI hi (by simp) (by simp) (by simp) (by simp) (by simp [Alert])
  | startWake i =>
    simp only [step] at h
    split at h <;> simp at h
    rename_i hi
    subst h
    exact good_at hI hi (by simp) (by simp) (by simp) (by simp) (by simp [Alert])
  | go i =>
    simp only [step] at h
    split at h
    · cases h
    rename_i hab
    have hb : s.word.value ≤ 1 := hI.bit (by simpa using hab)
    split at h
    · rename_i hi
      split at h
      · rw [if_neg (by omega)] at h
        simp at h; subst h
        exact good_at hI hi (by simp; omega) (by simp) (by simp) (by simp) (by simp [Alert])
      · simp at h; subst h
        exact good_at hI hi (by simp) (by simp) (by simp) (by simp) (by simp [Alert])
    · rename_i f hi
      have hf := hI.seen i f (Or.inl hi)
      split at h
      · rename_i he
        simp at h; subst h
        rw [hf]
        exact good_take hI hi (by simp) _ (by rw [he])
      · simp at h; subst h
        exact good_at hI hi (by simp) (by simp) (by simp) (by simp) (by simp [Alert])
    · rename_i hi
      split at h
      · cases h
      rename_i hbusy
      have hbz := (busy_count s).1 (by simpa using hbusy)
      split at h
      · rename_i h0
        simp at h; subst h
        have hk := set_count .asleep hi .pick
        refine ⟨by simp [St.at], ?_, ?_, by simp [St.at], by simp [St.at]⟩
        · intro j f
          simp only [at_get]
          have := hI.seen j f
          grind
        · simp [St.at] at hk ⊢; omega
      · simp at h; subst h
        exact good_at hI hi (by simp) (by simp) (by simp) (by simp) (by simp [Alert])
    · rename_i hi
      split at h
      · rw [if_neg (by omega)] at h
        simp at h; subst h
        exact good_at hI hi (by simp; omega) (by simp) (by simp) (by simp) (by simp [Alert])
      · simp at h; subst h
        exact good_at hI hi (by simp) (by simp) (by simp) (by simp) (by omega)
    · rename_i f hi
      have hf := hI.seen i f (Or.inr hi)
      split at h
      · rename_i he
        simp at h; subst h
        rw [hf]
        exact good_take hI hi (by simp) _ (by rw [he])
      · rename_i hne
        simp at h; subst h
        exact good_at hI hi (by simp) (by simp) (by simp) (by simp)
          (fun _ _ => Or.inr ⟨fun e => hne e.symm, by simp⟩)
    · rename_i hi
      have hl := lt_of_get hi
      split at h
      · rename_i h0
        simp at h; subst h
        have ha := set_count (if s.word.waiters then Pc.signal else .woke) hi .asleep
        have hk := set_count (if s.word.waiters then Pc.signal else .woke) hi .pick
        have hs := set_count (if s.word.waiters then Pc.signal else .woke) hi .signal
        refine ⟨by simp [St.at], ?_, ?_, ?_, ?_⟩
        · intro j f
          simp only [at_get]
          have := hI.seen j f
          grind
        · have := hI.one
          simp only [St.at] at ha hk hs ⊢
          split at hk <;> simp at hk <;> simp_all
        · intro hw
          have hw' : s.word.waiters = false := hw
          have := hI.mark hw'
          simp only [St.at, hw'] at ha hk ⊢
          simp at ha hk ⊢
          omega
        · intro _ _
          simp only [St.at]
          by_cases hw : s.word.waiters = true
          · simp only [hw] at hs ⊢
            simp at hs ⊢
            exact Or.inl (by omega)
          · have hw' : s.word.waiters = false := by simpa using hw
            have := hI.mark hw'
            simp only [hw'] at ha hk ⊢
            simp at ha hk ⊢
            omega
      · simp at h; subst h
        exact ⟨by simp, hI.seen, hI.one, hI.mark, by simp⟩
    · rename_i hi
      split at h
      · cases h
      rename_i hbusy
      have hbz := (busy_count s).1 (by simpa using hbusy)
      split at h
      · rename_i h0
        simp at h; subst h
        exact good_at hI hi (by simp) (by simp) (by simp) (by simp)
          (fun _ _ => Or.inr ⟨by simp [Alert], fun _ => h0⟩)
      · rename_i h0
        simp at h; subst h
        have ha := set_count .pick hi .asleep
        have hk := set_count .pick hi .pick
        simp at ha hk
        refine ⟨?_, ?_, ?_, ?_, ?_⟩
        · intro _
          simp only [St.at, St.unmark]
          split <;> exact hb
        · intro j f
          simp only [at_get]
          have := hI.seen j f
          grind
        · simp only [St.at]; omega
        · intro hw
          simp only [St.at, St.unmark] at hw ⊢
          split at hw
          · omega
          · have := hI.mark hw
            omega
        · intro _ _
          refine Or.inl ?_
          simp only [St.at]
          omega
    · rename_i hi
      simp at h; subst h
      exact good_at hI hi (by simp) (by simp) (by simp) (by simp) (by simp [Alert])
    · rename_i hi
      simp at h; subst h
      exact good_at hI hi (by simp) (by simp) (by simp) (by simp) (by simp [Alert])
    · cases h
  | pick i j =>
    simp only [step] at h
    split at h
    · cases h
    · split at h <;> simp at h
      rename_i hij
      obtain ⟨hi, hj⟩ := hij
      subst h
      have hli := lt_of_get hi
      have hlj := lt_of_get hj
      have hne : i ≠ j := by rintro rfl; rw [hi] at hj; cases hj
      have h2 : (s.at i .woke).threads[j]? = some .asleep := by
        rw [at_get, if_neg hne]; exact hj
      have ha1 := at_count .woke hi .asleep
      have ha2 := at_count .load2 h2 .asleep
      have hk1 := at_count .woke hi .pick
      have hk2 := at_count .load2 h2 .pick
      simp at ha1 ha2 hk1 hk2
      have := hI.one
      refine ⟨hI.bit, ?_, by omega, ?_, ?_⟩
      · intro k f
        simp only [at_get]
        have := hI.seen k f
        grind
      · intro hw
        have := hI.mark hw
        omega
      · intro _ _
        exact Or.inr (Or.inl ⟨j, .load2, by rw [at_get]; simp [St.at, hlj], trivial⟩)
  | pickNone i =>
    simp only [step] at h
    split at h
    · cases h
    · split at h <;> simp at h
      rename_i hij
      obtain ⟨hi, hn⟩ := hij
      subst h
      have ha1 := at_count .woke hi .asleep
      have hk1 := at_count .woke hi .pick
      simp at ha1 hk1
      have := hI.one
      refine ⟨hI.bit, ?_, by omega, fun _ => Or.inl (by omega), fun _ _ => Or.inr (Or.inr (by omega))⟩
      intro k f
      simp only [at_get]
      have := hI.seen k f
      grind
  | timeout i =>
    simp only [step] at h
    split at h <;> simp at h
    rename_i hi
    subst h
    exact good_at hI hi (by simp) (by simp) (by simp) (by simp) (by simp [Alert])
  | interrupt i =>
    simp only [step] at h
    split at h <;> simp at h
    rename_i hi
    subst h
    exact good_at hI hi (by simp) (by simp) (by simp) (by simp) (by simp [Alert])

theorem good_run {dbg : Bool} (as : List Act) {s s' : St} (hI : Good s)
    (h : run dbg s as = some s') : Good s' := by
  induction as generalizing s with
  | nil => simp [run] at h; subst h; exact hI
  | cons a as ih =>
    simp only [run] at h
    rcases h1 : step dbg s a with _ | s1
    · simp [h1] at h
    · simp only [h1] at h
      exact ih (good_step hI h1) h

theorem at_pending {s : St} {i : Nat} {p : Pc} (q : Pc) (h : s.threads[i]? = some p) :
    pending (s.at i q) + (if p = .waited true then 1 else 0) =
      pending s + (if q = .waited true then 1 else 0) := set_count q h _

theorem take_pending {s : St} {i : Nat} {p : Pc} (n : Count) (q : Pc) (h : s.threads[i]? = some p) :
    pending ({ s with word := n }.at i q) + (if p = .waited true then 1 else 0) =
      pending s + (if q = .waited true then 1 else 0) := set_count q h _

/-- One step conserves signals: the value, the successes under way and the successes returned add up. -/
theorem step_conserves {dbg : Bool} {s s' : St} {a : Act} (hI : Good s) (h : step dbg s a = some s') :
    s.word.value + pending s + signal1 s a = s'.word.value + pending s' + success1 s a := by
  cases a with
  | go i =>
    simp only [step] at h
    split at h
    · cases h
    rcases hi : s.threads[i]? with _ | p
    · simp [hi] at h
    · have h1 := fun q => at_pending q hi
      have h2 := fun n q => take_pending n q hi
      cases p <;> simp only [hi] at h
      case cas1 f =>
        have hf := hI.seen i f (Or.inl hi)
        split at h <;> simp at h <;> subst h
        · have := h2 ⟨f.value - 1, f.waiters⟩ (.waited true)
          simp [signal1, success1, hi, St.at] at this ⊢; grind
        · have := h1 .enter
          simp [signal1, success1, hi, St.at] at this ⊢; omega
      case cas2 f =>
        have hf := hI.seen i f (Or.inr hi)
        split at h <;> simp at h <;> subst h
        · have := h2 ⟨f.value - 1, f.waiters⟩ (.waited true)
          simp [signal1, success1, hi, St.at] at this ⊢; grind
        · have := h1 (.waited false)
          simp [signal1, success1, hi, St.at] at this ⊢; omega
      case add =>
        have e : (if s.word.waiters then Pc.signal else .woke) ≠ .waited true := by split <;> simp
        split at h <;> simp at h <;> subst h
        · have := h2 ⟨1, s.word.waiters⟩ (if s.word.waiters then Pc.signal else .woke)
          simp [signal1, success1, hi, St.at, e] at this ⊢; omega
        · simp [signal1, success1, hi, pending]; omega
      case signal =>
        have e : s.unmark.value = s.word.value := by unfold St.unmark; split <;> rfl
        grind [pending, St.at, signal1, success1]
      all_goals grind [pending, St.at, signal1, success1]
  | pick i j =>
    simp only [step] at h
    split at h
    · cases h
    · split at h <;> simp at h
      rename_i hij
      subst h
      have hne : i ≠ j := by intro e; rw [e] at hij; rw [hij.2] at hij; cases hij.1
      have h1 := at_pending .woke hij.1
      have h2 : (s.at i .woke).threads[j]? = some .asleep := by
        rw [at_get, if_neg hne]; exact hij.2
      have h3 := at_pending .load2 h2
      simp [signal1, success1, St.at] at h1 h3 ⊢
      omega
  | pickNone i =>
    simp only [step] at h
    split at h
    · cases h
    · split at h <;> simp at h
      rename_i hij
      subst h
      have h1 := at_pending .woke hij.1
      simp [signal1, success1, St.at] at h1 ⊢
      omega
  | startWait i =>
    simp only [step] at h
    split at h <;> simp at h
    rename_i hi
    subst h
    have h1 := at_pending .load1 hi
    simp [signal1, success1, St.at] at h1 ⊢
    omega
  | startWake i =>
    simp only [step] at h
    split at h <;> simp at h
    rename_i hi
    subst h
    have h1 := at_pending .add hi
    simp [signal1, success1, St.at] at h1 ⊢
    omega
  | timeout i =>
    simp only [step] at h
    split at h <;> simp at h
    rename_i hi
    subst h
    have h1 := at_pending .load2 hi
    simp [signal1, success1, St.at] at h1 ⊢
    omega
  | interrupt i =>
    simp only [step] at h
    split at h <;> simp at h
    rename_i hi
    subst h
    have h1 := at_pending .enter hi
    simp [signal1, success1, St.at] at h1 ⊢
    omega

theorem run_conserves {dbg : Bool} (as : List Act) {s s' : St} (hI : Good s)
    (h : run dbg s as = some s') :
    s.word.value + pending s + signals dbg s as =
      s'.word.value + pending s' + successes dbg s as := by
  induction as generalizing s with
  | nil => simp [run] at h; subst h; simp [signals, successes]
  | cons a as ih =>
    simp only [run] at h
    rcases h1 : step dbg s a with _ | s1
    · simp [h1] at h
    · simp only [h1] at h
      have h2 := step_conserves hI h1
      have h3 := ih (good_step hI h1) h
      simp only [signals, successes, h1]
      omega

/-- **C68** (one success per signal).  In every interleaving of any number of waiting and signalling
threads, at any time the number of signals is the number of waits that returned success, plus those
about to do so, plus the value, and unless the second of two signals with no wait between has aborted,
the value is 0 or 1. -/
theorem umtx_one_success_per_signal (dbg : Bool) (n : Nat) (as : List Act) (s : St)
    (h : run dbg (init n) as = some s) :
    signals dbg (init n) as = successes dbg (init n) as + pending s + s.word.value ∧
      (s.aborted = false → s.word.value ≤ 1) := by
  have h1 := run_conserves as (good_init n) h
  have h2 := good_run as (good_init n) h
  refine ⟨?_, h2.bit⟩
  have h3 : pending (init n) = 0 := by
    simp [pending, init, List.count_replicate]
  have h4 : (init n).word.value = 0 := rfl
  omega

/-- **C68** (no lost wake-up).  Whenever the semaphore is set and no thread is still inside `wake`, a
thread is awake inside `wait` and will not fail for having read an outdated word, or none is asleep.  So
leaving out the system call when the mark is clear loses no signal, although threads that time out leave
the mark set, a waker clears the mark before it picks the sleeper, and a change of the mark makes a
concurrent `compare_exchange` fail. -/
theorem umtx_no_lost_wakeup (dbg : Bool) (n : Nat) (as : List Act) (s : St)
    (h : run dbg (init n) as = some s) (ha : s.aborted = false) (hf : s.word.value = 1)
    (hw : ∀ (i : Nat) p, s.threads[i]? = some p → ¬ Waking p) :
    (∃ (i : Nat) (p : Pc), s.threads[i]? = some p ∧ Alert s.word p) ∨
      ∀ i : Nat, s.threads[i]? ≠ some Pc.asleep := by
  have hnot : ∀ w, Waking w → s.threads.count w = 0 := by
    intro w hww
    rw [List.count_eq_zero]
    intro hm
    obtain ⟨i, hi⟩ := List.getElem?_of_mem hm
    exact hw i _ hi hww
  rcases (good_run as (good_init n) h).heard ha hf with h | h | h
  · have h1 := hnot .signal (Or.inl rfl)
    have h2 := hnot .pick (Or.inr rfl)
    omega
  · exact Or.inl h
  · refine Or.inr fun i hi => ?_
    have := count_pos hi
    omega

/-- **C68** (a thread inside `wake` can finish).  If the semaphore is set and a thread is in the kernel
picking a sleeper, it takes one step, after which `wake` has returned; and if a sleeper is in the queue, it
can be picked and is then awake. -/
theorem umtx_picker_wakes (dbg : Bool) (s : St) (ha : s.aborted = false) (i j : Nat)
    (hi : s.threads[i]? = some .pick) (hj : s.threads[j]? = some .asleep) :
    ∃ s', step dbg s (.pick i j) = some s' ∧ s'.threads[i]? = some .woke ∧
      s'.threads[j]? = some .load2 ∧ s'.word = s.word := by
  have hne : i ≠ j := by rintro rfl; rw [hi] at hj; cases hj
  have hli := lt_of_get hi
  have hlj := lt_of_get hj
  refine ⟨(s.at i .woke).at j .load2, by simp [step, ha, hi, hj], ?_, ?_, rfl⟩
  · simp [at_get, Ne.symm hne, hli]
  · rw [at_get]; simp [St.at, hlj]

/-- **C68** (the waiter that is awake succeeds).  If the semaphore is set and nobody is in the kernel
waking, every such thread succeeds when it runs alone, within four steps. -/
theorem umtx_alert_succeeds (dbg : Bool) (n : Nat) (as : List Act) (s : St)
    (h : run dbg (init n) as = some s) (ha : s.aborted = false) (hf : s.word.value = 1)
    (hb : ∀ i : Nat, s.threads[i]? ≠ some Pc.pick) (i : Nat) (p : Pc)
    (hi : s.threads[i]? = some p) (hp : Alert s.word p) :
    ∃ k s', k ≤ 4 ∧ run dbg s (List.replicate k (.go i)) = some s' ∧
      s'.threads[i]? = some (.waited true) ∧ s'.word.value = 0 ∧ s'.aborted = false := by
  have hl := lt_of_get hi
  have hI := good_run as (good_init n) h
  have cas : ∀ t : St, t.aborted = false → t.word.value = 1 → i < t.threads.length →
      t.threads[i]? = some (.cas1 t.word) ∨ t.threads[i]? = some (.cas2 t.word) →
      ∃ s', step dbg t (.go i) = some s' ∧ s'.threads[i]? = some (.waited true) ∧ s'.word.value = 0 ∧
        s'.aborted = false := by
    intro t h1 h2 h3 h4
    rcases h4 with h4 | h4 <;>
    exact ⟨{ t with word := ⟨t.word.value - 1, t.word.waiters⟩ }.at i (.waited true), by simp [step, h1, h4],
      by simp [at_get, h3], by simp [St.at, h2], h1⟩
  have ld : ∀ t : St, t.aborted = false → t.word.value = 1 → i < t.threads.length →
      t.threads[i]? = some .load1 ∨ t.threads[i]? = some .load2 →
      ∃ s1 s', step dbg t (.go i) = some s1 ∧ step dbg s1 (.go i) = some s' ∧
        s'.threads[i]? = some (.waited true) ∧ s'.word.value = 0 ∧ s'.aborted = false := by
    intro t h1 h2 h3 h4
    rcases h4 with h4 | h4
    · obtain ⟨s', h5⟩ := cas (t.at i (.cas1 t.word)) h1 h2 (by simpa [St.at] using h3)
        (Or.inl (by simp [h3, St.at]))
      exact ⟨_, s', by simp [step, h1, h4, h2], h5⟩
    · obtain ⟨s', h5⟩ := cas (t.at i (.cas2 t.word)) h1 h2 (by simpa [St.at] using h3)
        (Or.inr (by simp [h3, St.at]))
      exact ⟨_, s', by simp [step, h1, h4, h2], h5⟩
  have ent : ∀ t : St, t.aborted = false → t.word.value = 1 → i < t.threads.length → t.busy = false →
      t.threads[i]? = some .enter →
      ∃ s0 s1 s', step dbg t (.go i) = some s0 ∧ step dbg s0 (.go i) = some s1 ∧
        step dbg s1 (.go i) = some s' ∧
        s'.threads[i]? = some (.waited true) ∧ s'.word.value = 0 ∧ s'.aborted = false := by
    intro t h1 h2 h3 h4 h5
    obtain ⟨s1, s', h6⟩ := ld (t.at i .load2) h1 h2 (by simpa [St.at] using h3)
      (Or.inr (by simp [at_get, h3]))
    exact ⟨_, s1, s', by simp [step, h1, h5, h2, h4], h6⟩
  have hbz : s.busy = false := by
    rw [busy_count, List.count_eq_zero]
    intro hm
    obtain ⟨k, hk⟩ := List.getElem?_of_mem hm
    exact hb k hk
  cases p <;> simp only [Alert] at hp
  case load1 =>
    obtain ⟨s1, s', h1, h2, h3⟩ := ld s ha hf hl (Or.inl hi)
    exact ⟨2, s', by omega, by simp [run, List.replicate, h1, h2], h3⟩
  case load2 =>
    obtain ⟨s1, s', h1, h2, h3⟩ := ld s ha hf hl (Or.inr hi)
    exact ⟨2, s', by omega, by simp [run, List.replicate, h1, h2], h3⟩
  case cas1 f =>
    by_cases hfw : f = s.word
    · subst hfw
      obtain ⟨s', h1, h2⟩ := cas s ha hf hl (Or.inl hi)
      exact ⟨1, s', by omega, by simp [run, List.replicate, h1], h2⟩
    · have hc := at_count .enter hi .pick
      simp at hc
      obtain ⟨s0, s1, s', h0, h1, h2, h3⟩ := ent (s.at i .enter) ha hf (by simpa [St.at] using hl)
        ((busy_count _).2 (by have := (busy_count s).1 hbz; omega)) (by simp [at_get, hl])
      have hx : step dbg s (.go i) = some (s.at i .enter) := by simp [step, ha, hi, Ne.symm hfw]
      exact ⟨4, s', by omega, by simp [run, List.replicate, hx, h0, h1, h2], h3⟩
  case cas2 f =>
    subst hp
    obtain ⟨s', h1, h2⟩ := cas s ha hf hl (Or.inr hi)
    exact ⟨1, s', by omega, by simp [run, List.replicate, h1], h2⟩
  case enter =>
    obtain ⟨s0, s1, s', h0, h1, h2, h3⟩ := ent s ha hf hl hbz hi
    exact ⟨3, s', by omega, by simp [run, List.replicate, h0, h1, h2], h3⟩

/-- **C68** (a signal of a set semaphore aborts). -/
theorem umtx_second_signal_aborts (dbg : Bool) (s : St) (i : Nat) (ha : s.aborted = false)
    (hi : s.threads[i]? = some .add) (hf : s.word.value ≠ 0) :
    ∃ s', step dbg s (.go i) = some s' ∧ s'.aborted = true := by
  exact ⟨{ s with word := ⟨s.word.value + 1, s.word.waiters⟩, aborted := true },
    by simp [step, ha, hi, hf], rfl⟩

theorem alternates_step {dbg : Bool} {s s' : St} {a : Act} (hI : Good s)
    (ha : s.aborted = false) (hd : ∀ i, a = .go i → s.threads[i]? = some .add → s.word.value = 0)
    (h : step dbg s a = some s') : s'.aborted = false := by
  have hb := hI.bit ha
  cases a with
  | go i =>
    have := hd i rfl
    simp only [step] at h
    split at h
    · cases h
    rcases hi : s.threads[i]? with _ | p
    · simp [hi] at h
    · cases p <;> simp only [hi] at h <;> grind [St.at]
  | _ => simp only [step] at h; grind [St.at]

/-- **C68** (no abort under the discipline).  If no thread signals while the semaphore is set, nothing
aborts, in either build, for any number of threads and any interleaving. -/
theorem umtx_alternating_never_aborts (dbg : Bool) (n : Nat) (as : List Act) (s : St)
    (hd : Alternates dbg (init n) as) (h : run dbg (init n) as = some s) : s.aborted = false := by
  have key : ∀ as s0, Good s0 → s0.aborted = false → Alternates dbg s0 as →
      run dbg s0 as = some s → s.aborted = false := by
    intro as
    induction as with
    | nil => intro s0 _ h1 _ h2; simp [run] at h2; subst h2; exact h1
    | cons a as ih =>
      intro s0 hI h1 hd h2
      simp only [run] at h2
      rcases h3 : step dbg s0 a with _ | s1
      · simp [h3] at h2
      · simp only [h3] at h2
        exact ih s1 (good_step hI h3) (alternates_step hI h1 hd.1 h3) (hd.2 _ h3) h2
  exact key as _ (good_init n) rfl hd h

/-! ## Concrete runs -/

/-- Two sleepers; thread 2 signals, the kernel leaves the mark (two threads are in the queue) and picks
thread 1. -/
def exActs : List Act :=
  [.startWait 0, .startWait 1, .startWake 2, .go 0, .go 1, .go 0, .go 1, .go 2, .go 2, .pick 2 1]

/-- The hypotheses of `umtx_one_success_per_signal`, `umtx_no_lost_wakeup` and `umtx_alert_succeeds`
hold, with a second thread still asleep. -/
example : ∃ s, run true (init 3) exActs = some s ∧ s.aborted = false ∧ s.word = ⟨1, true⟩ ∧
    (∀ (i : Nat) p, s.threads[i]? = some p → ¬ Waking p) ∧ s.threads[0]? = some Pc.asleep ∧
    s.threads[1]? = some Pc.load2 ∧ Alert s.word .load2 :=
  ⟨⟨⟨1, true⟩, [.asleep, .load2, .woke], false⟩, rfl, rfl, rfl,
    fun i p => by rcases i with _ | _ | _ | i <;> simp [Waking] <;> rintro rfl <;> simp, rfl, rfl, trivial⟩

/-- The discipline holds of the run above. -/
example : Alternates true (init 3) exActs := by
  simp [Alternates, exActs, init, step, St.at, St.busy, St.unmark]

/-- The hypotheses of `umtx_picker_wakes`: one sleeper, the mark is already clear, and the sleeper is in
the queue. -/
example : ∃ s, run false (init 2) [.startWait 0, .go 0, .go 0, .startWake 1, .go 1, .go 1] = some s ∧
    s.aborted = false ∧ s.threads[1]? = some .pick ∧ s.threads[0]? = some .asleep ∧
    s.word = ⟨1, false⟩ := ⟨_, rfl, rfl, rfl, rfl, rfl⟩

/-- Why `Alert` asks for the word that is there now: a waiter that timed out and read the word before the
waker cleared the mark fails, although the semaphore is set; the other waiter gets the signal. -/
example : ∃ s, run false (init 3)
    [.startWait 0, .startWait 1, .go 0, .go 1, .go 0, .go 1, .startWake 2, .timeout 0, .go 2, .go 0, .go 2,
      .go 0, .pick 2 1] = some s ∧ s.threads = [.waited false, .load2, .woke] ∧ s.word = ⟨1, false⟩ :=
  ⟨_, rfl, rfl, rfl⟩

/-- The hypotheses of `umtx_second_signal_aborts` hold after one signal. -/
example : ∃ s, run false (init 2) [.startWake 0, .startWake 1, .go 0] = some s ∧ s.aborted = false ∧
    s.threads[1]? = some Pc.add ∧ s.word.value ≠ 0 := ⟨_, rfl, rfl, rfl, by simp [St.at, init]⟩

end Verif.Umtx
