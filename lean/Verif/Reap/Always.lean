import Verif.Reap.Serial

/-!
# Several threads and one child handle, from every state (property C70)

`Props` has one run for each way in which two threads break the handle.  Here each of them is shown from every
state that can be reached, with any number of other threads, while the child runs and two threads are free to
begin; and what two threads that wait at once can never do.
-/

namespace Verif.Reap
open Child (ExitStatus wexitstatus)
open Child.Spec (Fate encode)

/-- While the child runs, nobody has learnt of its end. -/
theorem running {b : Backend} {n : Nat} {as : List Act} {s : St} (h : run b (init n) as = some s)
    (hf : s.fate = none) : s.told = false ∧ s.status.hasExited = false ∧ s.owner = some 0 := by
  have hI := good_run as (good_init b n) h
  have h1 : s.told = false := by
    cases ht : s.told with
    | false => rfl
    | true => exact absurd hf (hI.told ht)
  refine ⟨h1, ?_, hI.mine h1⟩
  cases hs : s.status.hasExited with
  | false => rfl
  | true => have := (hI.status hs).1; simp [h1] at this

theorem run_cons {b : Backend} {s t : St} {a : Act} (as : List Act) (h : step b s a = some t) :
    run b s (a :: as) = run b t as := by
  simp only [run, h]

/-- A thread that begins while the end is not known gets to the system call. -/
theorem begin_ask {b : Backend} {s : St} {i : Nat} {p : Pc} (k : Kind) (as : List Act)
    (hx : s.hostExit = false) (hs : s.status.hasExited = false) (hi : s.threads[i]? = some p) (hp : Rests p) :
    run b s (.start i k :: .go i :: as) = run b (s.at i (.ask k)) as := by
  have hl := (List.getElem?_eq_some_iff.1 hi).1
  have h1 : step b s (.start i k) = some (s.at i (.check k)) := by
    cases p <;> simp [Rests] at hp <;> simp [step, hi]
  rw [run_cons _ h1, run_cons (t := s.at i (.ask k))]
  simp [step, St.at, hx, hs, hl]

/-- **C70** (violation from every state, process number).  In every state that can be reached, with the child
running and any two threads free to begin, whatever those two ask for and however the child ends: if both pass
the check of `status` before it ends and both then make their call, the host ends. -/
theorem any_two_threads_end_the_host (n : Nat) (as : List Act) (s : St) (i j : Nat) (p q : Pc) (k l : Kind)
    (f : Fate) (h : run .number (init n) as = some s) (hx : s.hostExit = false) (hf : s.fate = none)
    (hij : i ≠ j) (hi : s.threads[i]? = some p) (hp : Rests p) (hj : s.threads[j]? = some q) (hq : Rests q) :
    ∃ s', run .number s [.start i k, .go i, .start j l, .go j, .exit f, .go i, .go j] = some s' ∧
      s'.hostExit = true := by
  obtain ⟨ht, hs, -⟩ := running h hf
  have hli := (List.getElem?_eq_some_iff.1 hi).1
  have hlj := (List.getElem?_eq_some_iff.1 hj).1
  have hji : j ≠ i := fun e => hij e.symm
  rw [begin_ask k _ hx hs hi hp,
    begin_ask (s := s.at i (.ask k)) l _ hx hs (p := q) (by rw [at_get, if_neg hij]; exact hj) hq]
  simp [run, step, asked, St.at, hf, hx, ht, hli, hlj, hij, hji]

/-- **C70** (violation from every state, process number).  In every state that can be reached, with the child
running and any two threads free to begin: if one decides to kill the child, the child then ends, the other
learns of it, and any other process gets the number, the signal goes to that process. -/
theorem any_two_threads_kill_a_stranger (n : Nat) (as : List Act) (s : St) (i j : Nat) (p q : Pc) (f : Fate)
    (x : Nat) (h : run .number (init n) as = some s) (hx : s.hostExit = false) (hf : s.fate = none)
    (hij : i ≠ j) (hi : s.threads[i]? = some p) (hp : Rests p) (hj : s.threads[j]? = some q) (hq : Rests q) :
    ∃ s', run .number s [.start i .term, .go i, .go i, .go i, .exit f, .start j .poll, .go j, .go j, .reuse x,
        .go i] = some s' ∧ s'.killed = (x + 1) :: s.killed := by
  obtain ⟨ht, hs, -⟩ := running h hf
  have hli := (List.getElem?_eq_some_iff.1 hi).1
  have hlj := (List.getElem?_eq_some_iff.1 hj).1
  have hji : j ≠ i := fun e => hij e.symm
  rw [begin_ask .term _ hx hs hi hp]
  rw [run_cons (t := s.at i (.ret .term)) _ (by simp [step, asked, St.at, hf, hx, hli])]
  rw [run_cons (t := s.at i .kill) _ (by simp [step, St.at, hx, hs, hli])]
  obtain ⟨t, htd⟩ : ∃ t : St, t = { s with fate := some f }.at i .kill := ⟨_, rfl⟩
  rw [run_cons (t := t) _ (by simp [htd, step, St.at, hf])]
  rw [begin_ask (s := t) .poll _ (by rw [htd]; exact hx) (by rw [htd]; exact hs) (p := q)
    (by rw [htd, at_get, if_neg hij]; exact hj) hq, htd]
  simp [run, step, asked, St.at, hx, ht, hli, hlj, hji, target]

/-- A thread in a blocking call that was told to another thread stays there. -/
theorem stuck_run {b : Backend} {i : Nat} (as : List Act) {s s' : St} (hi : s.threads[i]? = some (.ask .wait))
    (ht : s.told = true) (hf : s.fate ≠ none) (h : run b s as = some s') :
    s'.threads[i]? = some (.ask .wait) := by
  induction as generalizing s with
  | nil => simp [run] at h; subst h; exact hi
  | cons a as ih =>
    simp only [run] at h
    rcases h1 : step b s a with _ | s1
    · simp [h1] at h
    · simp only [h1] at h
      obtain ⟨h2, h3, h4⟩ := stuck_step hi ht hf h1
      exact ih h2 h3 h4 h

/-- **C70** (violation from every state, process descriptor).  In every state that can be reached, with the
child running and any two threads free to begin: if one waits for the end, and the other, whatever it asks
for, makes its call first after the end, then the one that waits never returns, whatever happens afterwards. -/
theorem any_other_thread_takes_the_event (n : Nat) (as : List Act) (s : St) (i j : Nat) (p q : Pc) (k : Kind)
    (f : Fate) (h : run .descriptor (init n) as = some s) (hf : s.fate = none)
    (hij : i ≠ j) (hi : s.threads[i]? = some p) (hp : Rests p) (hj : s.threads[j]? = some q) (hq : Rests q) :
    ∃ s', run .descriptor s [.start i .wait, .go i, .start j k, .go j, .exit f, .go j, .go j] = some s' ∧
      s'.status = ⟨true, wexitstatus (encode f)⟩ ∧
      ∀ (bs : List Act) (s'' : St), run .descriptor s' bs = some s'' →
        s''.threads[i]? = some (.ask .wait) := by
  obtain ⟨ht, hs, -⟩ := running h hf
  have hx := ((good_run as (good_init .descriptor n) h).aim rfl).1
  have hli := (List.getElem?_eq_some_iff.1 hi).1
  have hlj := (List.getElem?_eq_some_iff.1 hj).1
  have hji : j ≠ i := fun e => hij e.symm
  rw [begin_ask .wait _ hx hs hi hp,
    begin_ask (s := s.at i (.ask .wait)) k _ hx hs (p := q) (by rw [at_get, if_neg hij]; exact hj) hq]
  refine ⟨St.mk (some f) true s.owner ⟨true, wexitstatus (encode f)⟩
    ((s.threads.set i (.ask .wait)).set j (.ret k)) s.hostExit s.killed, ?_, rfl, ?_⟩
  · simp [run, step, asked, St.at, hf, hx, ht, hlj]
  · intro bs s'' hb
    exact stuck_run bs (by simp [hji, hli]) rfl (by simp) hb

/-- A thread leaves the blocking call only by its own step, and then the kernel has told of the end. -/
theorem wait_step {b : Backend} {s s' : St} {a : Act} {i : Nat} (hi : s.threads[i]? = some (.ask .wait))
    (h : step b s a = some s') : s'.threads[i]? = some (.ask .wait) ∨
      s'.told = true ∧ ∀ j, i ≠ j → s'.threads[j]? = s.threads[j]? := by
  have keep : ∀ (t : St) j q, j ≠ i → t.threads[i]? = some (.ask .wait) →
      (t.at j q).threads[i]? = some (.ask .wait) := by
    intro t j q hne h; rw [at_get, if_neg hne]; exact h
  have other : ∀ j p, s.threads[j]? = some p → p ≠ .ask .wait → j ≠ i := by
    rintro j p h1 h2 rfl; rw [hi] at h1; cases h1; exact h2 rfl
  cases a with
  | start j k =>
    simp only [step] at h
    split at h <;> simp at h <;> subst h <;> rename_i hj <;>
    exact .inl (keep _ _ _ (other j _ hj (by simp)) hi)
  | interrupt j =>
    simp only [step] at h
    split at h <;> simp at h
    subst h; exact .inl hi
  | exit f =>
    simp only [step] at h
    split at h <;> simp at h
    subst h
    exact .inl hi
  | reuse k =>
    simp only [step] at h
    split at h <;> simp at h
    subst h
    exact .inl hi
  | go j =>
    simp only [step] at h
    split at h
    · cases h
    split at h
    · rename_i k hj
      simp at h; subst h
      exact .inl (keep _ _ _ (other j _ hj (by simp)) hi)
    · rename_i k hj
      unfold asked at h
      split at h
      · split at h <;> simp at h
        rename_i hk
        subst h
        exact .inl (keep _ _ _ (other j _ hj (by simpa using hk)) hi)
      · simp at h; subst h
        by_cases hji : j = i
        · subst hji
          refine .inr ⟨rfl, ?_⟩
          intro j' hne
          rw [at_get, if_neg hne]
        · exact .inl (keep { s with told := true, owner := _ } _ _ hji hi)
      · split at h
        · simp at h; subst h
          exact .inl hi
        · split at h
          · cases h
          · rename_i hk
            simp at h; subst h
            exact .inl (keep _ _ _ (other j _ hj (by simpa using hk)) hi)
    · rename_i k c hj
      simp at h; subst h
      exact .inl (keep { s with status := ⟨true, c⟩ } _ _ (other j _ hj (by simp)) hi)
    · rename_i hj
      simp at h; subst h
      exact .inl (keep _ _ _ (other j _ hj (by simp)) hi)
    · rename_i k _ hj
      simp at h; subst h
      exact .inl (keep _ _ _ (other j _ hj (by simp)) hi)
    · rename_i hj
      simp at h; subst h
      exact .inl (keep { s with killed := _ } _ _ (other j _ hj (by simp)) hi)
    · cases h

/-- **C70** (two threads that wait).  With either kind of handle and any number of other threads: if two
threads are in the blocking call at once, then at no later time have both left it.  With a process number the
host has ended by then (`two_waiters_end_the_host`), with a descriptor one of them waits for ever. -/
theorem two_waiters_never_both_return (b : Backend) (n : Nat) (as bs : List Act) (s s' : St) (i j : Nat)
    (h : run b (init n) as = some s) (hij : i ≠ j)
    (hi : s.threads[i]? = some (.ask .wait)) (hj : s.threads[j]? = some (.ask .wait))
    (h' : run b s bs = some s') :
    s'.threads[i]? = some (.ask .wait) ∨ s'.threads[j]? = some (.ask .wait) := by
  have hI := good_run as (good_init b n) h
  clear h
  induction bs generalizing s with
  | nil => simp [run] at h'; subst h'; exact .inl hi
  | cons a bs ih =>
    simp only [run] at h'
    rcases h1 : step b s a with _ | s1
    · simp [h1] at h'
    · simp only [h1] at h'
      have hI1 := good_step hI h1
      rcases wait_step hi h1 with hi1 | ⟨ht, hk⟩
      · rcases wait_step hj h1 with hj1 | ⟨ht, -⟩
        · exact ih s1 hi1 hj1 h' hI1
        · exact .inl (stuck_run bs hi1 ht (hI1.told ht) h')
      · exact .inr (stuck_run bs (by rw [hk j hij]; exact hj) ht (hI1.told ht) h')

/-- **C70** (two threads that ask at once, process number).  If two threads, whatever they ask for, have passed
the check of `status` while the child runs, then its end and one step of each end the host. -/
theorem two_waiters_end_the_host (s : St) (i j : Nat) (k l : Kind) (f : Fate) (hij : i ≠ j)
    (hx : s.hostExit = false) (hf : s.fate = none) (ht : s.told = false)
    (hi : s.threads[i]? = some (.ask k)) (hj : s.threads[j]? = some (.ask l)) :
    ∃ s', run .number s [.exit f, .go i, .go j] = some s' ∧ s'.hostExit = true := by
  have hli := (List.getElem?_eq_some_iff.1 hi).1
  simp [run, step, asked, St.at, hf, hx, ht, hi, hj, hij]

/-! ## Concrete states -/

/-- The hypotheses of the theorems on every state: after one thread has asked and two others are at work, two
threads are free and the child runs. -/
example (b : Backend) : ∃ s, run b (init 4)
      [.start 0 .poll, .go 0, .go 0, .go 0, .start 2 .poll, .go 2, .start 3 .term, .go 3, .go 3] = some s ∧
    s.hostExit = false ∧ s.fate = none ∧ s.threads[0]? = some (.done (some ⟨false, 0⟩)) ∧
    Rests (.done (some ⟨false, 0⟩)) ∧ s.threads[1]? = some .idle ∧ Rests .idle := by
  cases b <;> exact ⟨_, rfl, rfl, rfl, rfl, trivial, rfl, trivial⟩

/-- The hypotheses of `two_waiters_never_both_return` and `two_waiters_end_the_host`. -/
example (b : Backend) : ∃ s, run b (init 2) [.start 0 .wait, .go 0, .start 1 .wait, .go 1] = some s ∧
    s.hostExit = false ∧ s.fate = none ∧ s.told = false ∧
    s.threads[0]? = some (.ask .wait) ∧ s.threads[1]? = some (.ask .wait) := by
  cases b <;> exact ⟨_, rfl, rfl, rfl, rfl, rfl, rfl⟩

end Verif.Reap
