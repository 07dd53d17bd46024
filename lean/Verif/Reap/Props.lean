import Verif.Reap.Model

/-!
# One child handle, several threads of the host (properties C69 and C70)
-/

namespace Verif.Reap
open Child (ExitStatus wexitstatus)
open Child.Spec (Fate encode)

theorem at_get (s : St) (i j : Nat) (p : Pc) :
    (s.at i p).threads[j]? = if i = j then (if i < s.threads.length then some p else none)
      else s.threads[j]? := by
  simp [St.at, List.getElem?_set]

/-- What holds in every reachable state, for both kinds of handle and any number of threads. -/
structure Good (b : Backend) (s : St) : Prop where
  told : s.told = true → s.fate ≠ none
  status : s.status.hasExited = true →
    s.told = true ∧ ∃ f, s.fate = some f ∧ s.status.code = wexitstatus (encode f)
  store : ∀ (i : Nat) k c, s.threads[i]? = some (.store k c) →
    s.told = true ∧ ∃ f, s.fate = some f ∧ c = wexitstatus (encode f)
  done : ∀ (i : Nat) e, s.threads[i]? = some (.done (some e)) → e.hasExited = true →
    ∃ f, s.fate = some f ∧ e.code = wexitstatus (encode f)
  mine : s.told = false → s.owner = some 0
  aim : b = .descriptor → s.hostExit = false ∧ ∀ k ∈ s.killed, k = 0

theorem good_init (b : Backend) (n : Nat) : Good b (init n) := by
  refine ⟨by simp [init], by simp [init], ?_, ?_, by simp [init], by simp [init]⟩
  · intro i k c h; simp [init, List.getElem?_replicate] at h
  · intro i e h; simp [init, List.getElem?_replicate] at h

theorem good_at {b : Backend} {s : St} (hI : Good b s) (i : Nat) (q : Pc)
    (h1 : ∀ k c, q = .store k c → s.told = true ∧ ∃ f, s.fate = some f ∧ c = wexitstatus (encode f))
    (h2 : ∀ e, q = .done (some e) → e.hasExited = true →
      ∃ f, s.fate = some f ∧ e.code = wexitstatus (encode f)) : Good b (s.at i q) := by
  refine ⟨hI.told, hI.status, ?_, ?_, hI.mine, hI.aim⟩
  · intro j k c h
    rw [at_get] at h
    split at h
    · split at h
      · simp at h; exact h1 k c h
      · cases h
    · exact hI.store j k c h
  · intro j e h
    rw [at_get] at h
    split at h
    · split at h
      · simp at h; exact h2 e h
      · cases h
    · exact hI.done j e h

theorem good_step {b : Backend} {s s' : St} {a : Act} (hI : Good b s) (h : step b s a = some s') :
    Good b s' := by
  cases a with
  | start i k =>
    simp only [step] at h
    split at h <;> simp at h <;> subst h <;> exact good_at hI _ _ (by simp) (by simp)
  | interrupt i =>
    simp only [step] at h
    split at h <;> simp at h
    subst h; exact hI
  | exit f =>
    simp only [step] at h
    split at h <;> simp at h
    rename_i hf
    subst h
    have ht : s.told = false := by
      cases ht : s.told with
      | false => rfl
      | true => exact absurd hf (hI.told ht)
    refine ⟨by simp, ?_, ?_, ?_, hI.mine, hI.aim⟩
    · intro h; have := (hI.status h).1; simp [ht] at this
    · intro i k c h; have := (hI.store i k c h).1; simp [ht] at this
    · intro i e h he
      obtain ⟨f', h1, -⟩ := hI.done i e h he
      rw [hf] at h1; cases h1
  | reuse k =>
    simp only [step] at h
    split at h <;> simp at h
    rename_i ho
    subst h
    refine ⟨hI.told, hI.status, hI.store, hI.done, ?_, hI.aim⟩
    intro ht
    have := hI.mine ht
    rw [ho] at this; cases this
  | go i =>
    simp only [step] at h
    split at h
    · cases h
    rename_i hx
    split at h
    · simp at h; subst h
      refine good_at hI _ _ ?_ ?_
      · intro k c; split <;> simp
      · intro e; split <;> simp
    · rename_i k hi
      unfold asked at h
      split at h
      · split at h <;> simp at h
        subst h
        exact good_at hI _ _ (by simp) (by simp)
      · rename_i f hf ht
        simp at h; subst h
        have hbase : Good b { s with told := true, owner := if b = Backend.number then none else s.owner } := by
          refine ⟨by simp [hf], ?_, ?_, hI.done, by simp, hI.aim⟩
          · intro h; have := (hI.status h).1; simp [ht] at this
          · intro j k' c h; have := (hI.store j k' c h).1; simp [ht] at this
        refine good_at hbase _ _ ?_ (by simp)
        intro k' c h
        simp at h
        exact ⟨rfl, f, hf, h.2.symm⟩
      · rename_i f hf ht
        split at h
        · simp at h; subst h
          exact ⟨hI.told, hI.status, hI.store, hI.done, hI.mine, by simp⟩
        · split at h <;> simp at h
          subst h
          exact good_at hI _ _ (by simp) (by simp)
    · rename_i k c hi
      simp at h; subst h
      obtain ⟨h1, f, h2, h3⟩ := hI.store i k c hi
      have hbase : Good b { s with status := ⟨true, c⟩ } :=
        ⟨hI.told, fun _ => ⟨h1, f, h2, h3⟩, hI.store, hI.done, hI.mine, hI.aim⟩
      exact good_at hbase _ _ (by simp) (by simp)
    · simp at h; subst h
      refine good_at hI _ _ ?_ ?_
      · intro k c; split <;> simp
      · intro e; split <;> simp
    · simp at h; subst h
      refine good_at hI _ _ (by simp) ?_
      intro e he hx
      simp at he
      subst he
      exact (hI.status hx).2
    · simp at h; subst h
      have hbase : Good b { s with
          killed := target b s ++ s.killed } := by
        refine ⟨hI.told, hI.status, hI.store, hI.done, hI.mine, ?_⟩
        intro hb
        subst hb
        refine ⟨(hI.aim rfl).1, ?_⟩
        intro k hk
        simp [target] at hk
        rcases hk with rfl | hk
        · rfl
        · exact (hI.aim rfl).2 k hk
      exact good_at hbase i (.done none) (by simp) (by simp)
    · cases h

theorem good_run {b : Backend} (as : List Act) {s s' : St} (hI : Good b s) (h : run b s as = some s') :
    Good b s' := by
  induction as generalizing s with
  | nil => simp [run] at h; subst h; exact hI
  | cons a as ih =>
    simp only [run] at h
    rcases h1 : step b s a with _ | s1
    · simp [h1] at h
    · simp only [h1] at h
      exact ih (good_step hI h1) h

/-- **C69** (the process descriptor is safe).  With a process descriptor, in every interleaving of any number
of threads of the host with the life of the child and of other processes: the host is never ended by a
query, every `SIGKILL` goes to the child and to no other process, even after the child has ended and its
number belongs to another process, and a query that says that the child has ended says so only when it has,
with the exit code that the status word of its end holds. -/
theorem descriptor_is_safe (n : Nat) (as : List Act) (s : St) (h : run .descriptor (init n) as = some s) :
    s.hostExit = false ∧ (∀ k ∈ s.killed, k = 0) ∧
      ∀ (i : Nat) (e : ExitStatus), s.threads[i]? = some (.done (some e)) → e.hasExited = true →
        ∃ f, s.fate = some f ∧ e.code = wexitstatus (encode f) := by
  have hI := good_run as (good_init _ n) h
  exact ⟨(hI.aim rfl).1, (hI.aim rfl).2, hI.done⟩

/-- **C69** (for both kinds of handle).  A query that says that the child has ended says so only when it has,
with the exit code that the status word of its end holds, for any number of threads. -/
theorem exit_answer_is_right (b : Backend) (n : Nat) (as : List Act) (s : St)
    (h : run b (init n) as = some s) (i : Nat) (e : ExitStatus)
    (hi : s.threads[i]? = some (.done (some e))) (he : e.hasExited = true) :
    ∃ f, s.fate = some f ∧ e.code = wexitstatus (encode f) :=
  (good_run as (good_init _ n) h).done i e hi he

/-! ## One thread -/

/-- What the only thread knows, at each place. -/
def Knows (s : St) : Pc → Prop
  | .ask _ | .kill => s.told = false ∧ s.status.hasExited = false
  | .store _ _ => s.told = true
  | _ => s.told = s.status.hasExited

theorem single_step {b : Backend} {s s' : St} {p : Pc} {a : Act} (hI : Good b s)
    (hp : s.threads = [p]) (hk : Knows s p) (hx : s.hostExit = false) (hq : ∀ k ∈ s.killed, k = 0)
    (h : step b s a = some s') :
    ∃ p', s'.threads = [p'] ∧ Knows s' p' ∧ s'.hostExit = false ∧ ∀ k ∈ s'.killed, k = 0 := by
  have get : ∀ i q, s.threads[i]? = some q → i = 0 ∧ q = p := by
    intro i q h
    rw [hp] at h
    rcases i with _ | i
    · simp at h; exact ⟨rfl, h.symm⟩
    · simp at h
  cases a with
  | start i k =>
    simp only [step] at h
    split at h <;> simp at h <;> subst h <;> rename_i hi <;> obtain ⟨rfl, rfl⟩ := get _ _ hi <;>
    exact ⟨.check k, by simp [St.at, hp], hk, hx, hq⟩
  | interrupt i =>
    simp only [step] at h
    split at h <;> simp at h
    subst h; exact ⟨p, hp, hk, hx, hq⟩
  | exit f =>
    simp only [step] at h
    split at h <;> simp at h
    subst h
    exact ⟨p, hp, by cases p <;> exact hk, hx, hq⟩
  | reuse k =>
    simp only [step] at h
    split at h <;> simp at h
    subst h
    exact ⟨p, hp, by cases p <;> exact hk, hx, hq⟩
  | go i =>
    simp only [step] at h
    split at h
    · cases h
    split at h
    · rename_i k hi
      obtain ⟨rfl, rfl⟩ := get _ _ hi
      simp at h; subst h
      have hk' : s.told = s.status.hasExited := hk
      cases h0 : s.status.hasExited with
      | true => exact ⟨.ret k, by simp [St.at, hp], hk', hx, hq⟩
      | false => exact ⟨.ask k, by simp [St.at, hp], ⟨hk'.trans h0, h0⟩, hx, hq⟩
    · rename_i k hi
      obtain ⟨rfl, rfl⟩ := get _ _ hi
      have hk' : s.told = false ∧ s.status.hasExited = false := hk
      unfold asked at h
      split at h
      · split at h <;> simp at h
        subst h
        exact ⟨.ret k, by simp [St.at, hp], hk'.1.trans hk'.2.symm, hx, hq⟩
      · rename_i f _ _
        simp at h; subst h
        exact ⟨.store k (wexitstatus (encode f)), by simp [St.at, hp], rfl, hx, hq⟩
      · rename_i ht
        rw [hk'.1] at ht; cases ht
    · rename_i k c hi
      obtain ⟨rfl, rfl⟩ := get _ _ hi
      simp at h; subst h
      exact ⟨.ret k, by simp [St.at, hp], hk, hx, hq⟩
    · rename_i hi
      obtain ⟨rfl, rfl⟩ := get _ _ hi
      simp at h; subst h
      have hk' : s.told = s.status.hasExited := hk
      cases h0 : s.status.hasExited with
      | true => exact ⟨.done none, by simp [St.at, hp], hk', hx, hq⟩
      | false => exact ⟨.kill, by simp [St.at, hp], ⟨hk'.trans h0, h0⟩, hx, hq⟩
    · rename_i k _ hi
      obtain ⟨rfl, rfl⟩ := get _ _ hi
      simp at h; subst h
      exact ⟨.done (some s.status), by simp [St.at, hp], hk, hx, hq⟩
    · rename_i hi
      obtain ⟨rfl, rfl⟩ := get _ _ hi
      have hk' : s.told = false ∧ s.status.hasExited = false := hk
      simp at h; subst h
      refine ⟨.done none, by simp [St.at, hp], hk'.1.trans hk'.2.symm, hx, ?_⟩
      have ho := hI.mine hk'.1
      intro k hm
      simp only [St.at, List.mem_append] at hm
      rcases hm with hm | hm
      · cases b <;> simp_all [target]
      · exact hq k hm
    · cases h

theorem single_run {b : Backend} (as : List Act) {s s' : St} {p : Pc} (hI : Good b s)
    (hp : s.threads = [p]) (hk : Knows s p) (hx : s.hostExit = false) (hq : ∀ k ∈ s.killed, k = 0)
    (h : run b s as = some s') :
    Good b s' ∧ ∃ p', s'.threads = [p'] ∧ Knows s' p' ∧ s'.hostExit = false ∧ ∀ k ∈ s'.killed, k = 0 := by
  induction as generalizing s p with
  | nil => simp [run] at h; subst h; exact ⟨hI, p, hp, hk, hx, hq⟩
  | cons a as ih =>
    simp only [run] at h
    rcases h1 : step b s a with _ | s1
    · simp [h1] at h
    · simp only [h1] at h
      obtain ⟨p', h2, h3, h4, h5⟩ := single_step hI hp hk hx hq h1
      exact ih (good_step hI h1) h2 h3 h4 h5 h

/-- **C70** (one thread), in part.  If one thread of the host uses the handle, of either kind, then for
every life of the child and of other processes the host is never ended by a query and every `SIGKILL` goes
to the child.

Missing, because false for a process number: the same for several threads
(`two_threads_end_the_host`, `two_threads_kill_a_stranger`). -/
theorem one_thread_is_safe_partial (b : Backend) (as : List Act) (s : St)
    (h : run b (init 1) as = some s) : s.hostExit = false ∧ ∀ k ∈ s.killed, k = 0 := by
  obtain ⟨-, p, -, -, h1, h2⟩ := single_run as (good_init b 1) rfl (p := .idle) rfl rfl (by simp [init]) h
  exact ⟨h1, h2⟩

/-- **C70** (one thread learns), in part.  If one thread of the host uses the handle, a query begun after
the child has ended, blocking or not, returns within four steps of that thread and reports the end with its
exit code, however often it was asked before.

Missing, because false for a process descriptor: the same for several threads
(`other_thread_takes_the_event`). -/
theorem one_thread_learns_partial (b : Backend) (as : List Act) (s : St) (f : Fate) (k : Kind)
    (h : run b (init 1) as = some s) (hf : s.fate = some f) (hk : k ≠ .term)
    (hi : s.threads = [.idle] ∨ ∃ e, s.threads = [.done e]) :
    ∃ m s', m ≤ 4 ∧ run b s (.start 0 k :: List.replicate m (.go 0)) = some s' ∧
      s'.threads = [.done (some ⟨true, wexitstatus (encode f)⟩)] ∧
      s'.status = ⟨true, wexitstatus (encode f)⟩ := by
  obtain ⟨hI, p, hp, hkn, hx, -⟩ :=
    single_run as (good_init b 1) rfl (p := .idle) rfl rfl (by simp [init]) h
  have hkn' : s.told = s.status.hasExited := by
    rcases hi with hi | ⟨e, hi⟩ <;> (rw [hi] at hp; simp at hp; subst hp; exact hkn)
  have h0 : step b s (.start 0 k) = some (s.at 0 (.check k)) := by
    rcases hi with hi | ⟨e, hi⟩ <;> simp [step, hi]
  have hl : 0 < s.threads.length := by rcases hi with hi | ⟨e, hi⟩ <;> simp [hi]
  have hset : ∀ q, s.threads.set 0 q = [q] := by
    intro q; rcases hi with hi | ⟨e, hi⟩ <;> simp [hi]
  cases hs : s.status.hasExited with
  | true =>
    obtain ⟨-, f', h1, h2⟩ := hI.status hs
    rw [hf] at h1; cases h1
    have hst : s.status = ⟨true, wexitstatus (encode f)⟩ := by
      cases hst : s.status; rw [hst] at hs h2; simp_all
    refine ⟨2, s.at 0 (.done (some s.status)), by omega, ?_, ?_, hst⟩
    · simp only [run, List.replicate, h0]
      cases k <;> simp_all [step, St.at]
    · simp [St.at, hset, hst]
  | false =>
    have ht : s.told = false := hkn'.trans hs
    let t : St :=
      { s with
        told := true
        owner := if b = Backend.number then none else s.owner
        status := ⟨true, wexitstatus (encode f)⟩ }
    refine ⟨4, t.at 0 (.done (some ⟨true, wexitstatus (encode f)⟩)), by omega, ?_, ?_, rfl⟩
    · simp only [run, List.replicate, h0]
      cases k <;> simp_all [step, St.at, asked, t]
    · simp [St.at, hset, t]

/-- **C70** (violation, process number).  Two threads ask while the child's end is not yet known: both pass the
check of `status`, one learns of the end, and the call of the other fails, which ends the host.  One of the
two may be the thread of the memory service, which asks when the child sends something it cannot read. -/
theorem two_threads_end_the_host :
    ∃ s, run .number (init 2)
      [.start 0 .poll, .go 0, .start 1 .term, .go 1, .exit (.exit 0), .go 0, .go 1] = some s ∧
      s.hostExit = true := ⟨_, rfl, rfl⟩

/-- **C70** (violation, process number).  A thread decides to kill the child, which is still running; before
it does so the child ends, another thread learns of it, and the number goes to another process; the signal
goes to that process. -/
theorem two_threads_kill_a_stranger :
    ∃ s, run .number (init 2)
      [.start 0 .term, .go 0, .go 0, .go 0, .exit (.exit 0), .start 1 .poll, .go 1, .go 1, .reuse 7,
        .go 0] = some s ∧ s.killed = [8] := ⟨_, rfl, rfl⟩

/-- A thread that waits for an event that was given to another thread waits for ever. -/
theorem stuck_step {b : Backend} {s s' : St} {a : Act} {i : Nat} (hi : s.threads[i]? = some (.ask .wait))
    (ht : s.told = true) (hf : s.fate ≠ none) (h : step b s a = some s') :
    s'.threads[i]? = some (.ask .wait) ∧ s'.told = true ∧ s'.fate ≠ none := by
  have keep : ∀ (t : St) j q, j ≠ i → t.threads[i]? = some (.ask .wait) →
      (t.at j q).threads[i]? = some (.ask .wait) := by
    intro t j q hne h; rw [at_get, if_neg hne]; exact h
  have other : ∀ j p, s.threads[j]? = some p → p ≠ .ask .wait → j ≠ i := by
    rintro j p h1 h2 rfl; rw [hi] at h1; cases h1; exact h2 rfl
  cases a with
  | start j k =>
    simp only [step] at h
    split at h <;> simp at h <;> subst h <;> rename_i hj <;>
    exact ⟨keep _ _ _ (other j _ hj (by simp)) hi, ht, hf⟩
  | interrupt j =>
    simp only [step] at h
    split at h <;> simp at h
    subst h; exact ⟨hi, ht, hf⟩
  | exit f =>
    simp only [step] at h
    split at h <;> simp at h
    subst h
    exact ⟨hi, ht, by simp⟩
  | reuse k =>
    simp only [step] at h
    split at h <;> simp at h
    subst h
    exact ⟨hi, ht, hf⟩
  | go j =>
    simp only [step] at h
    split at h
    · cases h
    split at h
    · rename_i k hj
      simp at h; subst h
      exact ⟨keep _ _ _ (other j _ hj (by simp)) hi, ht, hf⟩
    · rename_i k hj
      unfold asked at h
      split at h
      · rename_i h0
        exact absurd h0 hf
      · rename_i h0
        rw [ht] at h0; cases h0
      · split at h
        · simp at h; subst h
          exact ⟨hi, ht, hf⟩
        · split at h
          · cases h
          · rename_i hk
            simp at h; subst h
            exact ⟨keep _ _ _ (other j _ hj (by simpa using hk)) hi, ht, hf⟩
    · rename_i k c hj
      simp at h; subst h
      exact ⟨keep { s with status := ⟨true, c⟩ } _ _ (other j _ hj (by simp)) hi, ht, hf⟩
    · rename_i hj
      simp at h; subst h
      exact ⟨keep _ _ _ (other j _ hj (by simp)) hi, ht, hf⟩
    · rename_i k _ hj
      simp at h; subst h
      exact ⟨keep _ _ _ (other j _ hj (by simp)) hi, ht, hf⟩
    · rename_i hj
      simp at h; subst h
      exact ⟨keep { s with killed := _ } _ _ (other j _ hj (by simp)) hi, ht, hf⟩
    · cases h

/-- **C70** (violation, process descriptor).  A thread waits for the child to end, as the destructor does;
another thread asks, the kernel reports the child's end to that one, and the first thread never returns,
whatever happens afterwards. -/
theorem other_thread_takes_the_event :
    ∃ s, run .descriptor (init 2)
      [.start 0 .wait, .go 0, .start 1 .term, .go 1, .exit (.exit 0), .go 1, .go 1] = some s ∧
      s.status = ⟨true, 0⟩ ∧
      ∀ (as : List Act) (s' : St), run .descriptor s as = some s' → s'.threads[0]? = some (.ask .wait) := by
  refine ⟨_, rfl, rfl, ?_⟩
  have key : ∀ (as : List Act) (s s' : St), s.threads[0]? = some (.ask .wait) → s.told = true →
      s.fate ≠ none → run .descriptor s as = some s' → s'.threads[0]? = some (.ask .wait) := by
    intro as
    induction as with
    | nil => intro s s' h1 _ _ h; simp [run] at h; subst h; exact h1
    | cons a as ih =>
      intro s s' h1 h2 h3 h
      simp only [run] at h
      rcases h4 : step .descriptor s a with _ | s1
      · simp [h4] at h
      · simp only [h4] at h
        obtain ⟨h5, h6, h7⟩ := stuck_step h1 h2 h3 h4
        exact ih s1 s' h5 h6 h7 h
  intro as s' h
  exact key as _ s' rfl rfl (by simp [St.at, init]) h

/-! ## Concrete runs -/

/-- The hypotheses of `descriptor_is_safe` and `exit_answer_is_right`: two threads, an interrupted call, a
kill after the child has ended and the answer of the thread that learnt of it. -/
example : ∃ s, run .descriptor (init 2)
    [.start 0 .term, .go 0, .go 0, .go 0, .exit (.exit 3), .start 1 .poll, .go 1, .interrupt 1, .go 1, .go 1,
      .go 1, .go 0] = some s ∧ s.killed = [0] ∧
    s.threads = [.done none, .done (some ⟨true, 3⟩)] := ⟨_, rfl, rfl, rfl⟩

/-- The hypotheses of `one_thread_is_safe_partial` and `one_thread_learns_partial`: the child was asked about
while it ran, and has ended since. -/
example : ∃ s, run .number (init 1) [.start 0 .poll, .go 0, .go 0, .go 0, .exit (.exit 3)] = some s ∧
    s.fate = some (.exit 3) ∧ s.threads = [.done (some ⟨false, 0⟩)] := ⟨_, rfl, rfl, rfl⟩

end Verif.Reap
