import Verif.Reap.Props

/-!
# One child handle, several threads of the host that take turns (property C70)

`Props.lean` proves the property for one thread and shows how two threads break it.  Here it is proved for any number of threads
of which none begins to use the handle while another is using it, as under a lock, which the code does not have.
-/

namespace Verif.Reap
open Child (ExitStatus wexitstatus)
open Child.Spec (Fate encode)

/-- The thread is not using the handle (`include/process_sandbox/platform/child_process_vfork.h:52-128`). -/
def Rests : Pc → Prop
  | .idle | .done _ => True
  | _ => False

/-- No thread begins to use the handle while another is using it (the uses: `src/libsandbox.cc:148`, `:254`, `:973`, `:993-1018`). -/
def TakeTurns (b : Backend) (s : St) : List Act → Prop
  | [] => True
  | a :: as => (∀ i k, a = .start i k → ∀ (j : Nat) p, s.threads[j]? = some p → Rests p) ∧
    ∀ s', step b s a = some s' → TakeTurns b s' as

/-- What holds between steps: at most one thread uses the handle, and it knows what the only thread would know
(`include/process_sandbox/platform/child_process_vfork.h:52-75`). -/
structure Turn (s : St) : Prop where
  one : ∀ (i j : Nat) p q, s.threads[i]? = some p → s.threads[j]? = some q → ¬ Rests p → ¬ Rests q → i = j
  active : ∀ (i : Nat) p, s.threads[i]? = some p → ¬ Rests p → Knows s p
  quiet : (∀ (i : Nat) p, s.threads[i]? = some p → Rests p) → s.told = s.status.hasExited
  host : s.hostExit = false
  aim : ∀ k ∈ s.killed, k = 0

theorem turn_init (n : Nat) : Turn (init n) := by
  have hr : ∀ (i : Nat) p, (init n).threads[i]? = some p → Rests p := by
    intro i p h
    simp only [init, List.getElem?_replicate] at h
    split at h
    · cases h; trivial
    · cases h
  exact ⟨fun i _ p _ h _ hp _ => absurd (hr i p h) hp, fun i p h hp => absurd (hr i p h) hp, fun _ => rfl, rfl, by simp [init]⟩

/-- The thread that uses the handle, or is the only one to begin, goes to `q`. -/
theorem turn_at {s t : St} {i : Nat} {q : Pc} (ht : t.threads = s.threads)
    (ho : ∀ (j : Nat) p, s.threads[j]? = some p → j ≠ i → Rests p) (hl : i < s.threads.length)
    (hk : Knows (t.at i q) q) (hx : t.hostExit = false) (hq : ∀ k ∈ t.killed, k = 0) : Turn (t.at i q) := by
  have hget : ∀ (j : Nat) p, (t.at i q).threads[j]? = some p → (j = i ∧ p = q) ∨ (j ≠ i ∧ Rests p) := by
    intro j p h
    rw [at_get, ht] at h
    rw [if_pos hl] at h
    split at h
    · rename_i e
      cases h
      exact .inl ⟨e.symm, rfl⟩
    · rename_i e
      exact .inr ⟨fun h => e h.symm, ho j p h (fun h => e h.symm)⟩
  refine ⟨?_, ?_, ?_, hx, hq⟩
  · intro j k p r h1 h2 n1 n2
    rcases hget j p h1 with h | h
    · rcases hget k r h2 with h' | h'
      · rw [h.1, h'.1]
      · exact absurd h'.2 n2
    · exact absurd h.2 n1
  · intro j p h1 n1
    rcases hget j p h1 with h | h
    · rw [h.2]; exact hk
    · exact absurd h.2 n1
  · intro hr
    have := hr i q (by rw [at_get, ht, if_pos rfl, if_pos hl])
    revert hk
    cases q <;> first | exact this.elim | exact id

theorem turn_step {b : Backend} {s s' : St} {a : Act} (hI : Good b s) (hT : Turn s)
    (hs : ∀ i k, a = .start i k → ∀ (j : Nat) p, s.threads[j]? = some p → Rests p) (h : step b s a = some s') : Turn s' := by
  have lt : ∀ {i : Nat} {p : Pc}, s.threads[i]? = some p → i < s.threads.length := by
    intro i p h
    exact (List.getElem?_eq_some_iff.1 h).1
  have others : ∀ {i : Nat} {p : Pc}, s.threads[i]? = some p → ¬ Rests p →
      ∀ (j : Nat) q, s.threads[j]? = some q → j ≠ i → Rests q := by
    intro i p hi hn j q hj hne
    apply Classical.byContradiction
    intro hq
    exact hne (hT.one j i q p hj hi hq hn)
  cases a with
  | start i k =>
    have hall := hs i k rfl
    simp only [step] at h
    split at h <;> simp at h <;> subst h <;> rename_i hi <;>
      exact turn_at rfl (fun j p hj _ => hall j p hj) (lt hi) (hT.quiet hall) hT.host hT.aim
  | interrupt i =>
    simp only [step] at h
    split at h <;> simp at h
    subst h; exact hT
  | exit f =>
    simp only [step] at h
    split at h <;> simp at h
    subst h
    exact ⟨hT.one, fun i p hp hn => by have := hT.active i p hp hn; cases p <;> exact this, hT.quiet, hT.host, hT.aim⟩
  | reuse k =>
    simp only [step] at h
    split at h <;> simp at h
    subst h
    exact ⟨hT.one, fun i p hp hn => by have := hT.active i p hp hn; cases p <;> exact this, hT.quiet, hT.host, hT.aim⟩
  | go i =>
    simp only [step] at h
    split at h
    · cases h
    split at h
    · rename_i k hi
      have hk : s.told = s.status.hasExited := hT.active i _ hi id
      simp at h; subst h
      refine turn_at rfl (others hi id) (lt hi) ?_ hT.host hT.aim
      cases h0 : s.status.hasExited with
      | true => exact hk
      | false => exact ⟨hk.trans h0, h0⟩
    · rename_i k hi
      have hk : s.told = false ∧ s.status.hasExited = false := hT.active i _ hi id
      unfold asked at h
      split at h
      · split at h <;> simp at h
        subst h
        exact turn_at rfl (others hi id) (lt hi) (hk.1.trans hk.2.symm) hT.host hT.aim
      · simp at h; subst h
        exact turn_at rfl (others hi id) (lt hi) rfl hT.host hT.aim
      · rename_i ht
        rw [hk.1] at ht; cases ht
    · rename_i k c hi
      have hk : s.told = true := hT.active i _ hi id
      simp at h; subst h
      exact turn_at rfl (others hi id) (lt hi) hk hT.host hT.aim
    · rename_i hi
      have hk : s.told = s.status.hasExited := hT.active i _ hi id
      simp at h; subst h
      refine turn_at rfl (others hi id) (lt hi) ?_ hT.host hT.aim
      cases h0 : s.status.hasExited with
      | true => exact hk
      | false => exact ⟨hk.trans h0, h0⟩
    · rename_i k _ hi
      have hk : s.told = s.status.hasExited := hT.active i _ hi id
      simp at h; subst h
      exact turn_at rfl (others hi id) (lt hi) hk hT.host hT.aim
    · rename_i hi
      have hk : s.told = false ∧ s.status.hasExited = false := hT.active i _ hi id
      simp at h; subst h
      refine turn_at rfl (others hi id) (lt hi) (hk.1.trans hk.2.symm) hT.host ?_
      have ho := hI.mine hk.1
      intro k hm
      simp only [List.mem_append] at hm
      rcases hm with hm | hm
      · cases b <;> simp_all [target]
      · exact hT.aim k hm
    · cases h

theorem turn_run {b : Backend} (as : List Act) {s s' : St} (hI : Good b s) (hT : Turn s) (ht : TakeTurns b s as)
    (h : run b s as = some s') : Good b s' ∧ Turn s' := by
  induction as generalizing s with
  | nil => simp [run] at h; subst h; exact ⟨hI, hT⟩
  | cons a as ih =>
    simp only [run] at h
    rcases h1 : step b s a with _ | s1
    · simp [h1] at h
    · simp only [h1] at h
      exact ih (good_step hI h1) (turn_step hI hT ht.1 h1) (ht.2 s1 h1) h

/-- **C70** (threads that take turns), in part.  If any number of threads use the handle, of either kind, and none begins while
another is using it, then for every life of the child and of other processes the host is never ended by a query and every
`SIGKILL` goes to the child.

Missing, because false for a process number: the same without the turns (`two_threads_end_the_host`,
`two_threads_kill_a_stranger`).  The code has no lock that would make the threads take turns. -/
theorem turns_are_safe_partial (b : Backend) (n : Nat) (as : List Act) (s : St) (ht : TakeTurns b (init n) as)
    (h : run b (init n) as = some s) : s.hostExit = false ∧ ∀ k ∈ s.killed, k = 0 :=
  have hT := (turn_run as (good_init b n) (turn_init n) ht h).2
  ⟨hT.host, hT.aim⟩

/-- **C70** (threads that take turns learn), in part.  If the threads take turns, a query of any of them, begun after the child has
ended, blocking or not, returns within four steps and reports the end with its exit code, whichever thread asked before.

Missing, because false for a process descriptor: the same without the turns (`other_thread_takes_the_event`). -/
theorem turns_learn_partial (b : Backend) (n : Nat) (as : List Act) (s : St) (f : Fate) (k : Kind) (i : Nat)
    (ht : TakeTurns b (init n) as) (h : run b (init n) as = some s) (hf : s.fate = some f) (hk : k ≠ .term)
    (hl : i < s.threads.length) (hr : ∀ (j : Nat) p, s.threads[j]? = some p → Rests p) :
    ∃ m s', m ≤ 4 ∧ run b s (.start i k :: List.replicate m (.go i)) = some s' ∧
      s'.threads = s.threads.set i (.done (some ⟨true, wexitstatus (encode f)⟩)) ∧
      s'.status = ⟨true, wexitstatus (encode f)⟩ := by
  obtain ⟨hI, hT⟩ := turn_run as (good_init b n) (turn_init n) ht h
  have hkn := hT.quiet hr
  have hx := hT.host
  have h0 : step b s (.start i k) = some (s.at i (.check k)) := by
    have hi : s.threads[i]? = some s.threads[i] := List.getElem?_eq_getElem hl
    have := hr i _ hi
    revert this hi
    generalize s.threads[i] = p
    intro hi hp
    simp only [step, hi]
    cases p <;> first | exact hp.elim | rfl
  have hg : ∀ (l : List Pc) q, l.length = s.threads.length → (l.set i q)[i]? = some q := by
    intro l q hlen
    simp [hlen, hl]
  cases hs : s.status.hasExited with
  | true =>
    obtain ⟨-, f', h1, h2⟩ := hI.status hs
    rw [hf] at h1; cases h1
    have hst : s.status = ⟨true, wexitstatus (encode f)⟩ := by
      cases hst : s.status; rw [hst] at hs h2; simp_all
    refine ⟨2, s.at i (.done (some s.status)), by omega, ?_, by rw [hst]; rfl, hst⟩
    simp only [run, List.replicate, h0]
    cases k <;> simp_all [step, St.at, List.set_set]
  | false =>
    have ht : s.told = false := hkn.trans hs
    let t : St :=
      { s with
        told := true
        owner := if b = Backend.number then none else s.owner
        status := ⟨true, wexitstatus (encode f)⟩ }
    refine ⟨4, t.at i (.done (some ⟨true, wexitstatus (encode f)⟩)), by omega, ?_, rfl, rfl⟩
    simp only [run, List.replicate, h0]
    cases k <;> simp_all [step, St.at, asked, t, List.set_set]

/-- Two threads take turns: one asks while the child runs, the other terminates it, the first learns of the end. -/
example : ∃ s, run .number (init 2) [.start 0 .poll, .go 0, .go 0, .go 0, .start 1 .term, .go 1, .go 1, .go 1, .go 1,
      .exit (.signal 9 false)] = some s ∧ TakeTurns .number (init 2) [.start 0 .poll, .go 0, .go 0, .go 0, .start 1 .term, .go 1, .go 1,
      .go 1, .go 1, .exit (.signal 9 false)] ∧ s.killed = [0] ∧ s.threads = [.done (some ⟨false, 0⟩), .done none] := by
  refine ⟨_, rfl, ?_, rfl, rfl⟩
  repeat' first
    | exact trivial
    | (refine ⟨by
        intro i k e j p hj
        first
          | (cases e; done)
          | (match j with
             | 0 => cases hj; trivial
             | 1 => cases hj; trivial
             | j + 2 => cases hj), fun s' e => ?_⟩
       cases e)

end Verif.Reap
