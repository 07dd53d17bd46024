import Verif.Child.Spec

/-!
# The child process handle (properties C34 and C46)
-/

namespace Verif.Child
open Spec

theorem waitpid_exited {p : Proc} (h : p.status.hasExited = true) (as : List Ans) :
    waitpid p as = (.status p.status, p, as) := by
  simp [waitpid, h]

theorem waitpid_cached {p p' : Proc} {as as' : List Ans} {c : Nat}
    (h : waitpid p as = (.status ⟨true, c⟩, p', as')) : p'.status = ⟨true, c⟩ := by
  unfold waitpid at h
  split at h
  · simp at h; rw [← h.2.1, h.1]
  · rename_i hx
    split at h
    · simp at h
    · split at h
      · simp at h
        obtain ⟨h1, h2, -⟩ := h
        subst h2 h1
        rfl
      · simp at h
        rw [h.1] at hx
        simp at hx
    · simp at h

/-- **C34** (stable).  Once a query has said that the child has exited, all later queries, however many,
give the same answer, and none of them asks the system: the list of answers stays as it is, whatever it
contains (for instance answers about another process with the same number). -/
theorem exit_status_stable (p p' : Proc) (as as' : List Ans) (c : Nat)
    (h : waitpid p as = (.status ⟨true, c⟩, p', as')) (later : List Ans) (n : Nat) :
    queries p' later n = (List.replicate n (.status ⟨true, c⟩), p', later) := by
  have hs := waitpid_cached h
  induction n with
  | zero => rfl
  | succ n ih =>
    simp [queries, waitpid_exited (p := p') (by rw [hs]), ih, hs, List.replicate_succ]

/-- Interrupted calls are repeated and have no other effect. -/
theorem ask_eintr (k : Nat) (a : Ans) (as : List Ans) (ha : a ≠ .eintr) :
    ask (List.replicate k .eintr ++ a :: as) = some (a, as) := by
  induction k with
  | zero => cases a <;> simp_all [ask]
  | succ k ih => simpa [List.replicate_succ, ask] using ih

/-- **C34** (faithful), in part.  When the child leaves by `exit(code)`, the query that learns of it
reports `code`, after any number of interrupted calls.

Missing, because false: that the code tells an abnormal termination from success
(`killed_looks_like_success`). -/
theorem exit_code_faithful_partial (p : Proc) (k : Nat) (code : Fin 256) (rest : List Ans)
    (hp : p.status.hasExited = false) :
    waitpid p (List.replicate k .eintr ++ .ok p.pid (encode (.exit code)) :: rest) =
      (.status ⟨true, code.val⟩, ⟨p.pid, ⟨true, code.val⟩⟩, rest) := by
  have : wexitstatus (encode (.exit code)) = code.val := by
    simp [wexitstatus, encode]
  simp [waitpid, hp, ask_eintr k _ _ (by simp : Ans.ok p.pid (encode (.exit code)) ≠ .eintr), this]

/-- **C34** (not exited).  A query that finds the child running (answer 0 of `WNOHANG`) reports that and
changes nothing. -/
theorem running_reported (p : Proc) (s : Nat) (rest : List Ans) (hp : p.status.hasExited = false)
    (hpid : p.pid ≠ 0) : waitpid p (.ok 0 s :: rest) = (.status p.status, p, rest) := by
  simp [waitpid, hp, ask, Ne.symm hpid]

/-- **C34** (a whole life), in part.  A child that was created, is found running by some polls, each of them interrupted any
number of times, and then leaves by `exit(code)`: the polls report that it runs, the next query reports `code`, and so do
all later ones, which do not ask the system. -/
theorem life_reported_partial (pid : Int) (hp : 0 < pid) (polls : List (Nat × Nat)) (j : Nat) (code : Fin 256)
    (later : List Ans) (m : Nat) :
    queries (start pid) (polls.flatMap (fun q => List.replicate q.1 .eintr ++ [.ok 0 q.2]) ++
        (List.replicate j .eintr ++ .ok pid (encode (.exit code)) :: later)) (polls.length + (m + 1)) =
      (List.replicate polls.length (.status ⟨false, 0⟩) ++ List.replicate (m + 1) (.status ⟨true, code.val⟩),
        ⟨pid, ⟨true, code.val⟩⟩, later) := by
  induction polls with
  | nil =>
    have h := exit_code_faithful_partial (start pid) j code later rfl
    have h2 := exit_status_stable _ _ _ _ _ h later m
    simp only [start] at h h2
    simp [queries, start, h, h2, List.replicate_succ]
  | cons q polls ih =>
    have hn : (q :: polls).length + (m + 1) = (polls.length + (m + 1)) + 1 := by simp; omega
    have hne : ¬ (0 : Int) = pid := by omega
    rw [hn, queries]
    simp only [List.flatMap_cons, List.append_assoc, waitpid, start, Bool.false_eq_true, if_false, List.cons_append, List.nil_append,
      ask_eintr q.1 (.ok 0 q.2) _ (by simp), hne]
    simp only [start] at ih
    rw [ih]
    simp [List.replicate_succ]

/-- Two polls, the first one interrupted twice, exit with code 3, two more queries. -/
example : queries (start 42) [.eintr, .eintr, .ok 0 7, .ok 0 9, .eintr, .ok 42 768, .ok 42 1] 5 =
    ([.status ⟨false, 0⟩, .status ⟨false, 0⟩, .status ⟨true, 3⟩, .status ⟨true, 3⟩, .status ⟨true, 3⟩],
      ⟨42, ⟨true, 3⟩⟩, [.ok 42 1]) :=
  life_reported_partial 42 (by decide) [(2, 7), (0, 9)] 1 3 [.ok 42 1] 2

/-- **C34** (violation).  A child killed by any signal, with or without core dump, is reported with exit
code 0, exactly as one that left by `exit(0)`. -/
theorem killed_looks_like_success (p : Proc) (sig : Nat) (core : Bool) (rest : List Ans)
    (hp : p.status.hasExited = false) (hs : (Fate.signal sig core).valid) :
    waitpid p (.ok p.pid (encode (.signal sig core)) :: rest) =
        waitpid p (.ok p.pid (encode (.exit 0)) :: rest) ∧
      (waitpid p (.ok p.pid (encode (.signal sig core)) :: rest)).1 = .status ⟨true, 0⟩ ∧
      exited (encode (.signal sig core)) = false := by
  obtain ⟨h1, h2⟩ := hs
  have h3 : wexitstatus (encode (.signal sig core)) = 0 := by
    simp only [wexitstatus, encode]
    split <;> omega
  have h4 : wexitstatus (encode (.exit 0)) = 0 := rfl
  refine ⟨by simp [waitpid, hp, ask, h3, h4], by simp [waitpid, hp, ask, h3], ?_⟩
  simp only [exited, encode]
  split <;> simp <;> omega

/-- **C46** (violation).  If the child process cannot be created (`vfork` gives −1), construction of the
handle succeeds; no query ever says that the child has exited, as long as the system answers with process
ids (which are positive) or with 0; instead each query takes the exit of some other child of the host.
And `terminate` sends `SIGKILL` to process −1, that is to every process the host may signal. -/
theorem failed_start_unnoticed (as : List Ans)
    (ha : ∀ a ∈ as, ∃ r s, a = .ok r s ∧ 0 ≤ r) :
    queries (start (-1)) as as.length =
      (List.replicate as.length (.status ⟨false, 0⟩), start (-1), []) ∧
      terminate (queries (start (-1)) as as.length).2.1 = -1 := by
  suffices key : queries (start (-1)) as as.length =
      (List.replicate as.length (.status ⟨false, 0⟩), start (-1), []) from
     ⟨key, by rw [key]; rfl⟩
  induction as with
  | nil => rfl
  | cons a as ih =>
    obtain ⟨r, s, rfl, hr⟩ := ha a (by simp)
    have h1 := ih (fun b hb => ha b (by simp [hb]))
    have hne : ¬ r = -1 := by omega
    simp [queries, waitpid, start, ask, hne, List.replicate_succ] at h1 ⊢
    simp [h1]

/-- **C46** (what holds).  For a child that was created, `terminate` signals that child and nothing
else, and a query only accepts an answer about that child. -/
theorem started_is_addressed_partial (pid : Int) (hp : 0 < pid) (r : Int) (s : Nat) (rest : List Ans)
    (h : (waitpid (start pid) (.ok r s :: rest)).1 = .status ⟨true, wexitstatus s⟩) :
    terminate (start pid) = pid ∧ 0 < terminate (start pid) ∧ r = pid := by
  refine ⟨rfl, hp, ?_⟩
  simp only [waitpid, start, ask] at h
  grind

/-- The hypotheses of `exit_status_stable` and `exit_code_faithful_partial`: exit code 3 after an
interrupted call; later answers about a recycled process id are not looked at. -/
example : waitpid (start 42) [.eintr, .ok 42 768] = (.status ⟨true, 3⟩, ⟨42, ⟨true, 3⟩⟩, []) ∧
    encode (.exit 3) = 768 ∧
    queries ⟨42, ⟨true, 3⟩⟩ [.ok 42 256, .failed] 2 =
      ([.status ⟨true, 3⟩, .status ⟨true, 3⟩], ⟨42, ⟨true, 3⟩⟩, [.ok 42 256, .failed]) := by decide +kernel

/-- The hypotheses of `killed_looks_like_success`: a segmentation fault with core dump. -/
example : (start 42).status.hasExited = false ∧ (Fate.signal 11 true).valid := by
  simp [start, Fate.valid]

/-- The hypotheses of `running_reported`, `failed_start_unnoticed` and `started_is_addressed_partial`. -/
example : (start 42).pid ≠ 0 ∧ (∀ a ∈ [Ans.ok 7 0, .ok 0 0], ∃ r s, a = .ok r s ∧ 0 ≤ r) ∧
    (waitpid (start 42) [.ok 42 768]).1 = .status ⟨true, wexitstatus 768⟩ := by
  refine ⟨by decide, by simp, by decide⟩

/-- **C34** (every query).  Whatever the system answers: a query of a child that is not known to have exited blocks exactly if
every answer is an interruption; it ends the host exactly if the first other answer is an error, such as that there is
no such child; it learns of an exit exactly if that answer names the child; and otherwise it reports that the child runs. -/
theorem query_outcome (p : Proc) (hp : p.status.hasExited = false) (as : List Ans) :
    ((waitpid p as).1 = .blocked ↔ ∀ a ∈ as, a = .eintr) ∧
    ((waitpid p as).1 = .hostExit ↔ ∃ k rest, as = List.replicate k .eintr ++ .failed :: rest) ∧
    (∀ c, (waitpid p as).1 = .status ⟨true, c⟩ ↔
      ∃ k s rest, as = List.replicate k .eintr ++ .ok p.pid s :: rest ∧ c = s / 256 % 256) ∧
    (∀ c, (waitpid p as).1 = .status ⟨false, c⟩ ↔
      c = p.status.code ∧ ∃ k pid s rest, as = List.replicate k .eintr ++ .ok pid s :: rest ∧ pid ≠ p.pid) := by
  have split : (∀ a ∈ as, a = .eintr) ∨
      ∃ k a rest, as = List.replicate k Ans.eintr ++ a :: rest ∧ a ≠ .eintr := by
    induction as with
    | nil => exact .inl (fun _ h => nomatch h)
    | cons a as ih =>
      by_cases ha : a = .eintr
      · rcases ih with h | ⟨k, b, rest, rfl, hb⟩
        · left; intro x hx
          rcases List.mem_cons.1 hx with rfl | hx
          · exact ha
          · exact h x hx
        · exact .inr ⟨k + 1, b, rest, by rw [ha]; rfl, hb⟩
      · exact .inr ⟨0, a, as, rfl, ha⟩
  have first : ∀ k j (a b : Ans) (r r' : List Ans), a ≠ .eintr → b ≠ .eintr →
      List.replicate k Ans.eintr ++ a :: r = List.replicate j Ans.eintr ++ b :: r' → a = b := by
    intro k
    induction k with
    | zero =>
      intro j a b r r' ha hb h
      cases j with
      | zero => exact (List.cons.inj h).1
      | succ j => exact absurd (List.cons.inj h).1 ha
    | succ k ih =>
      intro j a b r r' ha hb h
      cases j with
      | zero => exact absurd (List.cons.inj h).1.symm hb
      | succ j => exact ih j a b r r' ha hb (List.cons.inj h).2
  rcases split with h | ⟨k, a, rest, rfl, ha⟩
  · have hask : ask as = none := by
      induction as with
      | nil => rfl
      | cons a as ih =>
        rw [h a List.mem_cons_self, ask]
        exact ih (fun x hx => h x (List.mem_cons_of_mem _ hx))
    have hw : (waitpid p as).1 = .blocked := by rw [waitpid, hp, hask]; rfl
    have no : ∀ k b rest, as = List.replicate k Ans.eintr ++ b :: rest → b ≠ .eintr → False := by
      intro k b rest e hb
      exact hb (h b (by rw [e]; simp))
    rw [hw]
    refine ⟨⟨fun _ => h, fun _ => rfl⟩, ⟨(nomatch ·), ?_⟩, fun c => ⟨(nomatch ·), ?_⟩, fun c => ⟨(nomatch ·), ?_⟩⟩
    · rintro ⟨k, rest, e⟩; exact (no k _ rest e (by simp)).elim
    · rintro ⟨k, s, rest, e, -⟩; exact (no k _ rest e (by simp)).elim
    · rintro ⟨-, k, q, s, rest, e, -⟩; exact (no k _ rest e (by simp)).elim
  · have hask := ask_eintr k a rest ha
    have hne : ¬ ∀ x ∈ List.replicate k Ans.eintr ++ a :: rest, x = .eintr := fun h => ha (h a (by simp))
    have uniq : ∀ j b r', List.replicate k Ans.eintr ++ a :: rest = List.replicate j Ans.eintr ++ b :: r' → b ≠ .eintr →
        a = b := fun j b r' e hb => first k j a b rest r' ha hb e
    cases a with
    | eintr => exact absurd rfl ha
    | failed =>
      have hw : (waitpid p (List.replicate k Ans.eintr ++ .failed :: rest)).1 = .hostExit := by
        rw [waitpid, hp, hask]; rfl
      rw [hw]
      refine ⟨⟨(nomatch ·), fun h => absurd h hne⟩, ⟨fun _ => ⟨k, rest, rfl⟩, fun _ => rfl⟩, fun c => ⟨(nomatch ·), ?_⟩,
        fun c => ⟨(nomatch ·), ?_⟩⟩
      · rintro ⟨j, s, r', e, -⟩; exact nomatch uniq j _ r' e (by simp)
      · rintro ⟨-, j, q, s, r', e, -⟩; exact nomatch uniq j _ r' e (by simp)
    | ok q s =>
      by_cases hq : q = p.pid
      · have hw : (waitpid p (List.replicate k Ans.eintr ++ .ok q s :: rest)).1 = .status ⟨true, s / 256 % 256⟩ := by
          rw [waitpid, hp, hask]; simp only [Bool.false_eq_true, if_false, if_pos hq]; rfl
        rw [hw]
        refine ⟨⟨(nomatch ·), fun h => absurd h hne⟩, ⟨(nomatch ·), ?_⟩, fun c => ⟨?_, ?_⟩, fun c => ⟨fun h => ?_, ?_⟩⟩
        · rintro ⟨j, r', e⟩; exact nomatch uniq j _ r' e (by simp)
        · intro h; cases h; exact ⟨k, s, rest, by rw [hq], rfl⟩
        · rintro ⟨j, s', r', e, rfl⟩
          cases uniq j _ r' e (by simp); rfl
        · cases h
        · rintro ⟨-, j, q', s', r', e, hn⟩
          cases uniq j _ r' e (by simp)
          exact absurd hq hn
      · have hw : (waitpid p (List.replicate k Ans.eintr ++ .ok q s :: rest)).1 = .status p.status := by
          rw [waitpid, hp, hask]; simp only [Bool.false_eq_true, if_false, if_neg hq]
        rw [hw]
        obtain ⟨pid, he, code⟩ := p
        simp only at hp
        subst hp
        refine ⟨⟨(nomatch ·), fun h => absurd h hne⟩, ⟨(nomatch ·), ?_⟩, fun c => ⟨fun h => ?_, ?_⟩, fun c => ⟨?_, ?_⟩⟩
        · rintro ⟨j, r', e⟩; exact nomatch uniq j _ r' e (by simp)
        · cases h
        · rintro ⟨j, s', r', e, -⟩
          cases uniq j _ r' e (by simp)
          exact absurd rfl hq
        · intro h; cases h; exact ⟨rfl, k, q, s, rest, rfl, hq⟩
        · rintro ⟨rfl, -⟩; rfl

/-- A host that ignores `SIGCHLD` learns of no child, and the first query ends it. -/
example : (waitpid (start 42) [.eintr, .failed]).1 = .hostExit :=
  (query_outcome (start 42) rfl _).2.1.2 ⟨1, [], rfl⟩

end Verif.Child
