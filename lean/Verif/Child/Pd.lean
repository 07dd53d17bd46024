import Verif.Child.Spec

/-!
# The child process handle of FreeBSD (property C34)
-/

namespace Verif.Child
open Verif.Child.Spec

theorem pdAsk_none (as : List KAns) : pdAsk as = none ↔ ∀ a ∈ as, a = .eintr := by
  induction as with
  | nil => simp [pdAsk]
  | cons a as ih => cases a <;> simp [pdAsk, ih]

theorem pdAsk_some (as : List KAns) (a : KAns) (rest : List KAns) :
    pdAsk as = some (a, rest) ↔ a ≠ .eintr ∧ ∃ k, as = List.replicate k .eintr ++ a :: rest := by
  induction as with
  | nil => simp [pdAsk]
  | cons b as ih =>
    by_cases hb : b = .eintr
    · subst hb
      rw [pdAsk, ih]
      constructor
      · rintro ⟨h, k, rfl⟩
        exact ⟨h, k + 1, rfl⟩
      · rintro ⟨h, k, e⟩
        refine ⟨h, ?_⟩
        cases k with
        | zero => exact absurd (List.cons.inj e).1.symm h
        | succ k => exact ⟨k, (List.cons.inj e).2⟩
    · have hp : pdAsk (b :: as) = some (b, as) := by cases b <;> simp_all [pdAsk]
      rw [hp]
      constructor
      · intro h; cases h; exact ⟨hb, 0, rfl⟩
      · rintro ⟨h, k, e⟩
        cases k with
        | zero => cases e; rfl
        | succ k => exact absurd (List.cons.inj e).1 hb

/-- **C34** on FreeBSD (every query).  Whatever the system answers: a query of a child that is not known to have exited blocks
exactly if every answer is an interruption; it ends the host exactly if the first other answer is an error; it learns of
an exit exactly if that answer is an event, and otherwise reports that the child runs. -/
theorem pd_query_outcome (e : ExitStatus) (he : e.hasExited = false) (as : List KAns) :
    ((pdWait e as).1 = .blocked ↔ ∀ a ∈ as, a = .eintr) ∧
    ((pdWait e as).1 = .hostExit ↔ ∃ k rest, as = List.replicate k .eintr ++ .failed :: rest) ∧
    (∀ c, (pdWait e as).1 = .status ⟨true, c⟩ ↔
      ∃ k d rest, as = List.replicate k .eintr ++ .events 1 d :: rest ∧ c = d / 256) ∧
    (∀ c, (pdWait e as).1 = .status ⟨false, c⟩ ↔
      c = e.code ∧ ∃ k n d rest, as = List.replicate k .eintr ++ .events n d :: rest ∧ n ≠ 1) := by
  have key : ∀ a rest, (∃ k, as = List.replicate k .eintr ++ a :: rest) → a ≠ .eintr → pdAsk as = some (a, rest) :=
    fun a rest h1 h2 => (pdAsk_some as a rest).2 ⟨h2, h1⟩
  have hw : pdWait e as = match pdAsk as with
      | none => (.blocked, e, [])
      | some (.events n d, rest) =>
        if n = 1 then (.status ⟨true, bsdExitstatus d⟩, ⟨true, bsdExitstatus d⟩, rest) else (.status e, e, rest)
      | some (_, rest) => (.hostExit, e, rest) := by
    unfold pdWait; rw [if_neg (by simp [he])]; rfl
  obtain ⟨x, code⟩ := e
  simp only at he
  subst he
  rw [← pdAsk_none, hw]
  rcases hp : pdAsk as with _ | ⟨a, rest⟩
  · refine ⟨by simp, ⟨(nomatch ·), ?_⟩, fun c => ⟨(nomatch ·), ?_⟩, fun c => ⟨(nomatch ·), ?_⟩⟩
    · rintro ⟨k, r, h⟩; rw [key _ _ ⟨k, h⟩ (by simp)] at hp; cases hp
    · rintro ⟨k, d, r, h, -⟩; rw [key _ _ ⟨k, h⟩ (by simp)] at hp; cases hp
    · rintro ⟨-, k, n, d, r, h, -⟩; rw [key _ _ ⟨k, h⟩ (by simp)] at hp; cases hp
  · obtain ⟨hne, k, hk⟩ := (pdAsk_some as a rest).1 hp
    cases a with
    | eintr => exact absurd rfl hne
    | failed =>
      refine ⟨by simp, ⟨fun _ => ⟨k, rest, hk⟩, fun _ => rfl⟩, fun c => ⟨(nomatch ·), ?_⟩, fun c => ⟨(nomatch ·), ?_⟩⟩
      · rintro ⟨k, d, r, h, -⟩; rw [key _ _ ⟨k, h⟩ (by simp)] at hp; cases hp
      · rintro ⟨-, k, n, d, r, h, -⟩; rw [key _ _ ⟨k, h⟩ (by simp)] at hp; cases hp
    | events n d =>
      by_cases hn : n = 1
      · subst hn
        simp only [if_true]
        refine ⟨by simp, ⟨(nomatch ·), ?_⟩, fun c => ⟨?_, ?_⟩, fun c => ⟨?_, ?_⟩⟩
        · rintro ⟨k, r, h⟩; rw [key _ _ ⟨k, h⟩ (by simp)] at hp; cases hp
        · intro h; cases h; exact ⟨k, d, rest, hk, rfl⟩
        · rintro ⟨k, d', r, h, rfl⟩; rw [key _ _ ⟨k, h⟩ (by simp)] at hp; cases hp; rfl
        · intro h; cases h
        · rintro ⟨-, k, n, d, r, h, hn⟩; rw [key _ _ ⟨k, h⟩ (by simp)] at hp; cases hp; exact absurd rfl hn
      · simp only [if_neg hn]
        refine ⟨by simp, ⟨(nomatch ·), ?_⟩, fun c => ⟨?_, ?_⟩, fun c => ⟨?_, ?_⟩⟩
        · rintro ⟨k, r, h⟩; rw [key _ _ ⟨k, h⟩ (by simp)] at hp; cases hp
        · intro h; cases h
        · rintro ⟨k, d', r, h, rfl⟩; rw [key _ _ ⟨k, h⟩ (by simp)] at hp; cases hp; exact absurd rfl hn
        · intro h; cases h; exact ⟨rfl, k, n, d, rest, hk, hn⟩
        · rintro ⟨rfl, -⟩; rfl

/-- **C34** on FreeBSD (stable).  Once a query has said that the child has exited, all later queries, however many, give the
same answer, and none of them asks the system. -/
theorem pd_stable (e e' : ExitStatus) (as as' : List KAns) (c : Nat)
    (h : pdWait e as = (.status ⟨true, c⟩, e', as')) (later : List KAns) (n : Nat) :
    pdQueries e' later n = (List.replicate n (.status ⟨true, c⟩), e', later) := by
  have he : e' = ⟨true, c⟩ := by
    unfold pdWait at h
    split at h
    · injection h with h1 h2
      injection h1 with h1
      injection h2 with h2 _
      rw [← h2, h1]
    · rename_i hx
      split at h
      · cases h
      · split at h
        · injection h with h1 h2
          injection h1 with h1
          injection h2 with h2 _
          rw [← h2, h1]
        · injection h with h1 h2
          injection h1 with h1
          rw [h1] at hx; exact absurd rfl hx
      · cases h
  subst he
  induction n with
  | zero => rfl
  | succ n ih => simp [pdQueries, pdWait, ih, List.replicate_succ]

/-- **C34** on FreeBSD, in part.  A child that is found running by some polls, each of them interrupted any number of times,
and then leaves by `exit(code)`: the polls report that it runs, the next query reports `code`, and so do all later ones,
which do not ask the system.  Missing, because false: that the code tells an abnormal termination from success
(`pd_killed_looks_like_success`). -/
theorem pd_life_reported_partial (polls : List (Nat × Nat)) (j : Nat) (code : Fin 256) (later : List KAns) (m : Nat) :
    pdQueries ⟨false, 0⟩ (polls.flatMap (fun q => List.replicate q.1 .eintr ++ [.events 0 q.2]) ++
        (List.replicate j .eintr ++ .events 1 (encode (.exit code)) :: later)) (polls.length + (m + 1)) =
      (List.replicate polls.length (.status ⟨false, 0⟩) ++ List.replicate (m + 1) (.status ⟨true, code.val⟩),
        ⟨true, code.val⟩, later) := by
  induction polls with
  | nil =>
    have h1 : pdAsk (List.replicate j .eintr ++ .events 1 (encode (.exit code)) :: later) =
        some (.events 1 (encode (.exit code)), later) := (pdAsk_some _ _ _).2 ⟨by simp, j, rfl⟩
    have h2 : bsdExitstatus (encode (.exit code)) = code.val := by simp [bsdExitstatus, encode]
    have h3 : pdWait ⟨false, 0⟩ (List.replicate j .eintr ++ .events 1 (encode (.exit code)) :: later) =
        (.status ⟨true, code.val⟩, ⟨true, code.val⟩, later) := by
      simp [pdWait, h1, h2]
    have h4 := pd_stable _ _ _ _ _ h3 later m
    have e : ([] : List (Nat × Nat)).length + (m + 1) = m + 1 := by simp
    rw [e, List.flatMap_nil, List.nil_append, pdQueries, h3]
    simp only [h4]
    rfl
  | cons q polls ih =>
    have h1 : ∀ t, pdAsk ((List.replicate q.1 .eintr ++ [.events 0 q.2]) ++ t) = some (.events 0 q.2, t) :=
      fun t => (pdAsk_some _ _ _).2 ⟨by simp, q.1, by simp⟩
    have e : (q :: polls).length + (m + 1) = (polls.length + (m + 1)) + 1 := by simp; omega
    rw [e, List.flatMap_cons, List.append_assoc, pdQueries]
    have h3 : ∀ t, pdWait ⟨false, 0⟩ ((List.replicate q.1 .eintr ++ [.events 0 q.2]) ++ t) =
        (.status ⟨false, 0⟩, ⟨false, 0⟩, t) := by
      intro t; simp only [pdWait, h1]; rfl
    rw [h3]
    simp only [ih]
    rfl

/-- **C34** on FreeBSD (violation).  A child killed by any signal, with or without core dump, is reported with exit code 0,
exactly as one that left by `exit(0)`. -/
theorem pd_killed_looks_like_success (e : ExitStatus) (sig : Nat) (core : Bool) (rest : List KAns)
    (he : e.hasExited = false) (hs : (Fate.signal sig core).valid) :
    pdWait e (.events 1 (encode (.signal sig core)) :: rest) = pdWait e (.events 1 (encode (.exit 0)) :: rest) ∧
      (pdWait e (.events 1 (encode (.signal sig core)) :: rest)).1 = .status ⟨true, 0⟩ := by
  obtain ⟨h1, h2⟩ := hs
  have h3 : bsdExitstatus (encode (.signal sig core)) = 0 := by
    simp only [bsdExitstatus, encode]
    split <;> omega
  have h4 : bsdExitstatus (encode (.exit 0)) = 0 := rfl
  exact ⟨by simp [pdWait, he, pdAsk, h3, h4], by simp [pdWait, he, pdAsk, h3]⟩

/-- Two polls, one interrupted twice, then `exit(3)`; a child killed by signal 11 with a core dump; an error. -/
example : pdQueries ⟨false, 0⟩ [.events 0 0, .eintr, .eintr, .events 0 9, .events 1 0x300, .failed] 4 =
      ([.status ⟨false, 0⟩, .status ⟨false, 0⟩, .status ⟨true, 3⟩, .status ⟨true, 3⟩], ⟨true, 3⟩, [.failed]) ∧
    (pdWait ⟨false, 0⟩ [.events 1 (encode (.signal 11 true))]).1 = .status ⟨true, 0⟩ ∧
    (Fate.signal 11 true).valid ∧ (pdWait ⟨false, 0⟩ [.eintr, .failed]).1 = .hostExit := by
  refine ⟨by decide, by decide, ⟨by decide, by decide⟩, by decide⟩

end Verif.Child
