import Verif.SigMem.Spec

/-!
# Memory requests and signals (property C108)
-/

namespace Verif.SigMem

open Verif.Rpc Spec

variable {σ : Type} {answer : σ → Req → Resp × σ}

/-- The host's state after requests. -/
private def after (answer : σ → Req → Resp × σ) (h : σ) : List Req → σ
  | [] => h
  | q :: qs => after answer (answer h q).2 qs

private theorem after_snoc (h : σ) (qs : List Req) (q : Req) :
    after answer h (qs ++ [q]) = (answer (after answer h qs) q).2 := by
  induction qs generalizing h with
  | nil => rfl
  | cons p ps ih => exact ih _

private theorem answers_snoc (h : σ) (qs : List Req) (q : Req) :
    answers answer h (qs ++ [q]) = answers answer h qs ++ [(answer (after answer h qs) q).1] := by
  induction qs generalizing h with
  | nil => rfl
  | cons p ps ih => simp only [List.cons_append, answers, ih, after]

/-- What is on the way for code at `p`; `h` is the host's state after all finished requests. -/
private def Phase (answer : σ → Req → Resp × σ) (h : σ) (s : St σ) : Pc → Prop
  | .sent q | .intr q =>
    (s.toHost = [q] ∧ s.fromHost = [] ∧ s.host = h)
      ∨ (s.toHost = [] ∧ s.fromHost = [(answer h q).1] ∧ s.host = (answer h q).2)
  | _ => s.toHost = [] ∧ s.fromHost = [] ∧ s.host = h

/-- The requests made that have no answer yet. -/
private def open_ : Pc → List Req
  | .locked q | .sent q | .intr q => [q]
  | _ => []

/-- What is known of the thread: at most one piece of code is inside a request. -/
private structure Ok (answer : σ → Req → Resp × σ) (h0 : σ) (made : List Req) (s : St σ) : Prop where
  told : s.log.map (·.2) = answers answer h0 (s.log.map (·.1))
  at_ : ∃ xs p ys, s.pc :: s.below = xs ++ p :: ys ∧ (∀ x ∈ xs, x = Pc.idle) ∧ (∀ y ∈ ys, y = Pc.idle)
    ∧ (s.lock = true ↔ p ≠ .idle) ∧ Phase answer (after answer h0 (s.log.map (·.1))) s p
    ∧ made = s.log.map (·.1) ++ open_ p

private theorem ok_start (h : σ) : Ok answer h [] (start h) :=
  ⟨rfl, [], .idle, [], rfl, by simp, by simp, by simp [start], ⟨rfl, rfl, rfl⟩, rfl⟩

private theorem top_of {s : St σ} {xs ys : List Pc} {p : Pc} (he : s.pc :: s.below = xs ++ p :: ys)
    (hx : ∀ x ∈ xs, x = Pc.idle) (hp : s.pc ≠ .idle) : xs = [] ∧ p = s.pc ∧ ys = s.below := by
  cases xs with
  | nil => simp_all
  | cons x xs =>
    simp only [List.cons_append, List.cons.injEq] at he
    exact absurd (he.1.trans (hx x (by simp))) hp

private theorem ok_step {h0 : σ} {made : List Req} {s t : St σ} {a : Act} (ok : Ok answer h0 made s)
    (h : step answer s a = some t) : Ok answer h0 (made ++ requests [a]) t := by
  obtain ⟨told, xs, p, ys, he, hx, hy, hl, hp, hm⟩ := ok
  unfold step at h
  split at h
  · contradiction
  cases a with
  | enter q =>
    simp only at h
    split at h
    · rename_i hc
      cases h
      have hpi : p = .idle := by
        apply Classical.byContradiction
        intro hn
        have := hl.2 hn
        simp [hc.2] at this
      subst hpi
      have hall : ∀ x ∈ s.pc :: s.below, x = Pc.idle := by
        rw [he]
        intro x hxm
        simp only [List.mem_append, List.mem_cons] at hxm
        rcases hxm with h | h | h
        · exact hx x h
        · exact h
        · exact hy x h
      refine ⟨told, [], .locked q, s.below, rfl, by simp, fun y hy => hall y (by simp [hy]), by simp, hp, ?_⟩
      simp [hm, open_, requests]
    · contradiction
  | write =>
    simp only at h
    split at h
    · rename_i q hq
      cases h
      obtain ⟨rfl, rfl, rfl⟩ := top_of he hx (by simp [hq])
      rw [hq] at hp hm hl
      obtain ⟨h1, h2, h3⟩ := hp
      refine ⟨told, [], .sent q, s.below, rfl, by simp, hy, by simpa using hl, .inl ⟨by simp [h1], h2, h3⟩, ?_⟩
      simp [hm, open_, requests]
    · contradiction
  | serve =>
    simp only at h
    split at h
    · contradiction
    · rename_i q qs hq
      cases h
      refine ⟨told, xs, p, ys, he, hx, hy, hl, ?_, by simp [hm, requests]⟩
      cases p <;> simp [Phase, hq] at hp ⊢ <;> grind
  | read =>
    simp only at h
    split at h
    · rename_i q r rs hq hr
      cases h
      obtain ⟨rfl, rfl, rfl⟩ := top_of he hx (by simp [hq])
      rw [hq] at hp hm hl
      rcases hp with ⟨_, h2, _⟩ | ⟨h1, h2, h3⟩
      · simp [hr] at h2
      · rw [hr] at h2
        obtain ⟨rfl, rfl⟩ := List.cons.inj h2
        refine ⟨?_, [], .got q _, s.below, rfl, by simp, hy, by simpa using hl, ⟨h1, rfl, ?_⟩, ?_⟩
        · simp [told, answers_snoc]
        · simp [after_snoc, h3]
        · simp [hm, open_, requests]
    · cases h
      refine ⟨told, xs, p, ys, he, hx, hy, hl, ?_, by simp [hm, requests]⟩
      cases p <;> exact hp
    · contradiction
  | leave =>
    simp only at h
    split at h
    · rename_i q r hq
      cases h
      obtain ⟨rfl, rfl, rfl⟩ := top_of he hx (by simp [hq])
      rw [hq] at hp hm hl
      refine ⟨told, [], .idle, s.below, rfl, by simp, hy, by simp, hp, ?_⟩
      simp [hm, open_, requests]
    · contradiction
  | signal restart =>
    cases h
    by_cases hi : s.pc = .idle
    · have : interrupted s restart = .idle := by simp [interrupted, hi]
      refine ⟨told, .idle :: xs, p, ys, ?_, ?_, hy, hl, ?_, by simp [hm, requests]⟩
      · simp only [this, List.cons_append]
        rw [← he, hi]
      · intro x hxm
        rcases List.mem_cons.1 hxm with h | h
        · exact h
        · exact hx x h
      · cases p <;> exact hp
    · obtain ⟨rfl, rfl, rfl⟩ := top_of he hx hi
      refine ⟨told, [.idle], interrupted s restart, s.below, rfl, by simp, hy, ?_, ?_, ?_⟩
      · unfold interrupted
        split
        · rename_i hq _
          simp only [hq] at hl
          simp only [hl]
          split <;> simp
        · exact hl
      · unfold interrupted
        split
        · rename_i hq _
          rw [hq] at hp
          split <;> exact hp
        · cases hq : s.pc <;> rw [hq] at hp <;> exact hp
      · unfold interrupted
        split
        · rename_i hq _
          rw [hq] at hm
          split <;> simp [hm, open_, requests]
        · simp [hm, requests]
  | sigret =>
    simp only at h
    split at h
    · rename_i p' ps hq hb
      cases h
      rw [hq, hb] at he
      cases xs with
      | nil =>
        simp only [List.nil_append, List.cons.injEq] at he
        obtain ⟨rfl, rfl⟩ := he
        have hp' : p' = .idle := hy p' (by simp)
        exact ⟨told, [], .idle, ps, by simp [hp'], by simp, fun y hy' => hy y (by simp [hy']), hl, hp,
          by simp [hm, requests]⟩
      | cons x xs =>
        simp only [List.cons_append, List.cons.injEq] at he
        refine ⟨told, xs, p, ys, he.2, fun y hy' => hx y (by simp [hy']), hy, hl, ?_, by simp [hm, requests]⟩
        cases p <;> exact hp
    · contradiction

private theorem requests_cons (a : Act) (as : List Act) : requests (a :: as) = requests [a] ++ requests as := by
  cases a <;> rfl

private theorem ok_run {h0 : σ} : ∀ {as : List Act} {made : List Req} {s t : St σ}, Ok answer h0 made s →
    run answer s as = some t → Ok answer h0 (made ++ requests as) t
  | [], made, s, t, ok, h => by
    cases h
    simpa [requests] using ok
  | a :: as, made, s, t, ok, h => by
    unfold run at h
    split at h
    · rename_i s' hs
      rw [requests_cons, ← List.append_assoc]
      exact ok_run (ok_step ok hs) h
    · contradiction

/-- The lock is held exactly while some code is inside a request. -/
private theorem ok_lock {h0 : σ} {made : List Req} {s : St σ} (ok : Ok answer h0 made s) :
    s.lock = true ↔ ∃ p ∈ s.pc :: s.below, p ≠ .idle := by
  obtain ⟨_, xs, p, ys, he, hx, hy, hl, _, _⟩ := ok
  rw [hl, he]
  constructor
  · exact fun h => ⟨p, by simp, h⟩
  · rintro ⟨p', hm, hn⟩
    simp only [List.mem_append, List.mem_cons] at hm
    rcases hm with h | h | h
    · exact absurd (hx _ h) hn
    · exact h ▸ hn
    · exact absurd (hy _ h) hn

/-- Nothing was ended by a signal. -/
private def Calm (s : St σ) : Prop := s.dead = false ∧ ∀ q, .intr q ∉ s.pc :: s.below

private theorem calm_step {s t : St σ} {a : Act} (c : Calm s) (hr : a ≠ .signal false)
    (h : step answer s a = some t) : Calm t := by
  obtain ⟨hd, hi⟩ := c
  simp only [List.mem_cons, not_or] at hi
  simp only [step, hd, Bool.false_eq_true, if_false] at h
  cases a with
  | signal restart =>
    cases restart with
    | false => exact absurd rfl hr
    | true =>
      cases h
      refine ⟨rfl, fun q => ?_⟩
      simp only [List.mem_cons, not_or, reduceCtorEq, not_false_eq_true, true_and]
      refine ⟨?_, (hi q).2⟩
      unfold interrupted
      split
      · simp
      · exact (hi q).1
  | enter q =>
    simp only at h
    split at h
    · cases h; exact ⟨rfl, fun q => by simp [(hi q).2]⟩
    · contradiction
  | write =>
    simp only at h
    split at h
    · cases h; exact ⟨rfl, fun q => by simp [(hi q).2]⟩
    · contradiction
  | serve =>
    simp only at h
    split at h
    · contradiction
    · cases h; exact ⟨rfl, fun q => by simpa using hi q⟩
  | read =>
    simp only at h
    split at h
    · cases h; exact ⟨rfl, fun q => by simp [(hi q).2]⟩
    · rename_i q hq
      exact absurd hq.symm (hi q).1
    · contradiction
  | leave =>
    simp only at h
    split at h
    · cases h; exact ⟨rfl, fun q => by simp [(hi q).2]⟩
    · contradiction
  | sigret =>
    simp only at h
    split at h
    · rename_i p ps _ hb
      cases h
      exact ⟨rfl, fun q => by have := (hi q).2; rw [hb] at this; exact this⟩
    · contradiction

private theorem calm_run : ∀ {as : List Act} {s t : St σ}, Calm s → Restarting as → run answer s as = some t → Calm t
  | [], s, t, c, _, h => by cases h; exact c
  | a :: as, s, t, c, hr, h => by
    unfold run at h
    simp only [Restarting, List.mem_cons, not_or] at hr
    split at h
    · rename_i s' hs
      exact calm_run (calm_step c (fun e => hr.1 e.symm) hs) hr.2 h
    · contradiction

private theorem calm_start (h : σ) : Calm (start h) := ⟨rfl, fun q => by simp [start]⟩

/-- A request begun is finished by the code's own steps and the host's. -/
private theorem finishes {h0 : σ} {made : List Req} {s : St σ} (ok : Ok answer h0 made s) (c : Calm s) :
    ∃ bs u, (∀ b ∈ bs, b = .write ∨ b = .serve ∨ b = .read ∨ b = .leave) ∧ run answer s bs = some u
      ∧ u.pc = .idle ∧ u.below = s.below := by
  obtain ⟨_, xs, p, ys, he, hx, _, _, hp, _⟩ := ok
  obtain ⟨hd, hi⟩ := c
  cases hq : s.pc with
  | idle => exact ⟨[], s, by simp, rfl, hq, rfl⟩
  | locked q =>
    obtain ⟨rfl, rfl, rfl⟩ := top_of he hx (by simp [hq])
    rw [hq] at hp
    obtain ⟨h1, h2, h3⟩ := hp
    exact ⟨[.write, .serve, .read, .leave], { s with pc := .idle, lock := false, toHost := [], fromHost := [], host := (answer s.host q).2, log := s.log ++ [(q, (answer s.host q).1)] },
      by simp, by simp [run, step, hd, hq, h1, h2], rfl, rfl⟩
  | sent q =>
    obtain ⟨rfl, rfl, rfl⟩ := top_of he hx (by simp [hq])
    rw [hq] at hp
    rcases hp with ⟨h1, h2, h3⟩ | ⟨h1, h2, h3⟩
    · exact ⟨[.serve, .read, .leave], { s with pc := .idle, lock := false, toHost := [], fromHost := [], host := (answer s.host q).2, log := s.log ++ [(q, (answer s.host q).1)] },
        by simp, by simp [run, step, hd, hq, h1, h2], rfl, rfl⟩
    · exact ⟨[.read, .leave], { s with pc := .idle, lock := false, fromHost := [], log := s.log ++ [(q, (answer (after answer h0 (s.log.map (·.1))) q).1)] },
        by simp,
        by simp [run, step, hd, hq, h2], rfl, rfl⟩
  | intr q => exact absurd (by simp [hq]) (hi q)
  | got q r => exact ⟨[.leave], { s with pc := .idle, lock := false }, by simp, by simp [run, step, hd, hq], rfl, rfl⟩

/-- **C108.** If all handlers are installed with `SA_RESTART` then, however many signals arrive at whatever places and
however deep their handlers nest, the process does not end; every answer that code got is the one that the host gives to its
request when the requests are made one after the other; the requests answered are those made, in order, except that the last
may be under way; and a request begun can be finished by the code itself and the host, whatever it has interrupted.
Missing: handlers without `SA_RESTART` (`interrupted_read_ends`) and requests of handlers that interrupt a request
(`nested_request_hangs`). -/
theorem requests_survive_partial (h : σ) (as : List Act) (t : St σ) (hr : Restarting as)
    (hrun : run answer (start h) as = some t) :
    t.dead = false
      ∧ t.log.map (·.2) = answers answer h (t.log.map (·.1))
      ∧ (requests as = t.log.map (·.1) ∨ ∃ q, requests as = t.log.map (·.1) ++ [q])
      ∧ ∃ bs u, (∀ b ∈ bs, b = .write ∨ b = .serve ∨ b = .read ∨ b = .leave) ∧ run answer t bs = some u
        ∧ u.pc = .idle ∧ u.below = t.below := by
  have ok := ok_run (ok_start h) hrun
  have c := calm_run (calm_start h) hr hrun
  refine ⟨c.1, ok.told, ?_, finishes ok c⟩
  obtain ⟨_, _, p, _, _, _, _, _, _, hm⟩ := ok
  rw [List.nil_append] at hm
  cases p
  · exact .inl (by simpa [open_] using hm)
  · exact .inr ⟨_, hm⟩
  · exact .inr ⟨_, hm⟩
  · exact .inr ⟨_, hm⟩
  · exact .inl (by simpa [open_] using hm)

/-- Code that is not in a request can begin one exactly when no code that it has interrupted, directly or not, is in one. -/
theorem can_request_iff (h : σ) (as : List Act) (t : St σ) (q : Req) (hrun : run answer (start h) as = some t)
    (hd : t.dead = false) (hi : ¬ Inside t.pc) :
    (∃ u, step answer t (.enter q) = some u) ↔ ∀ p ∈ t.below, ¬ Inside p := by
  have ok := ok_run (ok_start h) hrun
  have hl := ok_lock ok
  simp only [Inside, ne_eq, Decidable.not_not] at hi ⊢
  have he : (∃ u, step answer t (.enter q) = some u) ↔ t.lock = false := by
    simp only [step, hd, hi, Bool.false_eq_true, if_false, true_and]
    cases t.lock <;> simp
  rw [he]
  constructor
  · intro hf p hp
    apply Classical.byContradiction
    intro hn
    have := hl.2 ⟨p, by simp [hp], hn⟩
    simp [hf] at this
  · intro hall
    cases hb : t.lock with
    | false => rfl
    | true =>
      obtain ⟨p, hp, hn⟩ := hl.1 hb
      rcases List.mem_cons.1 hp with h | h
      · exact absurd (h.trans hi) hn
      · exact absurd (hall p h) hn

private theorem handlers_cons {a : Act} {bs : List Act} {k k' : Nat} (h : handlers k (a :: bs) = some k') :
    ∃ j, handlers k [a] = some j ∧ handlers j bs = some k' := by
  cases a with
  | sigret => cases k with
    | zero => simp [handlers] at h
    | succ k => exact ⟨k, rfl, h⟩
  | signal r => exact ⟨k + 1, rfl, h⟩
  | enter q => exact ⟨k, rfl, h⟩
  | write => exact ⟨k, rfl, h⟩
  | serve => exact ⟨k, rfl, h⟩
  | read => exact ⟨k, rfl, h⟩
  | leave => exact ⟨k, rfl, h⟩

/-- The code below the topmost `k + 1` pieces. -/
private def Over (rest : List Pc) (k : Nat) (s : St σ) : Prop := ∃ zs, s.below = zs ++ rest ∧ zs.length = k

private theorem kept_step {rest : List Pc} {a : Act} {k j : Nat} {s t : St σ} (hh : handlers k [a] = some j)
    (h : step answer s a = some t) (ho : Over rest k s) : Over rest j t := by
  obtain ⟨zs, hz, hn⟩ := ho
  unfold step at h
  split at h
  · contradiction
  cases a with
  | signal r =>
    cases h
    cases hh
    exact ⟨interrupted s r :: zs, by simp [hz], by simp [hn]⟩
  | sigret =>
    cases k with
    | zero => simp [handlers] at hh
    | succ k =>
      cases hh
      simp only at h
      split at h
      · rename_i p ps _ hb
        cases h
        cases zs with
        | nil => simp at hn
        | cons z zs =>
          rw [hb] at hz
          exact ⟨zs, (List.cons.inj hz).2, by simpa using hn⟩
      · contradiction
  | enter q =>
    cases hh
    simp only at h
    split at h
    · cases h; exact ⟨zs, hz, hn⟩
    · contradiction
  | write =>
    cases hh
    simp only at h
    split at h
    · cases h; exact ⟨zs, hz, hn⟩
    · contradiction
  | serve =>
    cases hh
    simp only at h
    split at h
    · contradiction
    · cases h; exact ⟨zs, hz, hn⟩
  | read =>
    cases hh
    simp only at h
    split at h
    · cases h; exact ⟨zs, hz, hn⟩
    · cases h; exact ⟨zs, hz, hn⟩
    · contradiction
  | leave =>
    cases hh
    simp only at h
    split at h
    · cases h; exact ⟨zs, hz, hn⟩
    · contradiction

/-- While a handler has not returned what it has interrupted stays as it is. -/
private theorem kept {rest : List Pc} : ∀ {bs : List Act} {k k' : Nat} {s u : St σ}, handlers k bs = some k' →
    run answer s bs = some u → Over rest k s → Over rest k' u
  | [], k, k', s, u, hh, h, ho => by
    cases h
    cases hh
    exact ho
  | a :: bs, k, k', s, u, hh, h, ho => by
    unfold run at h
    obtain ⟨j, h1, h2⟩ := handlers_cons hh
    split at h
    · rename_i s' hs
      exact kept h2 h (kept_step h1 hs ho)
    · contradiction

private theorem run_append : ∀ {as bs : List Act} {s : St σ},
    run answer s (as ++ bs) = (run answer s as).bind (run answer · bs)
  | [], _, _ => rfl
  | a :: as, bs, s => by
    simp only [List.cons_append, run]
    split
    · exact run_append
    · rfl

private theorem interrupted_inside {s : St σ} {r : Bool} (h : s.pc ≠ .idle) : interrupted s r ≠ .idle := by
  unfold interrupted
  split
  · split <;> simp
  · exact h

/-- **C108 fails** for a handler that needs memory: if a signal arrives while code is inside a request, neither its handler nor
one that interrupts it can begin a request until the handler returns, whatever happens.  As the handler waits for the lock,
which its own thread holds, it never returns. -/
theorem nested_request_hangs (h : σ) (as bs : List Act) (t u : St σ) (r : Bool) (k : Nat) (q : Req)
    (hrun : run answer (start h) as = some t) (hin : Inside t.pc)
    (hcont : run answer t (.signal r :: bs) = some u) (hk : handlers 0 bs = some k) :
    step answer u (.enter q) = none := by
  have ok : Ok answer h _ u := ok_run (as := as ++ .signal r :: bs) (ok_start h) (by rw [run_append, hrun]; exact hcont)
  unfold run at hcont
  split at hcont
  case h_2 => contradiction
  rename_i s hs
  unfold step at hs
  split at hs
  · contradiction
  cases hs
  obtain ⟨zs, hz, _⟩ := kept (rest := interrupted t r :: t.below) hk hcont ⟨[], rfl, rfl⟩
  have hl := (ok_lock ok).2 ⟨interrupted t r, by rw [hz]; simp, interrupted_inside hin⟩
  simp [step, hl]

/-- **C108 fails** for a handler without `SA_RESTART`: if it runs while code waits for the answer to its request then, when
it has returned, the code's next step ends the process, even if the answer has come meanwhile, and it has no other step. -/
theorem interrupted_read_ends (bs : List Act) (t u : St σ) (q : Req)
    (hq : t.pc = .sent q) (hf : t.fromHost = [])
    (hcont : run answer t (.signal false :: bs ++ [.sigret]) = some u) (hk : handlers 0 bs = some 0) :
    (∃ v, step answer u .read = some v ∧ v.dead = true)
      ∧ step answer u .write = none ∧ step answer u .leave = none ∧ ∀ q', step answer u (.enter q') = none := by
  rw [List.cons_append] at hcont
  unfold run at hcont
  split at hcont
  case h_2 => contradiction
  rename_i s hs
  unfold step at hs
  split at hs
  · contradiction
  cases hs
  have hi : interrupted t false = .intr q := by simp [interrupted, hq, hf]
  rw [run_append] at hcont
  cases hb : run answer { t with pc := .idle, below := interrupted t false :: t.below } bs with
  | none => simp [hb] at hcont
  | some w =>
    rw [hb] at hcont
    obtain ⟨zs, hz, hn⟩ := kept (rest := interrupted t false :: t.below) hk hb ⟨[], rfl, rfl⟩
    obtain rfl := List.eq_nil_of_length_eq_zero hn
    rw [hi, List.nil_append] at hz
    simp only [Option.bind_some, run] at hcont
    split at hcont
    case h_2 => contradiction
    rename_i w' hw
    cases hcont
    unfold step at hw
    split at hw
    · contradiction
    rename_i hd
    simp only [hz] at hw
    split at hw
    · rename_i hp he
      cases hw
      cases he
      simp [step, hd]
    · contradiction

/-! ## Examples -/

/-- A host that counts the requests and answers with the number. -/
private def exHost (n : Nat) (_ : Req) : Resp × Nat := (⟨BitVec.ofNat 64 n, 0#64⟩, n + 1)

/-- A request, interrupted twice. -/
private def exReq : Req := ⟨0#64, 1#64, 2#64, 3#64, 4#64⟩

example : ∃ t : St Nat, Restarting [.enter exReq, .write, .signal true, .signal true, .serve, .sigret, .sigret, .read, .leave,
      .signal true, .enter exReq]
    ∧ run exHost (start 0) [.enter exReq, .write, .signal true, .signal true, .serve, .sigret, .sigret, .read, .leave,
      .signal true, .enter exReq] = some t ∧ t.log.length = 1 ∧ t.below = [.idle] ∧ Inside t.pc :=
  ⟨_, by simp [Restarting], rfl, rfl, rfl, by simp [Inside]⟩

/-- `can_request_iff`: both answers occur. -/
example : ∃ t : St Nat, run exHost (start 0) [.enter exReq, .signal true] = some t ∧ t.dead = false ∧ ¬ Inside t.pc
    ∧ ∃ p ∈ t.below, Inside p :=
  ⟨_, rfl, rfl, by simp [Inside], .locked exReq, by simp [interrupted], by simp [Inside]⟩

example : ∃ t : St Nat, run exHost (start 0) [.signal false] = some t ∧ t.dead = false ∧ ¬ Inside t.pc
    ∧ ∀ p ∈ t.below, ¬ Inside p :=
  ⟨_, rfl, rfl, by simp [Inside], by simp [interrupted, Inside, start]⟩

/-- `nested_request_hangs`: a handler that is itself interrupted. -/
example : ∃ t u : St Nat, run exHost (start 0) [.enter exReq, .write] = some t ∧ Inside t.pc
    ∧ run exHost t (.signal true :: [.serve, .signal true, .sigret, .signal false]) = some u
    ∧ handlers 0 [.serve, .signal true, .sigret, .signal false] = some 1 :=
  ⟨_, _, rfl, by simp [Inside], rfl, rfl⟩

/-- `interrupted_read_ends`: the answer comes while the handler runs. -/
example : ∃ t u : St Nat, run exHost (start 0) [.enter exReq, .write] = some t ∧ t.pc = .sent exReq ∧ t.fromHost = []
    ∧ run exHost t (.signal false :: [.serve, .signal true, .sigret] ++ [.sigret]) = some u
    ∧ handlers 0 [.serve, .signal true, .sigret] = some 0 ∧ u.fromHost ≠ [] :=
  ⟨_, _, rfl, rfl, rfl, rfl, rfl, by simp [start]⟩

end Verif.SigMem
