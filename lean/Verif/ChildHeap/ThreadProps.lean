import Verif.ChildHeap.Threads

/-!
# Memory requests of several threads of the sandbox: property C57
-/

namespace Verif.ChildHeap.Threads

open Verif.Rpc

/-! ### Specification -/

/-- The requests were served one after the other, in the order of the log, and everyone was told the answer to their own
request: `s'` is the host's state afterwards. -/
inductive Serial {σ} (answer : σ → Req → Resp × σ) : σ → List (Nat × Req × Resp) → σ → Prop where
  | nil (s) : Serial answer s [] s
  | snoc {s s'} {l} (t q) : Serial answer s l s' →
      Serial answer s (l ++ [(t, q, (answer s' q).1)]) (answer s' q).2

/-- A thread is inside the function. -/
def Inside : Pc → Prop
  | .idle => False
  | _ => True

/-! ### Invariant -/

/-- What is under way for the thread inside: nothing, its request, or its answer. -/
inductive Flight {σ} (answer : σ → Req → Resp × σ) (h : σ) (s : St σ) : Pc → Prop where
  | locked (q) : s.toHost = [] → s.fromHost = [] → s.host = h → Flight answer h s (.locked q)
  | asked (q) : s.toHost = [q] → s.fromHost = [] → s.host = h → Flight answer h s (.sent q)
  | answered (q) : s.toHost = [] → s.fromHost = [(answer h q).1] → s.host = (answer h q).2 →
      Flight answer h s (.sent q)
  | got (q r) : s.toHost = [] → s.fromHost = [] → s.host = h → Flight answer h s (.got q r)

/-- Either nobody is inside and nothing is under way, or exactly one thread is. -/
def Inv {σ} (answer : σ → Req → Resp × σ) (s0 : σ) (s : St σ) : Prop :=
  ∃ h, Serial answer s0 s.log h ∧
    ((s.lock = false ∧ (∀ t, s.pc t = .idle) ∧ s.toHost = [] ∧ s.fromHost = [] ∧ s.host = h) ∨
     (s.lock = true ∧ ∃ t, (∀ u, u ≠ t → s.pc u = .idle) ∧ Flight answer h s (s.pc t)))

theorem inv_start {σ} (answer : σ → Req → Resp × σ) (h : σ) : Inv answer h (start h) :=
  ⟨h, .nil h, Or.inl ⟨rfl, fun _ => rfl, rfl, rfl, rfl⟩⟩

theorem inv_step {σ} {answer : σ → Req → Resp × σ} {s0 : σ} {s s' : St σ} (hi : Inv answer s0 s) (a : Act)
    (hs : step answer s a = some s') : Inv answer s0 s' := by
  obtain ⟨h, hser, hcase⟩ := hi
  cases a with
  | enter t q =>
    simp only [step] at hs
    split at hs
    · rename_i hc
      rcases hcase with ⟨hl, hidle, h1, h2, h3⟩ | ⟨hl, -⟩
      · simp only [Option.some.injEq] at hs
        subst hs
        refine ⟨h, hser, Or.inr ⟨rfl, t, ?_, ?_⟩⟩
        · intro u hu; simp only [St.goto, if_neg hu]; exact hidle u
        · simp only [St.goto, if_true]
          exact .locked q h1 h2 h3
      · rw [hl] at hc; simp at hc
    · simp at hs
  | write t =>
    rcases hcase with ⟨hl, hidle, -⟩ | ⟨hl, t', hothers, hf⟩
    · simp only [step, hidle t] at hs
      simp at hs
    · by_cases ht : t = t'
      · subst ht
        simp only [step] at hs
        generalize hpc : s.pc t = p at hs hf
        cases hf with
        | locked q h1 h2 h3 =>
          simp only [Option.some.injEq] at hs
          subst hs
          refine ⟨h, hser, Or.inr ⟨hl, t, ?_, ?_⟩⟩
          · intro u hu; simp only [St.goto, if_neg hu]; exact hothers u hu
          · simp only [St.goto, if_true]
            exact .asked q (by simp [h1]) h2 h3
        | asked => simp at hs
        | answered => simp at hs
        | got => simp at hs
      · simp only [step, hothers t ht] at hs
        simp at hs
  | serve =>
    simp only [step] at hs
    rcases hcase with ⟨hl, hidle, h1, -⟩ | ⟨hl, t', hothers, hf⟩
    · rw [h1] at hs; simp at hs
    · generalize hpc : s.pc t' = p at hf
      cases hf with
      | locked q h1 h2 h3 => rw [h1] at hs; simp at hs
      | asked q h1 h2 h3 =>
        rw [h1] at hs
        simp only [Option.some.injEq] at hs
        subst hs
        refine ⟨h, hser, Or.inr ⟨hl, t', hothers, ?_⟩⟩
        simp only [hpc]
        exact .answered q rfl (by simp [h2, h3]) (by simp [h3])
      | answered q h1 h2 h3 => rw [h1] at hs; simp at hs
      | got q r h1 h2 h3 => rw [h1] at hs; simp at hs
  | read t =>
    rcases hcase with ⟨hl, hidle, -⟩ | ⟨hl, t', hothers, hf⟩
    · simp only [step, hidle t] at hs
      simp at hs
    · by_cases ht : t = t'
      · subst ht
        simp only [step] at hs
        generalize hpc : s.pc t = p at hs hf
        cases hf with
        | locked => simp at hs
        | asked q h1 h2 h3 => rw [h2] at hs; simp at hs
        | answered q h1 h2 h3 =>
          rw [h2] at hs
          simp only [Option.some.injEq] at hs
          subst hs
          refine ⟨(answer h q).2, .snoc t q hser, Or.inr ⟨hl, t, ?_, ?_⟩⟩
          · intro u hu; simp only [St.goto, if_neg hu]; exact hothers u hu
          · simp only [St.goto, if_true]
            exact .got q _ h1 rfl h3
        | got => simp at hs
      · simp only [step, hothers t ht] at hs
        simp at hs
  | leave t =>
    rcases hcase with ⟨hl, hidle, -⟩ | ⟨hl, t', hothers, hf⟩
    · simp only [step, hidle t] at hs
      simp at hs
    · by_cases ht : t = t'
      · subst ht
        simp only [step] at hs
        generalize hpc : s.pc t = p at hs hf
        cases hf with
        | locked => simp at hs
        | asked => simp at hs
        | answered => simp at hs
        | got q r h1 h2 h3 =>
          simp only [Option.some.injEq] at hs
          subst hs
          refine ⟨h, hser, Or.inl ⟨rfl, ?_, h1, h2, h3⟩⟩
          intro u
          simp only [St.goto]
          split
          · rfl
          · rename_i hu; exact hothers u hu
      · simp only [step, hothers t ht] at hs
        simp at hs

theorem inv_run {σ} {answer : σ → Req → Resp × σ} {s0 : σ} : ∀ (as : List Act) {s s' : St σ}, Inv answer s0 s →
    run answer s as = some s' → Inv answer s0 s' := by
  intro as
  induction as with
  | nil =>
    intro s s' hi hr
    simp only [run, Option.some.injEq] at hr
    exact hr ▸ hi
  | cons a as ih =>
    intro s s' hi hr
    rw [run] at hr
    split at hr
    · rename_i s1 h1
      exact ih (inv_step hi a h1) hr
    · simp at hr

/-! ### C57 -/

/-- **C57, answers are not mixed up.**  However the threads of a sandbox and the host's service thread are
interleaved, the requests are served one after the other in the order in which the answers are read, and every thread is told
the answer to its own request; when no thread is inside, the host is in the state after the last of them. -/
theorem threads_serial {σ} (answer : σ → Req → Resp × σ) (h0 : σ) (as : List Act) {s : St σ}
    (hr : run answer (start h0) as = some s) :
    ∃ h, Serial answer h0 s.log h ∧ ((∀ t, ¬ Inside (s.pc t)) → s.host = h ∧ s.toHost = [] ∧ s.fromHost = []) := by
  obtain ⟨h, hser, hcase⟩ := inv_run as (inv_start answer h0) hr
  refine ⟨h, hser, fun hno => ?_⟩
  rcases hcase with ⟨-, -, h1, h2, h3⟩ | ⟨-, t, -, hf⟩
  · exact ⟨h3, h1, h2⟩
  · have := hno t
    generalize s.pc t = p at hf this
    cases hf <;> exact absurd trivial this

/-- **C57, one thread at a time** is inside the function. -/
theorem one_inside {σ} (answer : σ → Req → Resp × σ) (h0 : σ) (as : List Act) {s : St σ}
    (hr : run answer (start h0) as = some s) (t u : Nat) (ht : Inside (s.pc t)) (hu : Inside (s.pc u)) : t = u := by
  obtain ⟨h, -, hcase⟩ := inv_run as (inv_start answer h0) hr
  rcases hcase with ⟨-, hidle, -⟩ | ⟨-, t', hothers, -⟩
  · rw [hidle t] at ht; exact absurd ht (by simp [Inside])
  · have key : ∀ v, Inside (s.pc v) → v = t' := by
      intro v hv
      by_cases h : v = t'
      · exact h
      · rw [hothers v h] at hv; exact absurd hv (by simp [Inside])
    rw [key t ht, key u hu]

/-- **C57, no deadlock.**  While a thread is inside, the host or that thread can go on; while none is, any thread can
enter. -/
theorem threads_progress {σ} (answer : σ → Req → Resp × σ) (h0 : σ) (as : List Act) {s : St σ}
    (hr : run answer (start h0) as = some s) :
    ((∀ t, ¬ Inside (s.pc t)) ∧ ∀ t q, (step answer s (.enter t q)).isSome = true) ∨
    ∃ t, Inside (s.pc t) ∧ ∃ a ∈ [Act.write t, .serve, .read t, .leave t], (step answer s a).isSome = true := by
  obtain ⟨h, -, hcase⟩ := inv_run as (inv_start answer h0) hr
  rcases hcase with ⟨hl, hidle, -⟩ | ⟨-, t, -, hf⟩
  · left
    refine ⟨fun t => by rw [hidle t]; simp [Inside], fun t q => ?_⟩
    simp [step, hidle t, hl]
  · right
    refine ⟨t, ?_⟩
    generalize hpc : s.pc t = p at hf
    cases hf with
    | locked q h1 h2 h3 => exact ⟨trivial, .write t, by simp, by simp [step, hpc]⟩
    | asked q h1 h2 h3 => exact ⟨trivial, .serve, by simp, by simp [step, h1]⟩
    | answered q h1 h2 h3 => exact ⟨trivial, .read t, by simp, by simp [step, hpc, h2]⟩
    | got q r h1 h2 h3 => exact ⟨trivial, .leave t, by simp, by simp [step, hpc]⟩

/-- Two threads, one after the other, with a host that counts: each is told its own number. -/
example :
    let answer : Nat → Req → Resp × Nat := fun n q => (⟨0, q.a0 + BitVec.ofNat 64 n⟩, n + 1)
    let as : List Act := [.enter 1 ⟨0, 7, 0, 0, 0⟩, .write 1, .serve, .read 1, .leave 1, .enter 2 ⟨0, 9, 0, 0, 0⟩, .write 2,
      .serve, .read 2]
    (run answer (start 0) as).map (·.log) =
      some [(1, ⟨0, 7, 0, 0, 0⟩, ⟨0, 7⟩), (2, ⟨0, 9, 0, 0, 0⟩, ⟨0, 10⟩)] := by
  decide +kernel

end Verif.ChildHeap.Threads
