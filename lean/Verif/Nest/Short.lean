import Verif.Nest.Props

/-!
# Nested calls when the heap of the sandbox is full: theorems

`Verif.Nest.Props` supposes that there is always room for a frame.  Here there may be none, at any depth.
-/

namespace Verif.Nest

/-- An allocator that gives addresses that are not null and not in use, and may have none to give
(`include/process_sandbox/cxxsandbox.h:99-119` allocates the frame in the sandbox's heap). -/
def Honest (pick : List Nat → Option Nat) : Prop := ∀ l a, pick l = some a → a ≠ 0 ∧ a ∉ l

variable {pick : List Nat → Option Nat} {w : World}

/-- What is proved of the four functions of `Verif.Nest.Model` at once (`src/libsandbox.cc:954-990`,
`src/library_runner.cc:324-346`, `:446-475`). -/
structure Short (pick : List Nat → Option Nat) (w : World) (fuel : Nat) : Prop where
  call : ∀ s idx args o s', s.buf = 0 → hostCall pick w fuel s idx args = some (o, s') →
    (o ≠ .threw → CallEnds w idx args o) ∧ (∀ v, o = .value v → Restored s s') ∧ s.frames.length ≤ s'.frames.length
  turn : ∀ s depth a fr l o s', a ≠ 0 → s.buf = a → s.frames = (a, fr) :: l → a ∉ l.map (·.1) →
    loopTurn pick w fuel s depth = some (o, s') →
    (∀ g, o = .value g → g = (if s.depth = depth then 1 else 0) ∧ s'.buf = 0 ∧ s'.depth = s.depth ∧
      ∃ v, CallEnds w s.idx fr.args (.value v) ∧ s'.frames = (a, { fr with ret := v }) :: l) ∧
    ((∀ g, o ≠ .value g) → (o ≠ .threw → CallEnds w s.idx fr.args o) ∧ s.frames.length ≤ s'.frames.length)
  child : ∀ s p o s', s.buf = 0 → childRun pick w fuel s p = some (o, s') →
    (o ≠ .threw → ProgEnds w p o) ∧ (∀ v, o = .value v → Restored s s') ∧ s.frames.length ≤ s'.frames.length
  host : ∀ s h o s', s.buf = 0 → hostRun pick w fuel s h = some (o, s') →
    (o ≠ .threw → HostEnds w h o) ∧ (∀ v, o = .value v → Restored s s') ∧ s.frames.length ≤ s'.frames.length

theorem short_zero : Short pick w 0 := by
  constructor
  · intro s idx args o s' _ h
    simp [hostCall] at h
  · intro s depth a fr l o s' _ _ _ _ h
    simp [loopTurn] at h
  · intro s p o s' _ h
    simp [childRun] at h
  · intro s h o s' _ h
    simp [hostRun] at h

theorem short_call (hp : Honest pick) {fuel : Nat} (ih : Short pick w fuel) (s : Shared) (idx : Nat) (args : List Nat)
    (o : Out) (s' : Shared) (_hb : s.buf = 0) (h : hostCall pick w (fuel + 1) s idx args = some (o, s')) :
    (o ≠ .threw → CallEnds w idx args o) ∧ (∀ v, o = .value v → Restored s s') ∧
      s.frames.length ≤ s'.frames.length := by
  rw [hostCall] at h
  cases ha : pick (s.frames.map (·.1)) with
  | none =>
    simp only [ha, Option.some.injEq, Prod.mk.injEq] at h
    obtain ⟨rfl, rfl⟩ := h
    exact ⟨by simp, by simp, Nat.le_refl _⟩
  | some a =>
  obtain ⟨ha0, hal⟩ := hp _ _ ha
  simp only [ha] at h
  cases ht : loopTurn pick w fuel { s with idx := idx, buf := a, frames := (a, ⟨0, args⟩) :: s.frames } s.depth with
  | none => simp [ht] at h
  | some r =>
    obtain ⟨o1, s1⟩ := r
    have hturn := ih.turn _ _ a ⟨0, args⟩ s.frames o1 s1 ha0 rfl rfl hal ht
    simp only [ht] at h
    cases o1 with
    | value g =>
      obtain ⟨hg, hb1, hd1, v, hv, hf⟩ := hturn.1 g rfl
      simp only [if_true] at hg
      subst hg
      simp only [if_true, Shared.frame?, hf, lookup_head, Option.some.injEq, Prod.mk.injEq] at h
      obtain ⟨rfl, rfl⟩ := h
      have hfr : (s1.free a).frames = s.frames := by
        simp only [Shared.free, hf]
        exact filter_head a _ _ hal
      exact ⟨fun _ => hv, fun _ _ => ⟨hb1, hd1, hfr⟩, by rw [hfr]; exact Nat.le_refl _⟩
    | threw | ub | stuck =>
      simp only [Option.some.injEq, Prod.mk.injEq] at h
      obtain ⟨rfl, rfl⟩ := h
      obtain ⟨h1, h2⟩ := hturn.2 (by simp)
      refine ⟨h1, by simp, ?_⟩
      simp only [List.length_cons] at h2
      omega

theorem short_turn {fuel : Nat} (ih : Short pick w fuel) (s : Shared) (depth a : Nat) (fr : Frame)
    (l : List (Nat × Frame)) (o : Out) (s' : Shared)
    (ha : a ≠ 0) (hb : s.buf = a) (hf : s.frames = (a, fr) :: l) (hal : a ∉ l.map (·.1))
    (h : loopTurn pick w (fuel + 1) s depth = some (o, s')) :
    (∀ g, o = .value g → g = (if s.depth = depth then 1 else 0) ∧ s'.buf = 0 ∧ s'.depth = s.depth ∧
      ∃ v, CallEnds w s.idx fr.args (.value v) ∧ s'.frames = (a, { fr with ret := v }) :: l) ∧
    ((∀ g, o ≠ .value g) → (o ≠ .threw → CallEnds w s.idx fr.args o) ∧ s.frames.length ≤ s'.frames.length) := by
  rw [loopTurn] at h
  simp only [hb, ha, if_false, Shared.frame?, hf, lookup_head] at h
  cases hfn : w.fns s.idx with
  | none =>
    simp only [hfn, Option.some.injEq, Prod.mk.injEq] at h
    obtain ⟨rfl, rfl⟩ := h
    exact ⟨by simp, fun _ => ⟨by simp [CallEnds, hfn], by simp [hf]⟩⟩
  | some f =>
    simp only [hfn] at h
    cases hc : childRun pick w fuel { depth := s.depth, idx := s.idx, buf := 0, frames := (a, fr) :: l } (f fr.args) with
    | none => simp [hc] at h
    | some r =>
      obtain ⟨o1, s1⟩ := r
      obtain ⟨c1, c2, c3⟩ := ih.child _ _ o1 s1 rfl hc
      simp only [hc] at h
      cases o1 with
      | value v =>
        simp only [Option.some.injEq, Prod.mk.injEq] at h
        obtain ⟨rfl, rfl⟩ := h
        obtain ⟨r1, r2, r3⟩ := c2 v rfl
        simp only at r2 r3
        refine ⟨fun g hg => ?_, fun hn => absurd rfl (hn _)⟩
        simp only [Out.value.injEq] at hg
        refine ⟨by rw [← hg, r2], r1, r2, v, by simpa [CallEnds, hfn] using c1, ?_⟩
        simp only [Shared.setRet, r3]
        exact setRet_head a v fr l hal
      | threw | ub | stuck =>
        simp only [Option.some.injEq, Prod.mk.injEq] at h
        obtain ⟨rfl, rfl⟩ := h
        exact ⟨by simp, fun _ => ⟨fun ho => by rw [CallEnds, hfn]; exact c1 ho, by rw [hf]; exact c3⟩⟩

theorem short_child {fuel : Nat} (ih : Short pick w fuel) (s : Shared) (p : Prog) (o : Out) (s' : Shared)
    (hb : s.buf = 0) (h : childRun pick w (fuel + 1) s p = some (o, s')) :
    (o ≠ .threw → ProgEnds w p o) ∧ (∀ v, o = .value v → Restored s s') ∧ s.frames.length ≤ s'.frames.length := by
  cases p with
  | ret v =>
    simp only [childRun, Option.some.injEq, Prod.mk.injEq] at h
    obtain ⟨rfl, rfl⟩ := h
    exact ⟨fun _ => .ret v, fun _ _ => ⟨hb, rfl, rfl⟩, Nat.le_refl _⟩
  | exit =>
    simp only [childRun, Option.some.injEq, Prod.mk.injEq] at h
    obtain ⟨rfl, rfl⟩ := h
    exact ⟨by simp, by simp, Nat.le_refl _⟩
  | callback k arg next =>
    rw [childRun] at h
    simp only at h
    cases hh : hostRun pick w fuel { s with depth := s.depth + 1 } (w.handlers k arg) with
    | none => simp [hh] at h
    | some r =>
      obtain ⟨o1, s1⟩ := r
      obtain ⟨a1, a2, a3⟩ := ih.host { s with depth := s.depth + 1 } _ o1 s1 hb hh
      simp only at a3
      simp only [hh] at h
      cases o1 with
      | value u =>
        obtain ⟨r1, r2, r3⟩ := a2 u rfl
        simp only at r2 r3
        cases fuel with
        | zero => simp [loopTurn] at h
        | succ fuel =>
          have hne : ¬ s1.depth - 1 = s.depth + 1 := by omega
          simp only at h
          rw [turn_null fuel _ _ (by exact r1)] at h
          simp only [hne, if_false, show ¬ (0 = 1) by decide] at h
          obtain ⟨b1, b2, b3⟩ := ih.child _ _ o s' (by exact r1) h
          refine ⟨fun ho => .callback (a1 (by simp)) (b1 ho), fun v hv => ?_, ?_⟩
          · obtain ⟨q1, q2, q3⟩ := b2 v hv
            simp only at q2 q3
            exact ⟨q1, by rw [q2, r2]; rfl, by rw [q3, r3]⟩
          · simp only at b3
            omega
      | threw | ub | stuck =>
        simp only [Option.some.injEq, Prod.mk.injEq] at h
        obtain ⟨rfl, rfl⟩ := h
        exact ⟨fun ho => .callbackBad (a1 ho) (by simp), by simp, a3⟩

theorem short_host {fuel : Nat} (ih : Short pick w fuel) (s : Shared) (p : Host) (o : Out) (s' : Shared)
    (hb : s.buf = 0) (h : hostRun pick w (fuel + 1) s p = some (o, s')) :
    (o ≠ .threw → HostEnds w p o) ∧ (∀ v, o = .value v → Restored s s') ∧ s.frames.length ≤ s'.frames.length := by
  cases p with
  | done v =>
    simp only [hostRun, Option.some.injEq, Prod.mk.injEq] at h
    obtain ⟨rfl, rfl⟩ := h
    exact ⟨fun _ => .done v, fun _ _ => ⟨hb, rfl, rfl⟩, Nat.le_refl _⟩
  | call idx args next =>
    rw [hostRun] at h
    cases hh : hostCall pick w fuel s idx args with
    | none => simp [hh] at h
    | some r =>
      obtain ⟨o1, s1⟩ := r
      obtain ⟨a1, a2, a3⟩ := ih.call _ _ _ o1 s1 hb hh
      simp only [hh] at h
      cases o1 with
      | value u =>
        obtain ⟨r1, r2, r3⟩ := a2 u rfl
        obtain ⟨b1, b2, b3⟩ := ih.host _ _ o s' r1 h
        cases hf : w.fns idx with
        | none => simp [CallEnds, hf] at a1
        | some f =>
          refine ⟨fun ho => .call hf (by simpa [CallEnds, hf] using a1) (b1 ho), fun v hv => ?_,
            by rw [r3] at b3; exact b3⟩
          obtain ⟨q1, q2, q3⟩ := b2 v hv
          exact ⟨q1, by rw [q2, r2], by rw [q3, r3]⟩
      | threw | ub | stuck =>
        simp only [Option.some.injEq, Prod.mk.injEq] at h
        obtain ⟨rfl, rfl⟩ := h
        refine ⟨fun ho => ?_, by simp, a3⟩
        have a1 := a1 ho
        cases hf : w.fns idx with
        | none =>
          simp only [CallEnds, hf] at a1
          first | (rw [a1]; exact .missing hf) | exact .missing hf | cases a1
        | some f => exact .callBad hf (by simpa [CallEnds, hf] using a1) (by simp)

theorem short (hp : Honest pick) : ∀ fuel, Short pick w fuel
  | 0 => short_zero
  | fuel + 1 =>
    have ih := short hp fuel
    ⟨short_call hp ih, short_turn ih, short_child ih, short_host ih⟩

/-- **C63, memory that runs out.**  Wherever the heap has no room for a frame, in the first call or at any depth, the
call either ends as a plain call would or throws: it does not wait for ever, no value is made up, and a value is
returned with shared memory as it was.  A call that finds no room for its own frame throws and changes nothing. -/
theorem nested_call_short (hp : Honest pick) {fuel : Nat} {s s' : Shared} (hb : s.buf = 0) {idx : Nat}
    {args : List Nat} {o : Out} (h : hostCall pick w fuel s idx args = some (o, s')) :
    (CallEnds w idx args o ∨ o = .threw) ∧ o ≠ .stuck ∧ (∀ v, o = .value v → Restored s s') ∧
      (pick (s.frames.map (·.1)) = none → o = .threw ∧ s' = s) := by
  obtain ⟨h1, h2, -⟩ := (short hp fuel).call s idx args o s' hb h
  have h3 : CallEnds w idx args o ∨ o = .threw := by
    by_cases ho : o = .threw
    · exact Or.inr ho
    · exact Or.inl (h1 ho)
  refine ⟨h3, ?_, h2, ?_⟩
  · rcases h3 with h3 | rfl
    · rw [CallEnds] at h3
      split at h3
      · exact ends_not_stuck.1 h3
      · rw [h3]
        simp
    · simp
  · intro hn
    cases fuel with
    | zero => simp [hostCall] at h
    | succ fuel =>
      rw [hostCall] at h
      simp only [hn, Option.some.injEq, Prod.mk.injEq] at h
      exact ⟨h.1.symm, h.2.symm⟩

/-- A heap with room for two frames (`include/process_sandbox/cxxsandbox.h:101`). -/
def two (l : List Nat) : Option Nat := if l.length < 2 then bump l else none

theorem two_honest : Honest two := by
  intro l a h
  rw [two] at h
  split at h
  · obtain ⟨b, h1, h2⟩ := bump_allocates l
    rw [h1] at h
    cases h
    exact h2
  · contradiction

/-- The function of `demo` that calls back and is called again: with room for two frames the third call throws, and
the exception ends the first one, whose frame and the next stay allocated. -/
example : (hostCall two demo 40 ⟨0, 0, 0, []⟩ 1 [7]).map (fun r => (r.1, r.2.frames.length)) = some (.threw, 2) := by
  decide +kernel

/-- For a smaller argument no third frame is needed. -/
example : (hostCall two demo 40 ⟨0, 0, 0, []⟩ 1 [2]).map (fun r => (r.1, r.2.frames.length)) = some (.value 1, 0) := by
  decide +kernel

end Verif.Nest
