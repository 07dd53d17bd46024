import Verif.Nest.Model

/-!
# Calls into the sandbox and callbacks out of it, nested: property C63
-/

namespace Verif.Nest

/-! ### Specification: direct calls, without shared memory -/

mutual

/-- How a function ends, if its callbacks are plain calls of the handlers. -/
inductive ProgEnds (w : World) : Prog → Out → Prop where
  | ret (v) : ProgEnds w (.ret v) (.value v)
  | exit : ProgEnds w .exit .threw
  | callback {k arg next u o} : HostEnds w (w.handlers k arg) (.value u) → ProgEnds w (next u) o → ProgEnds w (.callback k arg next) o
  | callbackBad {k arg next o} : HostEnds w (w.handlers k arg) o → (∀ v, o ≠ .value v) → ProgEnds w (.callback k arg next) o

/-- How a handler ends, if its calls are plain calls of the functions. -/
inductive HostEnds (w : World) : Host → Out → Prop where
  | done (v) : HostEnds w (.done v) (.value v)
  | call {idx args next f u o} : w.fns idx = some f → ProgEnds w (f args) (.value u) → HostEnds w (next u) o →
      HostEnds w (.call idx args next) o
  | callBad {idx args next f o} : w.fns idx = some f → ProgEnds w (f args) o → (∀ v, o ≠ .value v) → HostEnds w (.call idx args next) o
  | missing {idx args next} : w.fns idx = none → HostEnds w (.call idx args next) .ub

end

/-- How a plain call of the function with a number ends. -/
def CallEnds (w : World) (idx : Nat) (args : List Nat) (o : Out) : Prop :=
  match w.fns idx with
  | some f => ProgEnds w (f args) o
  | none => o = .ub

/-- An allocator that has room, and gives addresses that are not null and not in use. -/
def Allocates (pick : List Nat → Option Nat) : Prop := ∀ l, ∃ a, pick l = some a ∧ a ≠ 0 ∧ a ∉ l

/-- Shared memory as it was: nothing announced, the same depth and the same frames. -/
def Restored (s s' : Shared) : Prop := s'.buf = 0 ∧ s'.depth = s.depth ∧ s'.frames = s.frames

/-! ### C63 -/

variable {pick : List Nat → Option Nat} {w : World}

theorem ends_not_stuck :
    (∀ {p o}, ProgEnds w p o → o ≠ .stuck) ∧ (∀ {h o}, HostEnds w h o → o ≠ .stuck) := by
  constructor
  · intro p o h
    exact ProgEnds.rec (motive_1 := fun _ o _ => o ≠ .stuck) (motive_2 := fun _ o _ => o ≠ .stuck)
      (fun _ => by simp) (by simp) (fun _ _ _ h => h) (fun _ _ h => h) (fun _ => by simp) (fun _ _ _ _ h => h) (fun _ _ _ h => h)
      (fun _ => by simp) h
  · intro p o h
    exact HostEnds.rec (motive_1 := fun _ o _ => o ≠ .stuck) (motive_2 := fun _ o _ => o ≠ .stuck)
      (fun _ => by simp) (by simp) (fun _ _ _ h => h) (fun _ _ h => h) (fun _ => by simp) (fun _ _ _ _ h => h) (fun _ _ _ h => h)
      (fun _ => by simp) h

theorem lookup_head (a : Nat) (f : Frame) (l : List (Nat × Frame)) : List.lookup a ((a, f) :: l) = some f := by simp [List.lookup]

theorem setRet_head (a v : Nat) (f : Frame) (l : List (Nat × Frame)) (ha : a ∉ l.map (·.1)) :
    ((a, f) :: l).map (fun p => if p.1 = a then (p.1, { p.2 with ret := v }) else p) = (a, { f with ret := v }) :: l := by
  simp only [List.map_cons, if_true]
  congr 1
  induction l with
  | nil => rfl
  | cons q l ih =>
    simp only [List.map_cons, List.mem_cons, not_or] at ha
    rw [List.map_cons, ih ha.2]
    simp [show q.1 ≠ a from fun h => ha.1 h.symm]

theorem filter_head (a : Nat) (f : Frame) (l : List (Nat × Frame)) (ha : a ∉ l.map (·.1)) :
    ((a, f) :: l).filter (·.1 ≠ a) = l := by
  simp only [List.filter_cons, ne_eq, not_true_eq_false, decide_false, Bool.false_eq_true, if_false]
  induction l with
  | nil => rfl
  | cons q l ih =>
    simp only [List.map_cons, List.mem_cons, not_or] at ha
    rw [List.filter_cons, ih ha.2]
    simp [show q.1 ≠ a from fun h => ha.1 h.symm]

/-- What is proved of the four functions at once. -/
structure Level (pick : List Nat → Option Nat) (w : World) (fuel : Nat) : Prop where
  call : ∀ s idx args o s', s.buf = 0 → hostCall pick w fuel s idx args = some (o, s') →
    CallEnds w idx args o ∧ (∀ v, o = .value v → Restored s s') ∧ ((∀ v, o ≠ .value v) → s.frames.length < s'.frames.length)
  turn : ∀ s depth a fr l o s', a ≠ 0 → s.buf = a → s.frames = (a, fr) :: l → a ∉ l.map (·.1) →
    loopTurn pick w fuel s depth = some (o, s') →
    (∀ g, o = .value g → g = (if s.depth = depth then 1 else 0) ∧ s'.buf = 0 ∧ s'.depth = s.depth ∧
      ∃ v, CallEnds w s.idx fr.args (.value v) ∧ s'.frames = (a, { fr with ret := v }) :: l) ∧
    ((∀ g, o ≠ .value g) → CallEnds w s.idx fr.args o ∧ s.frames.length ≤ s'.frames.length)
  child : ∀ s p o s', s.buf = 0 → childRun pick w fuel s p = some (o, s') →
    ProgEnds w p o ∧ (∀ v, o = .value v → Restored s s') ∧ s.frames.length ≤ s'.frames.length
  host : ∀ s h o s', s.buf = 0 → hostRun pick w fuel s h = some (o, s') →
    HostEnds w h o ∧ (∀ v, o = .value v → Restored s s') ∧ s.frames.length ≤ s'.frames.length

theorem level_zero : Level pick w 0 := by
  constructor
  · intro s idx args o s' _ h
    simp [hostCall] at h
  · intro s depth a fr l o s' _ _ _ _ h
    simp [loopTurn] at h
  · intro s p o s' _ h
    simp [childRun] at h
  · intro s h o s' _ h
    simp [hostRun] at h

theorem turn_null (fuel : Nat) (s : Shared) (depth : Nat) (h : s.buf = 0) :
    loopTurn pick w (fuel + 1) s depth = some (.value (if s.depth = depth then 1 else 0), s) := by
  cases s
  simp only at h
  subst h
  simp [loopTurn]

theorem call_succ (hp : Allocates pick) {fuel : Nat} (ih : Level pick w fuel) (s : Shared) (idx : Nat) (args : List Nat) (o : Out) (s' : Shared)
    (_hb : s.buf = 0) (h : hostCall pick w (fuel + 1) s idx args = some (o, s')) :
    CallEnds w idx args o ∧ (∀ v, o = .value v → Restored s s') ∧ ((∀ v, o ≠ .value v) → s.frames.length < s'.frames.length) := by
  obtain ⟨a, ha, ha0, hal⟩ := hp (s.frames.map (·.1))
  rw [hostCall] at h
  simp only [ha] at h
  cases ht : loopTurn pick w fuel { s with idx := idx, buf := a, frames := (a, ⟨0, args⟩) :: s.frames } s.depth with
  | none => simp [ht] at h
  | some r =>
    obtain ⟨o1, s1⟩ := r
    have hturn := ih.turn _ _ a ⟨0, args⟩ s.frames o1 s1 ha0 rfl rfl hal ht
    simp only [ht] at h
    cases o1 with
    | value g =>
      obtain ⟨hg, hb1, hd1, v, hv, hf⟩ := hturn.1 g rfl
      simp only [if_true] at hg
      subst hg
      simp only [if_true, Shared.frame?, hf, lookup_head, Option.some.injEq, Prod.mk.injEq] at h
      obtain ⟨rfl, rfl⟩ := h
      refine ⟨hv, fun _ _ => ⟨hb1, hd1, ?_⟩, fun hn => absurd rfl (hn v)⟩
      simp only [Shared.free, hf]
      exact filter_head a _ _ hal
    | threw | ub | stuck =>
      simp only [Option.some.injEq, Prod.mk.injEq] at h
      obtain ⟨rfl, rfl⟩ := h
      obtain ⟨h1, h2⟩ := hturn.2 (by simp)
      refine ⟨h1, by simp, fun _ => ?_⟩
      simp only [List.length_cons] at h2
      exact h2

theorem turn_succ {fuel : Nat} (ih : Level pick w fuel) (s : Shared) (depth a : Nat) (fr : Frame) (l : List (Nat × Frame)) (o : Out) (s' : Shared)
    (ha : a ≠ 0) (hb : s.buf = a) (hf : s.frames = (a, fr) :: l) (hal : a ∉ l.map (·.1))
    (h : loopTurn pick w (fuel + 1) s depth = some (o, s')) :
    (∀ g, o = .value g → g = (if s.depth = depth then 1 else 0) ∧ s'.buf = 0 ∧ s'.depth = s.depth ∧
      ∃ v, CallEnds w s.idx fr.args (.value v) ∧ s'.frames = (a, { fr with ret := v }) :: l) ∧
    ((∀ g, o ≠ .value g) → CallEnds w s.idx fr.args o ∧ s.frames.length ≤ s'.frames.length) := by
  rw [loopTurn] at h
  simp only [hb, ha, if_false, Shared.frame?, hf, lookup_head] at h
  cases hfn : w.fns s.idx with
  | none =>
    simp only [hfn, Option.some.injEq, Prod.mk.injEq] at h
    obtain ⟨rfl, rfl⟩ := h
    exact ⟨by simp, fun _ => ⟨by simp [CallEnds, hfn], by simp [hf]⟩⟩
  | some f =>
    simp only [hfn] at h
    cases hc : childRun pick w fuel { depth := s.depth, idx := s.idx, buf := 0, frames := (a, fr) :: l } (f fr.args) with
    | none => simp [hc] at h
    | some r =>
      obtain ⟨o1, s1⟩ := r
      obtain ⟨c1, c2, c3⟩ := ih.child _ _ o1 s1 rfl hc
      simp only [hc] at h
      cases o1 with
      | value v =>
        simp only [Option.some.injEq, Prod.mk.injEq] at h
        obtain ⟨rfl, rfl⟩ := h
        obtain ⟨r1, r2, r3⟩ := c2 v rfl
        simp only at r2 r3
        refine ⟨fun g hg => ?_, fun hn => absurd rfl (hn _)⟩
        simp only [Out.value.injEq] at hg
        refine ⟨by rw [← hg, r2], r1, r2, v, by simpa [CallEnds, hfn] using c1, ?_⟩
        simp only [Shared.setRet, r3]
        exact setRet_head a v fr l hal
      | threw | ub | stuck =>
        simp only [Option.some.injEq, Prod.mk.injEq] at h
        obtain ⟨rfl, rfl⟩ := h
        exact ⟨by simp, fun _ => ⟨by simpa [CallEnds, hfn] using c1, by rw [hf]; exact c3⟩⟩

theorem child_succ {fuel : Nat} (ih : Level pick w fuel) (s : Shared) (p : Prog) (o : Out) (s' : Shared) (hb : s.buf = 0)
    (h : childRun pick w (fuel + 1) s p = some (o, s')) :
    ProgEnds w p o ∧ (∀ v, o = .value v → Restored s s') ∧ s.frames.length ≤ s'.frames.length := by
  cases p with
  | ret v =>
    simp only [childRun, Option.some.injEq, Prod.mk.injEq] at h
    obtain ⟨rfl, rfl⟩ := h
    exact ⟨.ret v, fun _ _ => ⟨hb, rfl, rfl⟩, Nat.le_refl _⟩
  | exit =>
    simp only [childRun, Option.some.injEq, Prod.mk.injEq] at h
    obtain ⟨rfl, rfl⟩ := h
    exact ⟨.exit, by simp, Nat.le_refl _⟩
  | callback k arg next =>
    rw [childRun] at h
    simp only at h
    cases hh : hostRun pick w fuel { s with depth := s.depth + 1 } (w.handlers k arg) with
    | none => simp [hh] at h
    | some r =>
      obtain ⟨o1, s1⟩ := r
      obtain ⟨a1, a2, a3⟩ := ih.host { s with depth := s.depth + 1 } _ o1 s1 hb hh
      simp only at a3
      simp only [hh] at h
      cases o1 with
      | value u =>
        obtain ⟨r1, r2, r3⟩ := a2 u rfl
        simp only at r2 r3
        cases fuel with
        | zero => simp [loopTurn] at h
        | succ fuel =>
          have hne : ¬ s1.depth - 1 = s.depth + 1 := by omega
          simp only at h
          rw [turn_null fuel _ _ (by exact r1)] at h
          simp only [hne, if_false, show ¬ (0 = 1) by decide] at h
          obtain ⟨b1, b2, b3⟩ := ih.child _ _ o s' (by exact r1) h
          refine ⟨.callback a1 b1, fun v hv => ?_, ?_⟩
          · obtain ⟨q1, q2, q3⟩ := b2 v hv
            simp only at q2 q3
            exact ⟨q1, by rw [q2, r2]; rfl, by rw [q3, r3]⟩
          · simp only at b3
            omega
      | threw | ub | stuck =>
        simp only [Option.some.injEq, Prod.mk.injEq] at h
        obtain ⟨rfl, rfl⟩ := h
        exact ⟨.callbackBad a1 (by simp), by simp, a3⟩

theorem host_succ {fuel : Nat} (ih : Level pick w fuel) (s : Shared) (p : Host) (o : Out) (s' : Shared) (hb : s.buf = 0)
    (h : hostRun pick w (fuel + 1) s p = some (o, s')) :
    HostEnds w p o ∧ (∀ v, o = .value v → Restored s s') ∧ s.frames.length ≤ s'.frames.length := by
  cases p with
  | done v =>
    simp only [hostRun, Option.some.injEq, Prod.mk.injEq] at h
    obtain ⟨rfl, rfl⟩ := h
    exact ⟨.done v, fun _ _ => ⟨hb, rfl, rfl⟩, Nat.le_refl _⟩
  | call idx args next =>
    rw [hostRun] at h
    cases hh : hostCall pick w fuel s idx args with
    | none => simp [hh] at h
    | some r =>
      obtain ⟨o1, s1⟩ := r
      obtain ⟨a1, a2, a3⟩ := ih.call _ _ _ o1 s1 hb hh
      simp only [hh] at h
      cases o1 with
      | value u =>
        obtain ⟨r1, r2, r3⟩ := a2 u rfl
        obtain ⟨b1, b2, b3⟩ := ih.host _ _ o s' r1 h
        cases hf : w.fns idx with
        | none => simp [CallEnds, hf] at a1
        | some f =>
          refine ⟨.call hf (by simpa [CallEnds, hf] using a1) b1, fun v hv => ?_, by rw [r3] at b3; exact b3⟩
          obtain ⟨q1, q2, q3⟩ := b2 v hv
          exact ⟨q1, by rw [q2, r2], by rw [q3, r3]⟩
      | threw | ub | stuck =>
        simp only [Option.some.injEq, Prod.mk.injEq] at h
        obtain ⟨rfl, rfl⟩ := h
        refine ⟨?_, by simp, Nat.le_of_lt (a3 (by simp))⟩
        cases hf : w.fns idx with
        | none =>
          simp only [CallEnds, hf] at a1
          first | (rw [a1]; exact .missing hf) | exact .missing hf | cases a1
        | some f => exact .callBad hf (by simpa [CallEnds, hf] using a1) (by simp)

theorem level (hp : Allocates pick) : ∀ fuel, Level pick w fuel
  | 0 => level_zero
  | fuel + 1 =>
    have ih := level hp fuel
    ⟨call_succ hp ih, turn_succ ih, child_succ ih, host_succ ih⟩

/-! How much recursion a call needs. -/

/-- With this much recursion the program ends so, from any shared memory with nothing announced. -/
def EndsIn (pick : List Nat → Option Nat) (w : World) (p : Prog) (o : Out) (N : Nat) : Prop :=
  ∀ fuel, N ≤ fuel → ∀ s : Shared, s.buf = 0 → ∃ s', childRun pick w fuel s p = some (o, s')

/-- The same for a handler. -/
def HostEndsIn (pick : List Nat → Option Nat) (w : World) (h : Host) (o : Out) (N : Nat) : Prop :=
  ∀ fuel, N ≤ fuel → ∀ s : Shared, s.buf = 0 → ∃ s', hostRun pick w fuel s h = some (o, s')

theorem call_in (hp : Allocates pick) {idx : Nat} {f : List Nat → Prog} (hf : w.fns idx = some f) {args : List Nat} {o : Out} {N : Nat}
    (h : EndsIn pick w (f args) o N) (fuel : Nat) (hN : N + 2 ≤ fuel) (s : Shared) (_hb : s.buf = 0) :
    ∃ s', hostCall pick w fuel s idx args = some (o, s') := by
  obtain ⟨fuel, rfl⟩ : ∃ k, fuel = k + 2 := ⟨fuel - 2, by omega⟩
  obtain ⟨a, ha, ha0, hal⟩ := hp (s.frames.map (·.1))
  obtain ⟨s1, h1⟩ := h fuel (by omega) { s with idx := idx, buf := 0, frames := (a, ⟨0, args⟩) :: s.frames } rfl
  obtain ⟨_, c2, _⟩ := (level hp fuel).child _ _ _ _ rfl h1
  rw [hostCall]
  simp only [ha, loopTurn, ha0, if_false, hf, Shared.frame?, lookup_head, h1]
  cases o with
  | value v =>
    obtain ⟨_, r2, r3⟩ := c2 v rfl
    simp only at r2 r3
    simp only [r2, if_true, Shared.setRet, r3]
    rw [setRet_head a v _ _ hal]
    simp
  | threw | ub | stuck => simp

theorem call_missing (hp : Allocates pick) {idx : Nat} (hf : w.fns idx = none) {args : List Nat} (fuel : Nat) (hN : 2 ≤ fuel) (s : Shared) :
    ∃ s', hostCall pick w fuel s idx args = some (.ub, s') := by
  obtain ⟨fuel, rfl⟩ : ∃ k, fuel = k + 2 := ⟨fuel - 2, by omega⟩
  obtain ⟨a, ha, ha0, hal⟩ := hp (s.frames.map (·.1))
  rw [hostCall]
  simp [ha, loopTurn, ha0, hf]

theorem ends_callback (hp : Allocates pick) {k arg next u o} {N M : Nat} (h1 : HostEndsIn pick w (w.handlers k arg) (.value u) N)
    (h2 : EndsIn pick w (next u) o M) : EndsIn pick w (.callback k arg next) o (N + M + 2) := by
  intro fuel hN s hb
  obtain ⟨fuel, rfl⟩ : ∃ k, fuel = k + 2 := ⟨fuel - 2, by omega⟩
  obtain ⟨s1, hs1⟩ := h1 (fuel + 1) (by omega) { s with depth := s.depth + 1 } hb
  obtain ⟨_, c2, _⟩ := (level hp (fuel + 1)).host { s with depth := s.depth + 1 } _ _ _ hb hs1
  obtain ⟨r1, r2, _⟩ := c2 u rfl
  simp only at r2
  obtain ⟨s2, hs2⟩ := h2 (fuel + 1) (by omega) { s1 with depth := s1.depth - 1 } r1
  have hne : ¬ s1.depth - 1 = s.depth + 1 := by omega
  refine ⟨s2, ?_⟩
  rw [childRun]
  simp only [hs1]
  rw [turn_null fuel _ _ (by exact r1)]
  simp only [hne, if_false, show ¬ (0 = 1) by decide, hs2]

theorem ends_callback_bad {k arg next o} {N : Nat} (h1 : HostEndsIn pick w (w.handlers k arg) o N) (ho : ∀ v, o ≠ .value v) :
    EndsIn pick w (.callback k arg next) o (N + 1) := by
  intro fuel hN s hb
  obtain ⟨fuel, rfl⟩ : ∃ k, fuel = k + 1 := ⟨fuel - 1, by omega⟩
  obtain ⟨s1, hs1⟩ := h1 fuel (by omega) { s with depth := s.depth + 1 } hb
  rw [childRun]
  simp only [hs1]
  cases o with
  | value v => exact absurd rfl (ho v)
  | threw | ub | stuck => exact ⟨_, rfl⟩

theorem host_call (hp : Allocates pick) {idx args next f u o} {N M : Nat} (hf : w.fns idx = some f)
    (h1 : EndsIn pick w (f args) (.value u) N) (h2 : HostEndsIn pick w (next u) o M) :
    HostEndsIn pick w (.call idx args next) o (N + M + 3) := by
  intro fuel hN s hb
  obtain ⟨fuel, rfl⟩ : ∃ k, fuel = k + 1 := ⟨fuel - 1, by omega⟩
  obtain ⟨s1, hs1⟩ := call_in hp hf h1 fuel (by omega) s hb
  obtain ⟨_, c2, _⟩ := (level hp fuel).call _ _ _ _ _ hb hs1
  obtain ⟨s2, hs2⟩ := h2 fuel (by omega) s1 (c2 u rfl).1
  exact ⟨s2, by rw [hostRun]; simp only [hs1, hs2]⟩

theorem host_call_bad (hp : Allocates pick) {idx args next f o} {N : Nat} (hf : w.fns idx = some f)
    (h1 : EndsIn pick w (f args) o N) (ho : ∀ v, o ≠ .value v) : HostEndsIn pick w (.call idx args next) o (N + 3) := by
  intro fuel hN s hb
  obtain ⟨fuel, rfl⟩ : ∃ k, fuel = k + 1 := ⟨fuel - 1, by omega⟩
  obtain ⟨s1, hs1⟩ := call_in hp hf h1 fuel (by omega) s hb
  rw [hostRun]
  simp only [hs1]
  cases o with
  | value v => exact absurd rfl (ho v)
  | threw | ub | stuck => exact ⟨_, rfl⟩

theorem prog_enough (hp : Allocates pick) {p : Prog} {o : Out} (h : ProgEnds w p o) : ∃ N, EndsIn pick w p o N := by
  refine ProgEnds.rec (motive_1 := fun p o _ => ∃ N, EndsIn pick w p o N) (motive_2 := fun h o _ => ∃ N, HostEndsIn pick w h o N)
    ?_ ?_ ?_ ?_ ?_ ?_ ?_ ?_ h
  · intro v
    refine ⟨1, fun fuel hN s _ => ⟨s, ?_⟩⟩
    obtain ⟨fuel, rfl⟩ : ∃ k, fuel = k + 1 := ⟨fuel - 1, by omega⟩
    rw [childRun]
  · refine ⟨1, fun fuel hN s _ => ⟨s, ?_⟩⟩
    obtain ⟨fuel, rfl⟩ : ∃ k, fuel = k + 1 := ⟨fuel - 1, by omega⟩
    rw [childRun]
  · rintro k arg next u o _ _ ⟨N, hN⟩ ⟨M, hM⟩
    exact ⟨_, ends_callback hp hN hM⟩
  · rintro k arg next o _ ho ⟨N, hN⟩
    exact ⟨_, ends_callback_bad hN ho⟩
  · intro v
    refine ⟨1, fun fuel hN s _ => ⟨s, ?_⟩⟩
    obtain ⟨fuel, rfl⟩ : ∃ k, fuel = k + 1 := ⟨fuel - 1, by omega⟩
    rw [hostRun]
  · rintro idx args next f u o hf _ _ ⟨N, hN⟩ ⟨M, hM⟩
    exact ⟨_, host_call hp hf hN hM⟩
  · rintro idx args next f o hf _ ho ⟨N, hN⟩
    exact ⟨_, host_call_bad hp hf hN ho⟩
  · intro idx args next hf
    refine ⟨3, fun fuel hN s _ => ?_⟩
    obtain ⟨fuel, rfl⟩ : ∃ k, fuel = k + 1 := ⟨fuel - 1, by omega⟩
    obtain ⟨s1, hs1⟩ := call_missing (args := args) hp hf fuel (by omega) s
    exact ⟨s1, by rw [hostRun]; simp only [hs1]⟩

/-- **C63, both directions (partial).**  A call through shared memory ends exactly as a plain call would, with functions and handlers calling each
other to any depth: it never waits for ever, and if it returns, shared memory is as it was (nothing announced, same depth, every
frame freed).  What is missing: calls that throw, see `throwing_leaks`; and sandboxes that do not follow the protocol. -/
theorem nested_call_partial (hp : Allocates pick) (s : Shared) (hb : s.buf = 0) (idx : Nat) (args : List Nat) (o : Out) :
    (∃ fuel s', hostCall pick w fuel s idx args = some (o, s')) ↔ CallEnds w idx args o := by
  constructor
  · rintro ⟨fuel, s', h⟩
    exact ((level hp fuel).call s idx args o s' hb h).1
  · intro h
    cases hf : w.fns idx with
    | none =>
      simp only [CallEnds, hf] at h
      subst h
      exact ⟨2, call_missing hp hf 2 (by omega) s⟩
    | some f =>
      simp only [CallEnds, hf] at h
      obtain ⟨N, hN⟩ := prog_enough hp h
      exact ⟨N + 2, call_in hp hf hN (N + 2) (Nat.le_refl _) s hb⟩

/-- **C63, what is left behind.**  A call that returns leaves shared memory as it was. -/
theorem nested_call_restores (hp : Allocates pick) {fuel : Nat} {s s' : Shared} (hb : s.buf = 0) {idx : Nat} {args : List Nat} {v : Nat}
    (h : hostCall pick w fuel s idx args = some (.value v, s')) : Restored s s' :=
  ((level hp fuel).call s idx args _ s' hb h).2.1 v rfl

/-- A call never ends with both sides waiting for each other. -/
theorem nested_call_not_stuck (hp : Allocates pick) {fuel : Nat} {s s' : Shared} (hb : s.buf = 0) {idx : Nat} {args : List Nat} {o : Out}
    (h : hostCall pick w fuel s idx args = some (o, s')) : o ≠ .stuck := by
  have h1 := ((level hp fuel).call s idx args _ s' hb h).1
  rw [CallEnds] at h1
  split at h1
  · exact ends_not_stuck.1 h1
  · rw [h1]
    simp

/-- **C63 fails for calls that throw.**  Whenever a call throws although there was room for its frame, a frame stays allocated. -/
theorem throwing_leaks (hp : Allocates pick) {fuel : Nat} {s s' : Shared} (hb : s.buf = 0) {idx : Nat} {args : List Nat}
    (h : hostCall pick w fuel s idx args = some (.threw, s')) : s.frames.length < s'.frames.length :=
  ((level hp fuel).call s idx args _ s' hb h).2.2 (by simp)

/-! A concrete case: `fib` in the sandbox, which calls back for each smaller value, for which the handler calls it again. -/

/-- An allocator: one more than the largest address in use. -/
def bump (l : List Nat) : Option Nat := some (l.foldr max 0 + 1)

theorem bump_allocates : Allocates bump := by
  intro l
  refine ⟨_, rfl, by omega, fun h => ?_⟩
  have : ∀ (l : List Nat) (x : Nat), x ∈ l → x ≤ l.foldr max 0 := by
    intro l
    induction l with
    | nil => simp
    | cons y l ih =>
      intro x hx
      simp only [List.foldr_cons]
      rcases List.mem_cons.mp hx with rfl | hx
      · omega
      · have := ih x hx
        omega
  have := this l _ h
  omega

/-- Function 1 is `fib` through callbacks, function 2 ends the process when called back. -/
def demo : World where
  fns n :=
    if n = 1 then
      some fun args =>
        match args with
        | [n] => if n < 2 then .ret n else .callback 0 (n - 1) fun a => .callback 0 (n - 2) fun b => .ret (a + b)
        | _ => .exit
    else if n = 2 then some fun _ => .callback 1 5 fun _ => .exit
    else none
  handlers k arg := if k = 0 then .call 1 [arg] .done else .done arg

example : (hostCall bump demo 40 ⟨0, 0, 0, []⟩ 1 [7]).map (fun r => (r.1, r.2.frames, r.2.depth, r.2.buf)) = some (.value 13, [], 0, 0) := by
  decide +kernel

example : (hostCall bump demo 40 ⟨0, 0, 0, []⟩ 2 [7]).map (fun r => (r.1, r.2.frames.length)) = some (.threw, 1) := by
  decide +kernel

end Verif.Nest
