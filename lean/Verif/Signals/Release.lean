import Verif.Signals.BreakProps
import Verif.Signals.Closing

/-!
# Signal handlers: all harmless places (property C107)

`is_child_executing` (`include/process_sandbox/shared_memory_region.h:72-78`) is only looked at by assertions.  Without
them two more places are harmless, that where the sandbox is about to report a return and that where the loader has ended.
-/

namespace Verif.Signals.Spec

open Verif.Token Verif.Token.Spec

/-- The places of `QuietOrLeaving`; in a release build also that just before `parent.wake()` at the end of a function
(`src/library_runner.cc:344-345`) and that between `is_child_executing = false` and `is_child_loaded = true`
(`src/library_runner.cc:1115-1116`). -/
def Calm (dbg : Bool) (s : St) : Prop :=
  QuietOrLeaving s ∨ dbg = false ∧ s.sh.shouldExit = false ∧ match s.cp with
    | .r6 n => s.sh.depth = n
    | .ld => True
    | _ => False

/-- All actions are co-operative, and signals arrive only at the places of `Calm`
(`src/library_runner.cc:307-475`). -/
def CalmRun (dbg : Bool) (s : SSt) : List SAct → Prop
  | [] => True
  | a :: as =>
    (match a with
      | .base b => Coop s.st b
      | .signal => Calm dbg s.st
      | .sigret => True) ∧ ∀ s' es, sstep dbg s a = some (s', es) → CalmRun dbg s' as

end Verif.Signals.Spec

namespace Verif.Signals

open Verif.Token Verif.Token.Spec Spec

/-! A run with signals at the new places is one with signals at the places before them, where `is_child_executing` has yet
to be cleared, if that flag is left out of account. -/

private def late : CPc → CPc
  | .r6 n => .r5 n
  | .ld => .run none
  | c => c

private def lagSt (b : Bool) (s : St) : St := { s with sh := { s.sh with executing := b }, cp := late s.cp }

private def lag (b : Bool) (s : SSt) : SSt := ⟨lagSt b s.st, s.frames.map fun f => (late f.1, f.2)⟩

/-- The newest handler, if there is one, began with another number of suspended callbacks. -/
private def HeadNe (k : Nat) : List (CPc × Nat) → Prop
  | [] => True
  | (_, n) :: _ => k ≠ n

private def LdFrames : List (CPc × Nat) → Prop
  | [] => True
  | (c, n) :: fs => (c = .ld → HeadNe n fs) ∧ LdFrames fs

/-- The loader ends only outside handlers. -/
private structure LdOk (s : SSt) : Prop where
  now : s.st.cp = .ld → HeadNe s.st.cs.length s.frames
  below : LdFrames s.frames

private theorem inBody_lag (b : Bool) {s : SSt} (hd : LdOk s) : inBody (lag b s) = inBody s := by
  obtain ⟨s, fs⟩ := s
  rcases fs with _ | ⟨⟨c, n⟩, fs⟩
  · rfl
  · rcases s with ⟨_, _, _, _, _, _, _, _, cp⟩
    cases cp <;> try rfl
    have : _ ≠ n := hd.now rfl
    simpa [inBody, lag, lagSt, late] using this

/-- How the loader ends. -/
private theorem to_ld {s s' : St} {es : List Ev} {a : Act} (h : step false s a = some (s', es)) (hl : s'.cp = .ld) :
    a = .ret ∧ s.cp = .run none ∧ s'.cs = s.cs ∨ s.cp = .ld ∧ s'.cs = s.cs := by
  obtain ⟨sh, reqs, reps, nx, dead, ps, pp, cs, cp⟩ := s
  cases a with
  | parent =>
    simp only [step] at h
    cases pp <;> simp only [parentStep, startHandler, wakeChild] at h <;> grind
  | child =>
    simp only [step] at h
    cases cp <;> simp only [childStep, wakeParent] at h <;> grind
  | _ => simp only [step] at h <;> grind

private theorem ldOk_step {s s' : SSt} {a : SAct} {es : List Ev} (hd : LdOk s) (h : sstep false s a = some (s', es)) :
    LdOk s' := by
  cases a with
  | signal =>
    simp only [sstep] at h
    split at h
    · contradiction
    · split at h
      · contradiction
      · rename_i c hc
        simp only [Option.some.injEq, Prod.mk.injEq] at h
        obtain ⟨rfl, -⟩ := h
        refine ⟨fun hx => ?_, hd.now, hd.below⟩
        simp only at hx
        subst hx
        generalize s.st.cp = d at hc
        cases d <;> simp [entry] at hc
  | sigret =>
    obtain ⟨st, fs⟩ := s
    rcases fs with _ | ⟨⟨c, n⟩, fs⟩
    · simp [sstep] at h
    · simp only [sstep] at h
      split at h
      · rename_i hb
        simp only [Option.some.injEq, Prod.mk.injEq] at h
        obtain ⟨rfl, -⟩ := h
        have hn : st.cs.length = n := by
          have := hb.1
          simp only [inBody] at this
          split at this
          · rename_i heq _
            simp only [List.cons.injEq, Prod.mk.injEq] at heq
            obtain ⟨⟨-, rfl⟩, -⟩ := heq
            simpa using this
          · cases this
        refine ⟨fun hx => ?_, hd.below.2⟩
        simp only at hx ⊢
        rw [hn]
        exact hd.below.1 hx
      · contradiction
  | base a =>
    simp only [sstep] at h
    split at h
    · contradiction
    · rename_i hb
      rcases hs : step false s.st a with _ | ⟨st1, e1⟩
      · simp [hs] at h
      simp only [hs, Option.some.injEq, Prod.mk.injEq] at h
      obtain ⟨rfl, rfl⟩ := h
      refine ⟨fun hx => ?_, hd.below⟩
      simp only at hx ⊢
      rcases to_ld hs hx with ⟨rfl, h1, h2⟩ | ⟨h1, h2⟩
      · rw [h2]
        have hb' : inBody s ≠ true := fun h => hb ⟨rfl, h⟩
        obtain ⟨st, fs⟩ := s
        rcases fs with _ | ⟨⟨c, n⟩, fs⟩
        · trivial
        · simp only at h1
          show st.cs.length ≠ n
          simpa [inBody, h1] using hb'
      · rw [h2]
        exact hd.now h1

private theorem entry_late (c : CPc) : entry (late c) = entry c := by cases c <;> rfl

private theorem late_entry {c d : CPc} (h : entry c = some d) : late d = d := by
  cases c <;> simp [entry] at h <;> subst h <;> rfl

/-- The steps of the host and of the library. -/
private theorem lag_step {s s' : St} {es : List Ev} {a : Act} (b : Bool) (ha : a ≠ .child) (hw : ∀ sh, a ≠ .write sh)
    (hn : ¬ (a = .ret ∧ s.cp = .run none)) (h : step false s a = some (s', es)) : ∃ b', step false (lagSt b s) a = some (lagSt b' s', es) := by
  obtain ⟨sh, reqs, reps, next, dead, ps, pp, cs, cp⟩ := s
  cases a with
  | child => exact absurd rfl ha
  | write sh => exact absurd rfl (hw sh)
  | parent =>
    cases pp <;>
      simp only [step, parentStep, lagSt, wakeChild, startHandler, Bool.false_eq_true, false_and, if_false] at h ⊢ <;>
      (try split at h) <;> (try contradiction) <;> (try split at h) <;> (try contradiction) <;>
      simp only [Option.some.injEq, Prod.mk.injEq] at h <;> obtain ⟨rfl, rfl⟩ := h <;>
      first
        | exact ⟨b, rfl⟩
        | exact ⟨true, rfl⟩
        | exact ⟨b, by simp_all⟩
        | exact ⟨true, by simp_all⟩
  | _ =>
    simp only [step, lagSt] at h ⊢ <;>
      (try split at h) <;> (try contradiction) <;> (try split at h) <;> (try contradiction) <;>
      simp only [Option.some.injEq, Prod.mk.injEq] at h <;> obtain ⟨rfl, rfl⟩ := h <;>
      first
        | exact ⟨b, rfl⟩
        | exact ⟨false, rfl⟩
        | (refine ⟨b, ?_⟩; simp_all [late]; done)
        | (refine ⟨false, ?_⟩; simp_all [late]; done)

/-- The steps of the sandbox, but for the last two of a function. -/
private theorem lag_child {s s' : St} {es : List Ev} (b : Bool) (h5 : ∀ n, s.cp ≠ .r5 n) (h6 : ∀ n, s.cp ≠ .r6 n)
    (hl : s.cp ≠ .ld) (h : step false s .child = some (s', es)) : ∃ b', step false (lagSt b s) .child = some (lagSt b' s', es) := by
  obtain ⟨sh, reqs, reps, next, dead, ps, pp, cs, cp⟩ := s
  cases cp <;>
    simp only [step, childStep, lagSt, wakeParent, late, Bool.false_eq_true, false_and, if_false] at h ⊢
  case r5 n => exact absurd rfl (h5 n)
  case r6 n => exact absurd rfl (h6 n)
  case ld => exact absurd rfl hl
  all_goals
    (try split at h) <;> (try contradiction) <;> (try split at h) <;> (try contradiction) <;>
      (try split at h) <;> (try contradiction) <;>
      simp only [Option.some.injEq, Prod.mk.injEq] at h <;> obtain ⟨rfl, rfl⟩ := h <;>
      first
        | exact ⟨b, rfl⟩
        | exact ⟨false, rfl⟩
        | (refine ⟨b, ?_⟩; simp_all; done)
        | (refine ⟨false, ?_⟩; simp_all; done)

private theorem coop_lag {s : St} (b : Bool) {a : Act} (h : Coop s a) : Coop (lagSt b s) a := by
  cases a <;> exact h

private theorem quiet_lag {s : St} (b : Bool) (h : Calm false s) : QuietOrLeaving (lagSt b s) := by
  obtain ⟨sh, reqs, reps, next, dead, ps, pp, cs, cp⟩ := s
  rcases h with (⟨h1, h2⟩ | h1) | ⟨-, h1, h2⟩
  · refine .inl ?_
    cases cp <;> first | exact ⟨h1, h2⟩ | cases h2
  · exact .inr h1
  · refine .inl ?_
    cases cp <;> first | exact ⟨h1, h2⟩ | cases h2

private theorem one_step {s s1 s' : SSt} {a : SAct} {as : List SAct} {es1 es : List Ev}
    (hq : match a with
      | .base b => Coop s.st b
      | .signal => QuietOrLeaving s.st
      | .sigret => True) (h1 : sstep false s a = some (s1, es1)) (h2 : QuietOrLeavingRun false s1 as)
    (h3 : srun false s1 as = some (s', es)) :
    QuietOrLeavingRun false s (a :: as) ∧ srun false s (a :: as) = some (s', es1 ++ es) := by
  refine ⟨⟨hq, fun s2 es2 h => ?_⟩, by simp only [srun, h1, h3]⟩
  rw [h1] at h
  simp only [Option.some.injEq, Prod.mk.injEq] at h
  rw [← h.1]
  exact h2

/-- A run with signals at the new place, seen as one without. -/
private theorem lag_run (as : List SAct) : ∀ {s s' : SSt} {es : List Ev} (b : Bool), LdOk s → CalmRun false s as →
    srun false s as = some (s', es) →
    ∃ b' bs, QuietOrLeavingRun false (lag b s) bs ∧ srun false (lag b s) bs = some (lag b' s', es) := by
  induction as with
  | nil =>
    intro s s' es b _ _ h
    simp only [srun, Option.some.injEq, Prod.mk.injEq] at h
    obtain ⟨rfl, rfl⟩ := h
    exact ⟨b, [], trivial, rfl⟩
  | cons a as ih =>
    intro s s' es b hd hc h
    simp only [srun] at h
    rcases h1 : sstep false s a with _ | ⟨s1, es1⟩
    · simp [h1] at h
    simp only [h1] at h
    rcases h2 : srun false s1 as with _ | ⟨s2, es2⟩
    · simp [h2] at h
    simp only [h2, Option.some.injEq, Prod.mk.injEq] at h
    obtain ⟨rfl, rfl⟩ := h
    have hrest := fun b => ih b (ldOk_step hd h1) (hc.2 _ _ h1) h2
    -- one step for one step
    have hone : (∃ b', sstep false (lag b s) a = some (lag b' s1, es1)) →
        ∃ b' bs, QuietOrLeavingRun false (lag b s) bs ∧ srun false (lag b s) bs = some (lag b' s2, es1 ++ es2) := by
      rintro ⟨b1, h3⟩
      obtain ⟨b2, bs, k1, k2⟩ := hrest b1
      refine ⟨b2, a :: bs, one_step ?_ h3 k1 k2⟩
      have hc1 := hc.1
      cases a with
      | base a => exact coop_lag b hc1
      | signal => exact quiet_lag b hc1
      | sigret => trivial
    cases a with
    | signal =>
      apply hone
      refine ⟨b, ?_⟩
      simp only [sstep] at h1 ⊢
      show (if s.st.dead then none else match entry (late s.st.cp) with
        | none => none
        | some c => some (_, [])) = _
      rw [entry_late]
      split at h1
      · contradiction
      · rename_i hd
        rw [if_neg hd]
        split at h1
        · contradiction
        · rename_i c hc
          simp only [Option.some.injEq, Prod.mk.injEq] at h1
          obtain ⟨rfl, rfl⟩ := h1
          simp only [hc]
          simp only [lag, lagSt, late_entry hc, List.map_cons]
    | sigret =>
      apply hone
      refine ⟨b, ?_⟩
      obtain ⟨st, fs⟩ := s
      rcases fs with _ | ⟨⟨c, n⟩, fs⟩
      · simp [sstep] at h1
      · have hb := inBody_lag b hd
        simp only [sstep] at h1
        split at h1
        · rename_i hx
          simp only [Option.some.injEq, Prod.mk.injEq] at h1
          obtain ⟨rfl, rfl⟩ := h1
          show (if inBody (lag b ⟨st, (c, n) :: fs⟩) = true ∧ st.dead = false then _ else _) = _
          rw [hb, if_pos hx]
          rfl
        · contradiction
    | base a =>
      simp only [sstep] at h1
      split at h1
      · contradiction
      · rename_i hb
        rcases hs : step false s.st a with _ | ⟨st1, e1⟩
        · simp [hs] at h1
        simp only [hs, Option.some.injEq, Prod.mk.injEq] at h1
        obtain ⟨rfl, rfl⟩ := h1
        have up : (∃ b', step false (lagSt b s.st) a = some (lagSt b' st1, e1)) →
            ∃ b', sstep false (lag b s) (.base a) = some (lag b' { s with st := st1 }, e1) := by
          rintro ⟨b', h3⟩
          refine ⟨b', ?_⟩
          simp only [sstep, inBody_lag b hd, if_neg hb]
          show (match step false (lagSt b s.st) a with
            | none => none
            | some (st, es) => some (_, es)) = _
          rw [h3]
          rfl
        by_cases ha : a = .child
        · subst ha
          by_cases h5 : ∃ n, s.st.cp = .r5 n
          · -- the sandbox clears the flag: nothing happens yet
            obtain ⟨n, h5⟩ := h5
            obtain ⟨⟨sh, reqs, reps, next, dead, ps, pp, cs, cp⟩, fs⟩ := s
            simp only at h5
            subst h5
            simp only [step, childStep] at hs
            split at hs
            · contradiction
            · simp only [Option.some.injEq, Prod.mk.injEq] at hs
              obtain ⟨rfl, rfl⟩ := hs
              exact hrest b
          · by_cases h6 : ∃ n, s.st.cp = .r6 n
            · -- it reports the return: both steps at once
              obtain ⟨n, h6⟩ := h6
              obtain ⟨⟨sh, reqs, reps, next, dead, ps, pp, cs, cp⟩, fs⟩ := s
              simp only at h6
              subst h6
              simp only [step, childStep] at hs
              split at hs
              · contradiction
              · rename_i hd
                simp only [Option.some.injEq, Prod.mk.injEq] at hs
                obtain ⟨rfl, rfl⟩ := hs
                obtain ⟨b2, bs, k1, k2⟩ := hrest false
                refine ⟨b2, .base .child :: .base .child :: bs, ?_⟩
                have k := one_step (s := lag false ⟨⟨sh, reqs, reps, next, dead, ps, pp, cs, .r6 n⟩, fs⟩ |> fun t =>
                    { t with st := { t.st with cp := .r6 n } }) (a := .base .child) (es1 := []) trivial (by
                  by_cases hp : sh.parent = 0 <;>
                    simp [sstep, step, childStep, lag, lagSt, wakeParent, late, hp, hd]) k1 k2
                have k' := one_step (s := lag b ⟨⟨sh, reqs, reps, next, dead, ps, pp, cs, .r6 n⟩, fs⟩)
                  (a := .base .child) (es1 := []) trivial (by
                  simp [sstep, step, childStep, lag, lagSt, late, hd]) k.1 k.2
                exact k'
            · by_cases hl : s.st.cp = .ld
              · -- the sandbox has loaded: both steps at once
                have hnb := inBody_lag b hd
                obtain ⟨⟨sh, reqs, reps, next, dead, ps, pp, cs, cp⟩, fs⟩ := s
                simp only at hl
                subst hl
                simp only [step, childStep] at hs
                split at hs
                · contradiction
                · rename_i hdd
                  simp only [Option.some.injEq, Prod.mk.injEq] at hs
                  obtain ⟨rfl, rfl⟩ := hs
                  obtain ⟨b2, bs, k1, k2⟩ := hrest false
                  refine ⟨b2, .base .ret :: .base .child :: bs, ?_⟩
                  have k := one_step (s := lag false ⟨⟨sh, reqs, reps, next, dead, ps, pp, cs, .ld⟩, fs⟩ |> fun t =>
                      { t with st := { t.st with cp := .ld } }) (a := .base .child) (es1 := [.loaded]) trivial (by
                    simp [sstep, step, childStep, lag, lagSt, late, hdd]) k1 k2
                  have hnb' : inBody (lag b ⟨⟨sh, reqs, reps, next, dead, ps, pp, cs, .ld⟩, fs⟩) = false := by
                    rw [hnb]
                    cases fs <;> rfl
                  have k' := one_step (s := lag b ⟨⟨sh, reqs, reps, next, dead, ps, pp, cs, .ld⟩, fs⟩)
                    (a := .base .ret) (es1 := []) trivial (by
                    simp only [sstep, hnb', Bool.false_eq_true, and_false, if_false]
                    simp [step, lag, lagSt, late, hdd]) k.1 k.2
                  exact k'
              · exact hone (up (lag_child b (fun n h => h5 ⟨n, h⟩) (fun n h => h6 ⟨n, h⟩) hl hs))
        · by_cases hn : a = .ret ∧ s.st.cp = .run none
          · -- the loader ends: nothing happens yet
            obtain ⟨rfl, hn⟩ := hn
            obtain ⟨⟨sh, reqs, reps, next, dead, ps, pp, cs, cp⟩, fs⟩ := s
            simp only at hn
            subst hn
            simp only [step] at hs
            split at hs
            · contradiction
            · simp only [Option.some.injEq, Prod.mk.injEq] at hs
              obtain ⟨rfl, rfl⟩ := hs
              exact hrest b
          · refine hone (up (lag_step b ha (fun sh h => ?_) hn hs))
            have := hc.1
            rw [h] at this
            exact this

/-- **C107** (handlers at calm places are harmless).  Take any run of a host and a sandbox that co-operate, in which
signals arrive at the sandbox any number of times, also within handlers, but only at calm places, and in which handlers make
any number of callbacks, whose handlers in the host may call functions of the sandbox in turn.  Neither process aborts, every
callback gets its own reply, and unless the host's own code runs or the sandbox has been destroyed, some process can go
on.  No other place is harmless: `only_calm`. -/
theorem handlers_safe_calm_partial (dbg : Bool) (as : List SAct) (s : SSt) (es : List Ev) (hc : CalmRun dbg start as)
    (h : srun dbg start as = some (s, es)) :
    NoAbort s.st ∧ OwnReplies es ∧ (s.st.pp = .user ∨ (s.st.pp = .gone ∧ s.st.cp = .exited) ∨
      ∃ a, (a = .base .parent ∨ a = .base .child ∨ a = .base .ret ∨ a = .sigret) ∧ (sstep dbg s a).isSome ∧
        ¬ (a = .base .parent ∧ Polling s.st)) := by
  cases dbg with
  | true =>
    refine handlers_safe_leaving_partial true as s es ?_ h
    clear h
    generalize start = t at hc
    induction as generalizing t with
    | nil => trivial
    | cons a as ih =>
      refine ⟨?_, fun s' es' h' => ih _ (hc.2 _ _ h')⟩
      have h1 := hc.1
      cases a with
      | base b => exact h1
      | sigret => trivial
      | signal =>
        rcases h1 with h1 | ⟨h1, -⟩
        · exact h1
        · cases h1
  | false =>
  have h0 : LdOk start := ⟨(nomatch ·), trivial⟩
  obtain ⟨b, bs, k1, k2⟩ := lag_run as false h0 hc h
  have hs : lag false start = start := rfl
  rw [hs] at k1 k2
  obtain ⟨g1, g2, g3⟩ := handlers_safe_leaving_partial false bs _ es k1 k2
  have hd : LdOk s := by
    clear k1 k2 hc g1 g2 g3
    generalize start = t at h h0
    induction as generalizing t es with
    | nil => simp [srun] at h; rw [← h.1]; exact h0
    | cons a as ih =>
      simp only [srun] at h
      rcases h1 : sstep false t a with _ | ⟨s1, es1⟩
      · simp [h1] at h
      simp only [h1] at h
      rcases h2 : srun false s1 as with _ | ⟨s2, es2⟩
      · simp [h2] at h
      simp only [h2, Option.some.injEq, Prod.mk.injEq] at h
      obtain ⟨rfl, rfl⟩ := h
      exact ih _ _ h2 (ldOk_step h0 h1)
  have hcp : (lag b s).st.cp = late s.st.cp := rfl
  refine ⟨⟨g1.1, fun hx => g1.2 (by rw [hcp, hx]; rfl)⟩, g2, ?_⟩
  rcases g3 with g3 | ⟨g3, g4⟩ | ⟨a, ha, hx, hp⟩
  · exact .inl g3
  · refine .inr (.inl ⟨g3, ?_⟩)
    rw [hcp] at g4
    generalize s.st.cp = c at g4
    cases c <;> simp [late] at g4 <;> rfl
  · by_cases hld : s.st.cp = .ld ∧ a ≠ .base .parent
    · obtain ⟨hld, hnp⟩ := hld
      by_cases hdd : s.st.dead = true
      · exfalso
        have hd1 : (lag b s).st.dead = true := hdd
        rcases ha with rfl | rfl | rfl | rfl
        · exact hnp rfl
        · simp [sstep, step, hd1] at hx
        · simp only [sstep] at hx
          split at hx
          · cases hx
          · simp [step, hcp, hld, late, hd1] at hx
        · simp only [sstep, hd1] at hx
          split at hx <;> simp at hx
      · exact .inr (.inr ⟨.base .child, by simp, by simp [sstep, step, hdd, childStep, hld], by simp⟩)
    refine .inr (.inr ⟨a, ha, ?_, hp⟩)
    have hnb := inBody_lag b hd
    obtain ⟨⟨sh, reqs, reps, next, dead, ps, pp, cs, cp⟩, fs⟩ := s
    rcases ha with rfl | rfl | rfl | rfl
    · simp only [sstep, reduceCtorEq, false_and, if_false] at hx ⊢
      cases pp <;> simp only [step, parentStep, lag, lagSt] at hx ⊢ <;> grind
    · simp only [sstep, reduceCtorEq, false_and, if_false] at hx ⊢
      cases cp <;> simp only [step, childStep, lag, lagSt, late] at hx ⊢ <;> first | grind | exact absurd ⟨rfl, by simp⟩ hld
    · simp only [sstep, hnb] at hx ⊢
      split at hx
      · cases hx
      · rename_i hb
        rw [if_neg hb]
        cases cp <;> simp only [step, lag, lagSt, late] at hx ⊢ <;> grind
    · rcases fs with _ | ⟨f, fs⟩
      · simp [sstep, lag] at hx
      · simp only [sstep, lag, List.map_cons, lagSt] at hx hnb ⊢
        rw [hnb] at hx
        split at hx
        · rename_i hy
          rw [if_pos hy]; rfl
        · cases hx

/-- At calm places no call is waiting to be taken. -/
theorem calm_no_call (dbg : Bool) (as : List SAct) (s : SSt) (es : List Ev) (hc : CalmRun dbg start as)
    (h : srun dbg start as = some (s, es)) (hq : Calm dbg s.st) : s.st.sh.msg = none := by
  cases dbg with
  | true =>
    refine leaving_no_call true as s es ?_ h ?_
    · clear h
      generalize start = t at hc
      induction as generalizing t with
      | nil => trivial
      | cons a as ih =>
        refine ⟨?_, fun s' es' h' => ih _ (hc.2 _ _ h')⟩
        have h1 := hc.1
        cases a with
        | base b => exact h1
        | sigret => trivial
        | signal =>
          rcases h1 with h1 | ⟨h1, -⟩
          · exact h1
          · cases h1
    · rcases hq with h1 | ⟨h1, -⟩
      · exact h1
      · cases h1
  | false =>
    have h0 : LdOk start := ⟨(nomatch ·), trivial⟩
    obtain ⟨b, bs, k1, k2⟩ := lag_run as false h0 hc h
    exact leaving_no_call false bs (lag b s) es k1 k2 (quiet_lag b hq)

end Verif.Signals
