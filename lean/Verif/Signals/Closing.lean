import Verif.Signals.Props

/-!
# Signal handlers while the sandbox is destroyed (property C107)

`Library::wait_for_child_exit` (`src/libsandbox.cc:1006-1018`) sets `should_exit` and wakes the sandbox.  A handler that makes a
system call from then on ends the sandbox, which was to end.
-/

namespace Verif.Signals.Spec

open Verif.Token Verif.Token.Spec

/-- The places of `Quiet`; and, once the sandbox has been told to end (`src/libsandbox.cc:1013`), all places until it has
reported to the host for the last time (`src/library_runner.cc:345`). -/
def QuietOrLeaving (s : St) : Prop := Quiet s ∨ s.sh.shouldExit = true ∧ s.sh.parent = 0

/-- All actions are co-operative, and signals arrive only at the places of `QuietOrLeaving`
(`src/library_runner.cc:307-475`). -/
def QuietOrLeavingRun (dbg : Bool) (s : SSt) : List SAct → Prop
  | [] => True
  | a :: as =>
    (match a with
      | .base b => Coop s.st b
      | .signal => QuietOrLeaving s.st
      | .sigret => True) ∧ ∀ s' es, sstep dbg s a = some (s', es) → QuietOrLeavingRun dbg s' as

end Verif.Signals.Spec

namespace Verif.Signals

open Verif.Token Verif.Token.Spec Spec

/-- What is so of the header, of the host and of the suspended calls while the sandbox is destroyed. -/
private structure HostOk (s : St) : Prop where
  exit : s.sh.shouldExit = true
  pp : s.pp = .d2 ∧ s.sh.executing = false ∧ s.sh.child = 0 ∨ s.pp = .d3 ∧ s.sh.child = 0 ∨ s.pp = .d4 ∧ s.sh.child = 0 ∨
    s.pp = .gone
  alive : s.dead = false
  msg : s.sh.msg = none

private def isK : CPc → Prop
  | .k2 _ _ | .k3 _ _ _ | .k4 _ _ _ => True
  | _ => False

private def isRun : CPc → Prop
  | .run _ => True
  | _ => False

/-- The sandbox is being destroyed, and handlers have run. -/
private inductive Cl : SSt → Prop
  /-- handlers that have made no callback -/
  | handler {s A m} : Inv { s.st with cp := m } [] → HostOk s.st → s.st.sh.parent = 0 → isRun s.st.cp →
      s.frames = A ++ [(m, s.st.cs.length)] → (∀ f ∈ A, isRun f.1 ∧ f.2 = s.st.cs.length) → Cl s
  /-- handlers that have interrupted a callback of a handler -/
  | above {s A f B} : HostOk s.st → s.st.sh.parent = 0 → isRun s.st.cp → s.frames = A ++ f :: B → isK f.1 →
      f.2 = s.st.cs.length → (∀ f ∈ A, (isRun f.1 ∨ isK f.1) ∧ f.2 = s.st.cs.length) → Cl s
  /-- a callback of a handler -/
  | callback {s} : HostOk s.st → s.st.sh.parent = 0 → isK s.st.cp → Cl s
  /-- it has been reported -/
  | leaving {s n} : HostOk s.st → s.st.sh.parent = 1 → s.st.cp = .r0 n → Cl s
  | left {s} : HostOk s.st → s.st.cp = .exited → Cl s

/-- While the sandbox is destroyed, no handler is under way in a run with signals at quiet places only. -/
private theorem no_frames {s : SSt} {σ : List Item} (h : SInv s σ) (he : s.st.sh.shouldExit = true) :
    s.frames = [] ∧ HostOk s.st ∧ s.st.cs = [] ∧ σ = [] := by
  obtain ⟨⟨sh, reqs, reps, nx, dead, ps, pp, cs, cp⟩, fs⟩ := s
  obtain ⟨hI, hm⟩ := h
  simp only at hI hm he
  have key : sh.loaded = true ∧ cs = [] ∧ ¬ body cp ∧ HostOk ⟨sh, reqs, reps, nx, dead, ps, pp, cs, cp⟩ ∧ σ = [] := by
    cases hI <;> simp at he ⊢ <;> (try cases ‹Ending _›) <;> (try cases ‹Verif.Token.Closing _›) <;> (try cases ‹Closed _›) <;>
      exact ⟨by simp [body], ⟨rfl, by simp, rfl, rfl⟩⟩
  obtain ⟨k1, k2, k3, k4, k5⟩ := key
  refine ⟨?_, k4, k2, k5⟩
  cases hm with
  | none => rfl
  | loaded _ hf ht =>
    rcases fs with _ | ⟨⟨c, n⟩, fs⟩
    · rfl
    · exact absurd (ht.2 (by have := ht.1; rw [k2] at this ⊢; simp at this ⊢; omega)) k3
  | loading hl => simp [k1] at hl

/-- The host's next step does not depend on where the sandbox is. -/
private theorem parent_cp {dbg : Bool} {s s' : St} {es : List Ev} (m : CPc) (h : parentStep dbg s = some (s', es)) :
    parentStep dbg { s with cp := m } = some ({ s' with cp := m }, es) := by
  obtain ⟨sh, reqs, reps, nx, dead, ps, pp, cs, cp⟩ := s
  cases pp <;> simp only [parentStep, startHandler, wakeChild] at h ⊢ <;> grind

/-- The host goes on with the destruction. -/
private theorem host_step {dbg : Bool} {s s' : St} {es : List Ev} (hk : HostOk s) (h : parentStep dbg s = some (s', es)) :
    HostOk s' ∧ s'.sh.parent = s.sh.parent ∧ s'.cp = s.cp ∧ s'.cs = s.cs ∧ es = [] := by
  obtain ⟨sh, reqs, reps, nx, dead, ps, pp, cs, cp⟩ := s
  obtain ⟨h1, h2, h3, h4⟩ := hk
  simp only at h1 h2 h3 h4
  rcases h2 with ⟨rfl, he, hc⟩ | ⟨rfl, hc⟩ | ⟨rfl, hc⟩ | rfl
  · simp only [parentStep, he] at h
    simp at h
    obtain ⟨rfl, rfl⟩ := h
    exact ⟨⟨h1, by simp [hc], h3, h4⟩, rfl, rfl, rfl, rfl⟩
  · simp only [parentStep] at h
    simp at h
    obtain ⟨rfl, rfl⟩ := h
    exact ⟨⟨h1, by simp [hc], h3, h4⟩, rfl, rfl, rfl, rfl⟩
  · simp only [parentStep, wakeChild, hc] at h
    simp at h
    obtain ⟨rfl, rfl⟩ := h
    exact ⟨⟨h1, by simp, h3, h4⟩, rfl, rfl, rfl, rfl⟩
  · simp [parentStep] at h

/-- What else can happen then. -/
private theorem others {dbg : Bool} {s : St} {a : Act} {r : St × List Ev} (hk : HostOk s) (hc : Coop s a)
    (h : step dbg s a = some r) : a = .parent ∨ a = .child ∨ a = .ask ∨ a = .ret ∨ a = .childTimeout := by
  have hu : s.pp ≠ .user ∧ ∀ d, s.pp ≠ .w d := by
    rcases hk.pp with ⟨h, -⟩ | ⟨h, -⟩ | ⟨h, -⟩ | h <;> simp [h]
  cases a with
  | parent => simp
  | child => simp
  | ask => simp
  | ret => simp
  | childTimeout => simp
  | crash => exact hc.elim
  | write => exact hc.elim
  | inject => exact hc.elim
  | call => simp [step, hu.1] at h
  | destroy => simp [step, hu.1] at h
  | finish =>
    simp only [step] at h
    split at h
    · rename_i h1 _; exact absurd h1 hu.1
    · contradiction
  | timeout =>
    simp only [step] at h
    split at h
    · rename_i h1; exact absurd h1 (hu.2 _)
    · contradiction

private theorem no_got : OwnReplies [] := by intro _ _ _ h; cases h

private theorem run_body {s : SSt} {f : CPc × Nat} {fs : List (CPc × Nat)} (hr : isRun s.st.cp) (hf : s.frames = f :: fs)
    (hn : f.2 = s.st.cs.length) : inBody s = true := by
  obtain ⟨⟨sh, reqs, reps, nx, dead, ps, pp, cs, cp⟩, fs'⟩ := s
  obtain ⟨c, n⟩ := f
  simp only at hr hf hn
  subst hf
  cases cp <;> simp [isRun] at hr
  simp [inBody, hn]

private theorem hostOk_congr {s t : St} (h : HostOk s) (h1 : t.sh = s.sh) (h2 : t.pp = s.pp) (h3 : t.dead = s.dead) :
    HostOk t := by
  obtain ⟨k1, k2, k3, k4⟩ := h
  exact ⟨by rw [h1]; exact k1, by rw [h1, h2]; exact k2, by rw [h3]; exact k3, by rw [h1]; exact k4⟩

/-- A handler in whose stead the code goes on at `f`, or under which there is a place. -/
private theorem cl_step {dbg : Bool} {s s' : SSt} {a : SAct} {es : List Ev} (hI : Cl s)
    (hc : match a with | .base b => Coop s.st b | .signal => QuietOrLeaving s.st | .sigret => True)
    (h : sstep dbg s a = some (s', es)) : OwnReplies es ∧ (Cl s' ∨ ∃ σ', SInv s' σ') := by
  have hk : HostOk s.st := by cases hI <;> assumption
  cases a with
  | signal =>
    have hp : s.st.sh.parent = 0 := by
      rcases hc with hq | hq
      · have := hq.1; rw [hk.exit] at this; cases this
      · exact hq.2
    simp only [sstep] at h
    rw [if_neg (by rw [hk.alive]; simp)] at h
    split at h
    · contradiction
    · rename_i c hc
      simp only [Option.some.injEq, Prod.mk.injEq] at h
      obtain ⟨rfl, rfl⟩ := h
      refine ⟨no_got, .inl ?_⟩
      have hrun : isRun c := by
        generalize s.st.cp = d at hc
        cases d <;> simp [entry] at hc <;> subst hc <;> trivial
      cases hI with
      | handler h1 h2 h3 h4 h5 h6 =>
        rename_i A m
        refine .handler (A := (s.st.cp, s.st.cs.length) :: A) (m := m) h1 (hostOk_congr h2 rfl rfl rfl) h3 hrun
          (by simp [h5]) ?_
        intro f hf
        rcases List.mem_cons.mp hf with rfl | hf
        · exact ⟨h4, rfl⟩
        · exact h6 f hf
      | above h1 h2 h3 h4 h5 h6 h7 =>
        rename_i A g B
        refine .above (A := (s.st.cp, s.st.cs.length) :: A) (f := g) (B := B) (hostOk_congr h1 rfl rfl rfl) h2 hrun
          (by simp [h4]) h5 h6 ?_
        intro f hf
        rcases List.mem_cons.mp hf with rfl | hf
        · exact ⟨.inl h3, rfl⟩
        · exact h7 f hf
      | callback h1 h2 h3 =>
        exact .above (A := []) (f := (s.st.cp, s.st.cs.length)) (B := s.frames) (hostOk_congr h1 rfl rfl rfl) h2 hrun rfl h3 rfl
          (by simp)
      | leaving h1 h2 h3 => omega
      | left h1 h2 => rw [h2] at hc; simp [entry] at hc
  | sigret =>
    simp only [sstep] at h
    split at h
    · contradiction
    · rename_i c n fs hfs
      split at h
      · rename_i hb
        simp only [Option.some.injEq, Prod.mk.injEq] at h
        obtain ⟨rfl, rfl⟩ := h
        refine ⟨no_got, ?_⟩
        cases hI with
        | handler h1 h2 h3 h4 h5 h6 =>
          rename_i A m
          rcases A with _ | ⟨f, A⟩
          · rw [h5] at hfs
            simp only [List.nil_append, List.cons.injEq, Prod.mk.injEq] at hfs
            obtain ⟨⟨rfl, rfl⟩, rfl⟩ := hfs
            exact .inr ⟨[], h1, .none⟩
          · rw [h5] at hfs
            simp only [List.cons_append, List.cons.injEq] at hfs
            obtain ⟨rfl, rfl⟩ := hfs
            exact .inl (.handler (A := A) (m := m) h1 (hostOk_congr h2 rfl rfl rfl) h3 (h6 (c, n) (by simp)).1 rfl
              (fun f hf => h6 f (by simp [hf])))
        | above h1 h2 h3 h4 h5 h6 h7 =>
          rename_i A g B
          rcases A with _ | ⟨f, A⟩
          · rw [h4] at hfs
            simp only [List.nil_append, List.cons.injEq] at hfs
            obtain ⟨rfl, rfl⟩ := hfs
            exact .inl (.callback (hostOk_congr h1 rfl rfl rfl) h2 h5)
          · rw [h4] at hfs
            simp only [List.cons_append, List.cons.injEq] at hfs
            obtain ⟨rfl, rfl⟩ := hfs
            rcases (h7 (c, n) (by simp)).1 with hr | hr
            · exact .inl (.above (A := A) (f := g) (B := B) (hostOk_congr h1 rfl rfl rfl) h2 hr rfl h5 h6
                (fun f hf => h7 f (by simp [hf])))
            · exact .inl (.callback (hostOk_congr h1 rfl rfl rfl) h2 hr)
        | callback h1 h2 h3 =>
          exfalso
          have hb := hb.1
          simp only [inBody] at hb
          split at hb
          · rename_i hcp; rw [hcp] at h3; exact h3
          · cases hb
        | leaving h1 h2 h3 =>
          exfalso
          have hb := hb.1
          simp [inBody, h3] at hb
        | left h1 h2 =>
          exfalso
          have hb := hb.1
          simp [inBody, h2] at hb
      · contradiction
  | base a =>
    simp only [sstep] at h
    split at h
    · contradiction
    rename_i hret
    rcases hs : step dbg s.st a with _ | ⟨st, e⟩
    · simp [hs] at h
    simp only [hs, Option.some.injEq, Prod.mk.injEq] at h
    obtain ⟨rfl, rfl⟩ := h
    rcases others hk hc hs with rfl | rfl | rfl | rfl | rfl
    · -- the host
      simp only [step] at hs
      obtain ⟨k1, k2, k3, k4, rfl⟩ := host_step hk hs
      refine ⟨no_got, .inl ?_⟩
      cases hI with
      | handler h1 h2 h3 h4 h5 h6 =>
        rename_i A m
        obtain ⟨σ', hr, hI'⟩ := inv_step h1 (a := .parent) trivial (parent_cp m hs)
        simp only [replay, Option.some.injEq] at hr
        subst hr
        refine .handler (A := A) (m := m) hI' k1 (k2.trans h3) ?_ ?_ ?_
        · simp only [k3]; exact h4
        · simp only [k4]; exact h5
        · simp only [k4]; exact h6
      | above h1 h2 h3 h4 h5 h6 h7 =>
        rename_i A g B
        refine .above (A := A) (f := g) (B := B) k1 (k2.trans h2) ?_ h4 h5 ?_ ?_
        · simp only [k3]; exact h3
        · simp only [k4]; exact h6
        · simp only [k4]; exact h7
      | callback h1 h2 h3 => exact .callback k1 (k2.trans h2) (by simp only [k3]; exact h3)
      | leaving h1 h2 h3 => exact .leaving k1 (k2.trans h2) (k3.trans h3)
      | left h1 h2 => exact .left k1 (k3.trans h2)
    · -- the sandbox
      simp only [step, hk.alive, Bool.false_eq_true, if_false] at hs
      obtain ⟨⟨sh, reqs, reps, nx, dead, ps, pp, cs, cp⟩, fs⟩ := s
      have norun : ¬ isRun cp := by
        intro hr
        cases cp <;> simp [isRun] at hr
        simp [childStep] at hs
      have hx := hk.exit
      have hd := hk.alive
      have hpp := hk.pp
      have hm := hk.msg
      simp only at hx hd hpp hm
      cases hI with
      | handler h1 h2 h3 h4 h5 h6 => exact absurd h4 norun
      | above h1 h2 h3 h4 h5 h6 h7 => exact absurd h3 norun
      | callback h1 h2 h3 =>
        simp only at h2 h3
        cases cp <;> simp only [isK] at h3 <;> simp only [childStep, wakeParent, h2, if_true, Option.some.injEq, Prod.mk.injEq] at hs <;>
          obtain ⟨rfl, rfl⟩ := hs
        · exact ⟨no_got, .inl (.callback ⟨hx, hpp, hd, hm⟩ rfl trivial)⟩
        · refine ⟨no_got, .inl (.callback ⟨hx, ?_, hd, hm⟩ rfl trivial)⟩
          rcases hpp with ⟨p1, p2, p3⟩ | hpp
          · exact .inl ⟨p1, rfl, p3⟩
          · exact .inr hpp
        · exact ⟨no_got, .inl (.leaving ⟨hx, hpp, hd, hm⟩ rfl rfl)⟩
      | leaving h1 h2 h3 =>
        simp only at h3
        subst h3
        simp only [childStep, hx, if_true, Option.some.injEq, Prod.mk.injEq] at hs
        obtain ⟨rfl, rfl⟩ := hs
        exact ⟨no_got, .inl (.left ⟨hx, hpp, hd, hm⟩ rfl)⟩
      | left h1 h2 =>
        simp only at h2
        subst h2
        simp [childStep] at hs
    · -- the handler makes a callback
      simp only [step] at hs
      split at hs
      · rename_i e' hcp
        rw [if_neg (by rw [hk.alive]; simp)] at hs
        simp only [Option.some.injEq, Prod.mk.injEq] at hs
        obtain ⟨rfl, rfl⟩ := hs
        refine ⟨fun _ _ _ h => by simp at h, .inl ?_⟩
        cases hI with
        | handler h1 h2 h3 h4 h5 h6 => exact .callback (hostOk_congr hk rfl rfl rfl) h3 trivial
        | above h1 h2 h3 h4 h5 h6 h7 => exact .callback (hostOk_congr hk rfl rfl rfl) h2 trivial
        | callback h1 h2 h3 => rw [hcp] at h3; exact h3.elim
        | leaving h1 h2 h3 => rw [hcp] at h3; cases h3
        | left h1 h2 => rw [hcp] at h2; cases h2
      · contradiction
    · -- a function returns: there is none
      exfalso
      have hnb : inBody s ≠ true := fun h => hret ⟨rfl, h⟩
      cases hI with
      | handler h1 h2 h3 h4 h5 h6 =>
        rename_i A m
        rcases A with _ | ⟨f, A⟩
        · exact hnb (run_body h4 h5 rfl)
        · exact hnb (run_body h4 h5 (h6 f (by simp)).2)
      | above h1 h2 h3 h4 h5 h6 h7 =>
        rename_i A g B
        rcases A with _ | ⟨f, A⟩
        · exact hnb (run_body h3 h4 h6)
        · exact hnb (run_body h3 h4 (h7 f (by simp)).2)
      | callback h1 h2 h3 =>
        simp only [step] at hs
        split at hs
        · rename_i hcp; rw [hcp] at h3; exact h3
        · rename_i hcp; rw [hcp] at h3; exact h3
        · contradiction
      | leaving h1 h2 h3 => simp [step, h3] at hs
      | left h1 h2 => simp [step, h2] at hs
    · -- a wait of the run loop ends
      exfalso
      simp only [step] at hs
      split at hs
      · rename_i n hcp
        cases hI with
        | handler h1 h2 h3 h4 h5 h6 => rw [hcp] at h4; exact h4
        | above h1 h2 h3 h4 h5 h6 h7 => rw [hcp] at h3; exact h3
        | callback h1 h2 h3 => rw [hcp] at h3; exact h3
        | leaving h1 h2 h3 => rw [hcp] at h3; cases h3
        | left h1 h2 => rw [hcp] at h2; cases h2
      · contradiction

private theorem any_step {dbg : Bool} {s s' : SSt} {a : SAct} {es : List Ev} (hI : Cl s ∨ ∃ σ, SInv s σ)
    (hc : match a with | .base b => Coop s.st b | .signal => QuietOrLeaving s.st | .sigret => True)
    (h : sstep dbg s a = some (s', es)) : OwnReplies es ∧ (Cl s' ∨ ∃ σ', SInv s' σ') := by
  rcases hI with hI | ⟨σ, hI⟩
  · exact cl_step hI hc h
  · cases a with
    | base b =>
      obtain ⟨h1, h2⟩ := sinv_step (a := .base b) hI hc h
      exact ⟨h1, .inr h2⟩
    | sigret =>
      obtain ⟨h1, h2⟩ := sinv_step (a := .sigret) hI trivial h
      exact ⟨h1, .inr h2⟩
    | signal =>
      rcases hc with hq | ⟨he, hp⟩
      · obtain ⟨h1, h2⟩ := sinv_step (a := .signal) hI hq h
        exact ⟨h1, .inr h2⟩
      · obtain ⟨k1, k2, k3, rfl⟩ := no_frames hI he
        simp only [sstep] at h
        rw [if_neg (by rw [k2.alive]; simp)] at h
        split at h
        · contradiction
        · rename_i c hc
          simp only [Option.some.injEq, Prod.mk.injEq] at h
          obtain ⟨rfl, rfl⟩ := h
          have hrun : isRun c := by
            generalize s.st.cp = d at hc
            cases d <;> simp [entry] at hc <;> subst hc <;> trivial
          exact ⟨no_got, .inl (.handler (A := []) (m := s.st.cp) hI.inv (hostOk_congr k2 rfl rfl rfl) hp hrun
            (by simp [k1]) (by simp))⟩

private theorem any_run {dbg : Bool} (as : List SAct) {s s' : SSt} {es : List Ev} (hI : Cl s ∨ ∃ σ, SInv s σ)
    (hc : QuietOrLeavingRun dbg s as) (h : srun dbg s as = some (s', es)) :
    OwnReplies es ∧ (Cl s' ∨ ∃ σ', SInv s' σ') := by
  induction as generalizing s es with
  | nil =>
    simp only [srun, Option.some.injEq, Prod.mk.injEq] at h
    obtain ⟨rfl, rfl⟩ := h
    exact ⟨no_got, hI⟩
  | cons a as ih =>
    simp only [srun] at h
    rcases h1 : sstep dbg s a with _ | ⟨s1, es1⟩
    · simp [h1] at h
    · simp only [h1] at h
      rcases h2 : srun dbg s1 as with _ | ⟨s2, es2⟩
      · simp [h2] at h
      · simp only [h2, Option.some.injEq, Prod.mk.injEq] at h
        obtain ⟨rfl, rfl⟩ := h
        obtain ⟨ho, hI1⟩ := any_step hI hc.1 h1
        obtain ⟨ho', hI2⟩ := ih hI1 (hc.2 _ _ h1) h2
        refine ⟨fun id id' v hm => ?_, hI2⟩
        rcases List.mem_append.1 hm with hm | hm
        · exact ho _ _ _ hm
        · exact ho' _ _ _ hm

/-- **C107**, with destruction.  As `handlers_safe_partial`, but signals may also arrive, once the sandbox has been told to
end, wherever it is until it has reported for the last time. -/
theorem handlers_safe_leaving_partial (dbg : Bool) (as : List SAct) (s : SSt) (es : List Ev) (hc : QuietOrLeavingRun dbg start as)
    (h : srun dbg start as = some (s, es)) :
    NoAbort s.st ∧ OwnReplies es ∧ (s.st.pp = .user ∨ (s.st.pp = .gone ∧ s.st.cp = .exited) ∨
      ∃ a, (a = .base .parent ∨ a = .base .child ∨ a = .base .ret ∨ a = .sigret) ∧ (sstep dbg s a).isSome ∧
        ¬ (a = .base .parent ∧ Polling s.st)) := by
  obtain ⟨ho, hI⟩ := any_run as (s := start) (.inr ⟨_, inv_init, .none⟩) hc h
  rcases hI with hI | ⟨σ, hI⟩
  · have hk : HostOk s.st := by cases hI <;> assumption
    have hcp : s.st.cp ≠ .aborted := by
      cases hI with
      | handler h1 h2 h3 h4 h5 h6 => intro hx; rw [hx] at h4; exact h4
      | above h1 h2 h3 h4 h5 h6 h7 => intro hx; rw [hx] at h3; exact h3
      | callback h1 h2 h3 => intro hx; rw [hx] at h3; exact h3
      | leaving h1 h2 h3 => intro hx; rw [hx] at h3; cases h3
      | left h1 h2 => intro hx; rw [hx] at h2; cases h2
    refine ⟨⟨?_, hcp⟩, ho, ?_⟩
    · rcases hk.pp with ⟨h, -⟩ | ⟨h, -⟩ | ⟨h, -⟩ | h <;> simp [h]
    · by_cases hg : s.st.pp = .gone
      · -- the sandbox goes on
        have hnp : ¬ Polling s.st := by rintro ⟨-, -, x, hx | hx⟩ <;> rw [hg] at hx <;> cases hx
        have hd := hk.alive
        have hx := hk.exit
        have up : inBody s = true → s.frames ≠ [] → (sstep dbg s .sigret).isSome := by
          intro hb hne
          simp only [sstep]
          split
          · rename_i hf; exact absurd hf hne
          · rw [if_pos ⟨hb, hd⟩]; rfl
        cases hI with
        | handler h1 h2 h3 h4 h5 h6 =>
          rename_i A m
          refine .inr (.inr ⟨.sigret, by simp, up ?_ (by simp [h5]), by simp⟩)
          rcases A with _ | ⟨f, A⟩
          · exact run_body h4 h5 rfl
          · exact run_body h4 h5 (h6 f (by simp)).2
        | above h1 h2 h3 h4 h5 h6 h7 =>
          rename_i A g B
          refine .inr (.inr ⟨.sigret, by simp, up ?_ (by simp [h4]), by simp⟩)
          rcases A with _ | ⟨f, A⟩
          · exact run_body h3 h4 h6
          · exact run_body h3 h4 (h7 f (by simp)).2
        | callback h1 h2 h3 =>
          refine .inr (.inr ⟨.base .child, by simp, ?_, by simp⟩)
          obtain ⟨⟨sh, reqs, reps, nx, dead, ps, pp, cs, cp⟩, fs⟩ := s
          simp only at hd
          subst hd
          cases cp <;> simp only [isK] at h3 <;> simp [sstep, step, childStep]
        | leaving h1 h2 h3 =>
          refine .inr (.inr ⟨.base .child, by simp, ?_, by simp⟩)
          simp [sstep, step, hd, childStep, h3]
        | left h1 h2 => exact .inr (.inl ⟨hg, h2⟩)
      · refine .inr (.inr ⟨.base .parent, by simp, ?_, ?_⟩)
        · rcases hk.pp with ⟨h, -⟩ | ⟨h, -⟩ | ⟨h, -⟩ | h <;> simp [sstep, step, parentStep, h]
          exact hg h
        · rintro ⟨-, -, -, x, hx | hx⟩ <;>
            rcases hk.pp with ⟨h, -⟩ | ⟨h, -⟩ | ⟨h, -⟩ | h <;> rw [h] at hx <;> cases hx
  · obtain ⟨g1, g2⟩ := sinv_live dbg hI
    exact ⟨g1, ho, g2⟩

/-- At these places no call is waiting to be taken. -/
theorem leaving_no_call (dbg : Bool) (as : List SAct) (s : SSt) (es : List Ev) (hc : QuietOrLeavingRun dbg start as)
    (h : srun dbg start as = some (s, es)) (hq : QuietOrLeaving s.st) : s.st.sh.msg = none := by
  obtain ⟨-, hI⟩ := any_run as (s := start) (.inr ⟨_, inv_init, .none⟩) hc h
  rcases hI with hI | ⟨σ, hI, -⟩
  · have hk : HostOk s.st := by cases hI <;> assumption
    exact hk.msg
  · generalize s.st = st at hI hq
    cases hI <;> (try cases ‹Parked _ _›) <;> simp_all [QuietOrLeaving, Quiet]

end Verif.Signals
