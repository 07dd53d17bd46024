import Verif.Signals.Release

/-!
# Signal handlers while the library is loaded and while the sandbox is destroyed (property C107)
-/

namespace Verif.Signals.Spec

/-- Along a run, there are always at least `k` handlers under way (`src/library_runner.cc:307-475`). -/
def Under (dbg : Bool) (k : Nat) (s : SSt) : List SAct → Prop
  | [] => True
  | a :: as => ∀ s' es, sstep dbg s a = some (s', es) → k ≤ s'.frames.length ∧ Under dbg k s' as

end Verif.Signals.Spec

namespace Verif.Signals

open Verif.Token Verif.Token.Spec Spec

/-- The host, if it is free, gets to the point in the loading loop where it looks for callbacks. -/
private def comes : PPc → List SAct
  | .user => [.base (.call 0), .base .parent]
  | .s0 _ => [.base .parent]
  | _ => []

/-- It serves a callback there. -/
private def loadServes (p : PPc) : List SAct :=
  match p with
  | .l2 _ => host 2 ++ .base (.finish 5) :: host 3
  | _ => comes p ++ host 3 ++ .base (.finish 5) :: host 3

/-- **C107**, negative part.  While the library is loaded, wherever the loader is in a callback, a signal whose handler makes
a system call can abort a process or swap replies. -/
theorem loading_broken (dbg : Bool) (as : List Act) (s : St) (es : List Ev) (hc : CoopRun dbg init as)
    (h : run dbg init as = some (s, es)) (hl : s.sh.loaded = false) (h1 : s.cp ≠ .run none) (h2 : s.cp ≠ .ld) :
    ∃ bs s' es', signals bs = 0 ∧ srun dbg ⟨s, []⟩ (.signal :: bs) = some (s', es') ∧
      (¬ NoAbort s'.st ∨ ∃ id v, .got s.next id v ∈ es' ∧ id < s.next) := by
  obtain ⟨σ, -, hI⟩ := inv_run as inv_init hc h
  have hf : Fresh s := fresh_run as hc (by simp [Fresh, init]) h
  suffices ∃ bs, signals bs = 0 ∧ ends (fun s' es' => ¬ NoAbort s'.st ∨ ∃ id v, .got s.next id v ∈ es' ∧ id < s.next)
      (srun dbg ⟨s, []⟩ (.signal :: bs)) by
    obtain ⟨bs, h1, h2⟩ := this
    obtain ⟨s', es', h3, h4⟩ := ends_some h2
    exact ⟨bs, s', es', h1, h3, h4⟩
  clear h
  cases hI <;> simp at hl h1 h2
  case lk2 nx p id hp =>
    simp [Fresh] at hf
    refine ⟨asks ++ loadServes p ++ sandbox 6, by cases hp <;> rfl, ?_⟩
    cases hp <;> (simp [loadServes, comes]; sig_run; exact .inr hf)
  case lk3 nx p id hp =>
    simp [Fresh] at hf
    refine ⟨asks ++ loadServes p ++ sandbox 6, by rcases hp with hp | hp <;> (try cases hp) <;> rfl, ?_⟩
    rcases hp with hp | hp <;> (try cases hp) <;> (simp [loadServes, comes]; sig_run; exact .inr hf)
  case lk4 nx p id hp =>
    simp [Fresh] at hf
    refine ⟨asks ++ loadServes p ++ sandbox 6, by rcases hp with hp | hp <;> (try cases hp) <;> rfl, ?_⟩
    rcases hp with hp | hp <;> (try cases hp) <;> (simp [loadServes, comes]; sig_run; exact .inr hf)
  case lasked nx p id c hp hc =>
    refine ⟨asks, rfl, ?_⟩
    cases hc <;> (sig_run; simp [NoAbort])
  case ll3 hc =>
    refine ⟨host 1 ++ .base (.finish 5) :: host 3 ++ asks ++ host 4 ++ .base (.finish 5) :: host 3, rfl, ?_⟩
    cases hc <;> (sig_run; simp [NoAbort])
  case lserve hc =>
    refine ⟨.base (.finish 5) :: host 3 ++ asks ++ host 4 ++ .base (.finish 5) :: host 3, rfl, ?_⟩
    cases hc <;> (sig_run; simp [NoAbort])
  case ll4 hc =>
    refine ⟨host 3 ++ asks ++ host 4 ++ .base (.finish 5) :: host 3, rfl, ?_⟩
    cases hc <;> (sig_run; simp [NoAbort])
  case ll5 hc =>
    refine ⟨host 2 ++ asks ++ host 4 ++ .base (.finish 5) :: host 3, rfl, ?_⟩
    cases hc <;> (sig_run; simp [NoAbort])
  case ll6 hc =>
    refine ⟨host 1 ++ asks ++ host 4 ++ .base (.finish 5) :: host 3, rfl, ?_⟩
    cases hc <;> (sig_run; simp [NoAbort])
  case lanswered nx p id v c hp hc =>
    refine ⟨asks ++ loadServes p, by cases hp <;> rfl, ?_⟩
    cases hp <;> cases hc <;> (simp [loadServes, comes]; sig_run; simp [NoAbort])
  case lr2 nx p id v hp =>
    simp [Fresh] at hf
    refine ⟨asks ++ loadServes p ++ sandbox 6, by cases hp <;> rfl, ?_⟩
    cases hp <;> (simp [loadServes, comes]; sig_run; exact .inr hf)
  case lr3 nx p id v hp =>
    simp [Fresh] at hf
    refine ⟨asks ++ loadServes p ++ sandbox 6, by cases hp <;> rfl, ?_⟩
    cases hp <;> (simp [loadServes, comes]; sig_run; exact .inr hf)
  case lr4 nx p id v hp =>
    simp [Fresh] at hf
    refine ⟨asks ++ loadServes p ++ sandbox 6, by cases hp <;> rfl, ?_⟩
    cases hp <;> (simp [loadServes, comes]; sig_run; exact .inr hf)
  case lrcv nx p id v hp =>
    simp [Fresh] at hf
    refine ⟨asks ++ loadServes p ++ sandbox 6, by cases hp <;> rfl, ?_⟩
    cases hp <;> (simp [loadServes, comes]; sig_run; exact .inr hf)

/-- **C107**, negative part.  Where the loader has ended and the sandbox is about to say so, the host finds at its first call
that the sandbox seems to be running: a build with assertions aborts. -/
theorem loaded_aborts_debug (as : List Act) (s : St) (es : List Ev) (hc : CoopRun true init as)
    (h : run true init as = some (s, es)) (hl : s.cp = .ld) :
    ∃ bs s' es', signals bs = 0 ∧ srun true ⟨s, []⟩ (.signal :: bs) = some (s', es') ∧ s'.st.pp = .aborted := by
  obtain ⟨σ, -, hI⟩ := inv_run as inv_init hc h
  suffices ∃ bs, signals bs = 0 ∧ ends (fun s' _ => s'.st.pp = .aborted) (srun true ⟨s, []⟩ (.signal :: bs)) by
    obtain ⟨bs, h1, h2⟩ := this
    obtain ⟨s', es', h3, h4⟩ := ends_some h2
    exact ⟨bs, s', es', h1, h3, h4⟩
  clear h
  cases hI <;> simp at hl
  case loadEnd nx p hp =>
    refine ⟨asks ++ loadServes p ++ sandbox 6 ++ .sigret :: sandbox 1 ++ host 4, by cases hp <;> rfl, ?_⟩
    cases hp <;> (simp [loadServes, comes]; sig_run)
  all_goals (subst hl; cases ‹_› <;> cases ‹Free _›)

/-- **C107**, negative part.  Where the host has begun to destroy the sandbox and not yet said so, a handler's callback is
taken by nobody, and the sandbox, woken to end, reports to a host that has not read its last report: it aborts. -/
theorem destroying_aborts_sandbox (dbg : Bool) (as : List Act) (s : St) (es : List Ev) (hc : CoopRun dbg init as)
    (h : run dbg init as = some (s, es)) (hl : s.pp = .d1) :
    ∃ bs s' es', signals bs = 0 ∧ srun dbg ⟨s, []⟩ (.signal :: bs) = some (s', es') ∧ s'.st.cp = .aborted := by
  obtain ⟨σ, -, hI⟩ := inv_run as inv_init hc h
  suffices ∃ bs, signals bs = 0 ∧ ends (fun s' _ => s'.st.cp = .aborted) (srun dbg ⟨s, []⟩ (.signal :: bs)) by
    obtain ⟨bs, h1, h2⟩ := this
    obtain ⟨s', es', h3, h4⟩ := ends_some h2
    exact ⟨bs, s', es', h1, h3, h4⟩
  clear h
  cases hI <;> simp at hl
  case d1 hc =>
    refine ⟨asks ++ sandbox 1 ++ host 4 ++ sandbox 6, rfl, ?_⟩
    cases hc <;> sig_run
  all_goals (subst hl; cases ‹_› <;> cases ‹Free _›)

/-- **C107**, negative part.  Where the sandbox has been told to end and has reported that it was woken, it has only to leave;
a handler that makes a system call there aborts it. -/
theorem leaving_aborts_sandbox (dbg : Bool) (as : List Act) (s : St) (es : List Ev) (hc : CoopRun dbg init as)
    (h : run dbg init as = some (s, es)) (hl : s.sh.shouldExit = true) (hp : s.sh.parent ≠ 0) (he : s.cp ≠ .exited) :
    ∃ bs s' es', signals bs = 0 ∧ srun dbg ⟨s, []⟩ (.signal :: bs) = some (s', es') ∧ s'.st.cp = .aborted := by
  obtain ⟨σ, -, hI⟩ := inv_run as inv_init hc h
  suffices ∃ bs, signals bs = 0 ∧ ends (fun s' _ => s'.st.cp = .aborted) (srun dbg ⟨s, []⟩ (.signal :: bs)) by
    obtain ⟨bs, h1, h2⟩ := this
    obtain ⟨s', es', h3, h4⟩ := ends_some h2
    exact ⟨bs, s', es', h1, h3, h4⟩
  clear h
  cases hI <;> simp at hl hp he
  case ex hc =>
    refine ⟨asks, rfl, ?_⟩
    cases hc
    · sig_run
    · exact absurd rfl he

/-- What the invariant says of a sandbox that is loading, or that is about to report a return. -/
private theorem early {s : St} {σ : List Item} (hI : Inv s σ) :
    (s.sh.loaded = false → s.sh.shouldExit = false) ∧ (s.sh.shouldExit = false → ∀ n, s.cp = .r6 n → s.sh.depth = n) := by
  cases hI <;> (try cases ‹Parked _ _›) <;> simp

/-- **C107**, the other direction.  No other place is harmless, in either build: wherever the sandbox is, while it loads, while
it is in use or while it is destroyed, unless it is at a calm place, one signal whose handler makes a system call can abort
a process, swap replies, or run a function of the library inside the handler. -/
theorem only_calm (dbg : Bool) (as : List Act) (s : St) (es : List Ev) (hc : CoopRun dbg init as)
    (h : run dbg init as = some (s, es)) (he : s.cp ≠ .exited) (hq : ¬ Calm dbg s) :
    ∃ bs s' es', signals bs = 0 ∧ srun dbg ⟨s, []⟩ (.signal :: bs) = some (s', es') ∧ Broken s' es' := by
  obtain ⟨σ, -, hI⟩ := inv_run as inv_init hc h
  obtain ⟨e1, e2⟩ := early hI
  by_cases hl : s.sh.loaded = true
  · by_cases hx : s.sh.shouldExit = true
    · have hp : s.sh.parent ≠ 0 := fun hp => hq (.inl (.inr ⟨hx, hp⟩))
      obtain ⟨bs, s', es', h1, h2, h3⟩ := leaving_aborts_sandbox dbg as s es hc h hx hp he
      exact ⟨bs, s', es', h1, h2, .abort (fun hn => hn.2 h3)⟩
    · have hx : s.sh.shouldExit = false := by simpa using hx
      by_cases hd : s.pp = .d1
      · obtain ⟨bs, s', es', h1, h2, h3⟩ := destroying_aborts_sandbox dbg as s es hc h hd
        exact ⟨bs, s', es', h1, h2, .abort (fun hn => hn.2 h3)⟩
      · have hu : InUse s := ⟨hl, hx, hd⟩
        rcases places hI hu with hp | hp | hp | hp | hp
        · exact absurd (.inl (.inl hp)) hq
        · obtain ⟨bs, s', es', h1, h2, h3⟩ := waiting_aborts_host dbg as s es hc h hu hp
          exact ⟨bs, s', es', h1, h2, .abort (fun hn => hn.1 h3)⟩
        · obtain ⟨bs, s', es', h1, h2, id, v, h3, h4⟩ := reply_swapped dbg as s es hc h hu hp
          exact ⟨bs, s', es', h1, h2, .reply (fun hn => by have := hn _ _ _ h3; omega)⟩
        · obtain ⟨bs, s', es', h1, h2, h3, x, -, h4, h5⟩ := begins_in_handler dbg as s es hc h hu hp
          exact ⟨bs, s', es', h1, h2, .inside x h3 h4 h5⟩
        · cases dbg with
          | true =>
            obtain ⟨bs, s', es', h1, h2, h3⟩ := reporting_aborts_debug as s es hc h hu hp
            exact ⟨bs, s', es', h1, h2, .abort (fun hn => hn.1 h3)⟩
          | false =>
            exfalso
            apply hq
            refine .inr ⟨rfl, hx, ?_⟩
            simp only [Reports] at hp
            split at hp
            · rename_i n hcp; simp only [hcp]; exact e2 hx n hcp
            · exact hp.elim
  · have hl : s.sh.loaded = false := by simpa using hl
    have hx := e1 hl
    by_cases h1 : s.cp = .run none
    · exact absurd (.inl (.inl ⟨hx, by rw [h1]; trivial⟩)) hq
    · by_cases h2 : s.cp = .ld
      · cases dbg with
        | true =>
          obtain ⟨bs, s', es', h1, h2, h3⟩ := loaded_aborts_debug as s es hc h h2
          exact ⟨bs, s', es', h1, h2, .abort (fun hn => hn.1 h3)⟩
        | false => exact absurd (.inr ⟨rfl, hx, by rw [h2]; trivial⟩) hq
      · obtain ⟨bs, s', es', k1, k2, k3⟩ := loading_broken dbg as s es hc h hl h1 h2
        refine ⟨bs, s', es', k1, k2, ?_⟩
        rcases k3 with k3 | ⟨id, v, k3, k4⟩
        · exact .abort k3
        · exact .reply (fun hn => by have := hn _ _ _ k3; omega)

/-- The calls that the sandbox has taken or can take, other than those under the handler, were made since. -/
private structure Since (B : List (CPc × Nat)) (E : List Ev) (s : SSt) : Prop where
  msg : ∀ x, s.st.sh.msg = some x → .enter x ∈ E
  now : ∀ n x, s.st.cp = .r3 n (some x) → .enter x ∈ E
  above : ∃ A, s.frames = A ++ B ∧ ∀ f ∈ A, ∀ n x, f.1 = .r3 n (some x) → .enter x ∈ E

private theorem since_base {dbg : Bool} {s s' : St} {es : List Ev} {a : Act} (hc : Coop s a) (h : step dbg s a = some (s', es))
    {E : List Ev} (h1 : ∀ x, s.sh.msg = some x → .enter x ∈ E) (h2 : ∀ n x, s.cp = .r3 n (some x) → .enter x ∈ E) :
    (∀ x, s'.sh.msg = some x → .enter x ∈ E ++ es) ∧ (∀ n x, s'.cp = .r3 n (some x) → .enter x ∈ E ++ es) ∧
      ∀ x, .begin x ∈ es → .enter x ∈ E := by
  obtain ⟨sh, reqs, reps, nx, dead, ps, pp, cs, cp⟩ := s
  simp only at h1 h2
  cases a with
  | parent =>
    simp only [step] at h
    cases pp <;> simp only [parentStep, startHandler, wakeChild] at h <;> grind
  | child =>
    simp only [step] at h
    split at h
    · contradiction
    · cases cp <;> simp only [childStep, wakeParent] at h <;> grind
  | crash => exact hc.elim
  | write => exact hc.elim
  | inject => exact hc.elim
  | _ => simp only [step] at h <;> grind

private theorem since_run (dbg : Bool) (bs : List SAct) (f : CPc × Nat) (F : List (CPc × Nat)) : ∀ (s s' : SSt) (E es : List Ev),
    Since (f :: F) E s → CalmRun dbg s bs → Under dbg (F.length + 1) s bs → srun dbg s bs = some (s', es) →
    ∀ x, .begin x ∈ es → .enter x ∈ E ++ es := by
  induction bs with
  | nil => intro s s' E es _ _ _ h x hx; simp [srun] at h; rw [h.2] at hx; cases hx
  | cons a bs ih =>
    intro s s' E es hI hc hu h x hx
    simp only [srun] at h
    rcases h1 : sstep dbg s a with _ | ⟨s1, es1⟩
    · simp [h1] at h
    simp only [h1] at h
    rcases h2 : srun dbg s1 bs with _ | ⟨s2, es2⟩
    · simp [h2] at h
    simp only [h2, Option.some.injEq, Prod.mk.injEq] at h
    obtain ⟨rfl, rfl⟩ := h
    suffices Since (f :: F) (E ++ es1) s1 ∧ ∀ x, .begin x ∈ es1 → .enter x ∈ E by
      rcases List.mem_append.mp hx with hx | hx
      · exact List.mem_append_left _ (this.2 x hx)
      · have := ih s1 _ (E ++ es1) es2 this.1 (hc.2 _ _ h1) (hu _ _ h1).2 h2 x hx
        rw [List.append_assoc] at this
        exact this
    obtain ⟨k1, k2, A, k3, k4⟩ := hI
    have hlen := (hu _ _ h1).1
    cases a with
    | base a =>
      simp only [sstep] at h1
      split at h1
      · contradiction
      rcases hs : step dbg s.st a with _ | ⟨st, e⟩
      · simp [hs] at h1
      simp only [hs, Option.some.injEq, Prod.mk.injEq] at h1
      obtain ⟨rfl, rfl⟩ := h1
      obtain ⟨g1, g2, g3⟩ := since_base hc.1 hs k1 k2
      exact ⟨⟨g1, g2, A, k3, fun f hf n x hx => List.mem_append_left _ (k4 f hf n x hx)⟩, g3⟩
    | signal =>
      simp only [sstep] at h1
      split at h1
      · contradiction
      split at h1
      · contradiction
      · rename_i c hcc
        simp only [Option.some.injEq, Prod.mk.injEq] at h1
        obtain ⟨rfl, rfl⟩ := h1
        refine ⟨⟨by simpa using k1, ?_, (s.st.cp, s.st.cs.length) :: A, by simp [k3], ?_⟩, by simp⟩
        · intro n x hx
          simp only at hx
          subst hx
          generalize s.st.cp = d at hcc
          cases d <;> simp [entry] at hcc
        · intro g hg n x hx
          rcases List.mem_cons.mp hg with rfl | hg
          · simpa using k2 n x hx
          · simpa using k4 g hg n x hx
    | sigret =>
      simp only [sstep] at h1
      split at h1
      · contradiction
      · rename_i c n fs hfs
        split at h1
        · simp only [Option.some.injEq, Prod.mk.injEq] at h1
          obtain ⟨rfl, rfl⟩ := h1
          rcases A with _ | ⟨g, A⟩
          · exfalso
            rw [k3] at hfs
            simp only [List.nil_append, List.cons.injEq] at hfs
            rw [← hfs.2] at hlen
            simp only at hlen
            omega
          · rw [k3] at hfs
            simp only [List.cons_append, List.cons.injEq] at hfs
            obtain ⟨rfl, rfl⟩ := hfs
            refine ⟨⟨by simpa using k1, ?_, A, rfl, ?_⟩, by simp⟩
            · intro m x hx
              simpa using k4 (c, n) (by simp) m x hx
            · intro g hg m x hx
              simpa using k4 g (by simp [hg]) m x hx
        · contradiction

/-- **C107** (no function that was called before begins inside a handler).  Take any run as in `handlers_safe_calm_partial`, a signal at a
calm place, and any continuation during which the handler has not returned.  Every function that begins to run meanwhile was
called meanwhile, so by a handler of the host for one of the callbacks that were made since. -/
theorem calls_wait (dbg : Bool) (as bs : List SAct) (s s1 s2 : SSt) (es es1 es2 : List Ev)
    (hc : CalmRun dbg start (as ++ .signal :: bs)) (h : srun dbg start as = some (s, es))
    (h1 : sstep dbg s .signal = some (s1, es1)) (hu : Under dbg (s.frames.length + 1) s1 bs)
    (h2 : srun dbg s1 bs = some (s2, es2)) : ∀ x, .begin x ∈ es2 → .enter x ∈ es2 := by
  have split : CalmRun dbg start as ∧ CalmRun dbg s (.signal :: bs) := by
    clear h1 hu h2
    generalize start = t at hc h
    induction as generalizing t es with
    | nil => simp only [srun, Option.some.injEq, Prod.mk.injEq] at h; rw [← h.1]; exact ⟨trivial, hc⟩
    | cons a as ih =>
      simp only [srun] at h
      rcases g1 : sstep dbg t a with _ | ⟨t1, e1⟩
      · simp [g1] at h
      simp only [g1] at h
      rcases g2 : srun dbg t1 as with _ | ⟨t2, e2⟩
      · simp [g2] at h
      simp only [g2, Option.some.injEq, Prod.mk.injEq] at h
      obtain ⟨rfl, rfl⟩ := h
      obtain ⟨i1, i2⟩ := ih _ _ (hc.2 _ _ g1) g2
      refine ⟨⟨hc.1, fun s' es' hs => ?_⟩, i2⟩
      rw [g1] at hs
      simp only [Option.some.injEq, Prod.mk.injEq] at hs
      rw [← hs.1]
      exact i1
  obtain ⟨c1, c2⟩ := split
  have hm := calm_no_call dbg as s es c1 h c2.1
  have hs1 := h1
  simp only [sstep] at h1
  split at h1
  · contradiction
  split at h1
  · contradiction
  · rename_i c hcc
    simp only [Option.some.injEq, Prod.mk.injEq] at h1
    obtain ⟨rfl, rfl⟩ := h1
    have := since_run dbg bs (s.st.cp, s.st.cs.length) s.frames _ s2 [] es2 ⟨by simp [hm], ?_, [], rfl, by simp⟩ (c2.2 _ _ hs1) hu h2
    · simpa using this
    · intro n x hx
      simp only at hx
      subst hx
      generalize s.st.cp = d at hcc
      cases d <;> simp [entry] at hcc

/-! ### The hypotheses can be met -/

/-- Decides whether a run is as `handlers_safe_calm_partial` asks. -/
private def calmCheck (dbg : Bool) (s : SSt) : List SAct → Bool
  | [] => true
  | a :: as => (match a with
      | .base b => decide (Coop s.st b)
      | .signal => (s.st.sh.shouldExit && s.st.sh.parent == 0) || !s.st.sh.shouldExit && match s.st.cp with
        | .run _ => true
        | .r3 _ (some _) => true
        | .r4 n | .r5 n => s.st.sh.depth == n
        | .r6 n => !dbg && s.st.sh.depth == n
        | .ld => !dbg
        | _ => false
      | .sigret => true) && match sstep dbg s a with
    | none => true
    | some (s', _) => calmCheck dbg s' as

private theorem calmRun_of_check {dbg : Bool} (as : List SAct) {s : SSt} (h : calmCheck dbg s as = true) :
    CalmRun dbg s as := by
  induction as generalizing s with
  | nil => trivial
  | cons a as ih =>
    simp only [calmCheck, Bool.and_eq_true] at h
    refine ⟨?_, fun s' es hs => ?_⟩
    · cases a with
      | base b => simpa using h.1
      | signal =>
        have h1 := h.1
        simp only [Bool.or_eq_true, Bool.and_eq_true, Bool.not_eq_true', beq_iff_eq] at h1
        rcases h1 with ⟨h1, h2⟩ | ⟨h1, h2⟩
        · exact .inl (.inr ⟨h1, h2⟩)
        · split at h2
          · rename_i hx; exact .inl (.inl ⟨h1, by rw [hx]; trivial⟩)
          · rename_i hx; exact .inl (.inl ⟨h1, by rw [hx]; trivial⟩)
          · rename_i hx; exact .inl (.inl ⟨h1, by rw [hx]; simpa using h2⟩)
          · rename_i hx; exact .inl (.inl ⟨h1, by rw [hx]; simpa using h2⟩)
          · rename_i hx; simp at h2; exact .inr ⟨h2.1, h1, by rw [hx]; simpa using h2.2⟩
          · rename_i hx; simp at h2; exact .inr ⟨h2, h1, by rw [hx]; trivial⟩
          · cases h2
      | sigret => trivial
    · have h2 := h.2
      rw [hs] at h2
      exact ih h2

private def steps : List Act → List SAct := List.map .base

/-- Up to a signal: the library is loaded (in a build without assertions a signal arrives where the loader has ended, and its
handler makes a callback), and a function has begun. -/
private def calmPre (dbg : Bool) : List SAct :=
  steps (exLoad.take 22) ++
    (if dbg then [] else .signal :: steps (.ask :: List.replicate 4 .child ++ List.replicate 4 .parent ++ .finish 73 ::
      List.replicate 3 .parent ++ List.replicate 5 .child) ++ [.sigret]) ++
    steps ([.child, .child] ++ exEnter)

/-- While its handler runs: a callback, whose handler in the host calls a function. -/
private def calmIn : List SAct := steps (exAsk ++ .call 11 :: exEnter ++ exReturn ++ exAnswer 71)

/-- After it: the function returns (in a build without assertions with a signal before that is reported), and the
sandbox is destroyed, with a signal on its way out whose handler makes a callback. -/
private def calmPost (dbg : Bool) : List SAct :=
  .sigret :: steps [.ret, .child, .child] ++
    (if dbg then [] else .signal :: steps (exAsk ++ exAnswer 74) ++ [.sigret]) ++
    steps [.child, .child, .parent, .parent, .destroy, .parent] ++ .signal :: steps (.ask :: List.replicate 4 .child ++
      List.replicate 3 .parent)

/-- The hypotheses of `handlers_safe_calm_partial` hold of this run, with signals at all kinds of calm places; so do, in a build with
assertions, those of `handlers_safe_leaving_partial`. -/
example (dbg : Bool) : CalmRun dbg start (calmPre dbg ++ .signal :: calmIn ++ calmPost dbg) ∧
    ∃ s es, srun dbg start (calmPre dbg ++ .signal :: calmIn ++ calmPost dbg) = some (s, es) ∧
      s.st.pp = .gone ∧ s.st.cp = .exited ∧ s.frames ≠ [] := by
  refine ⟨calmRun_of_check _ (by cases dbg <;> decide +kernel), ?_⟩
  have h : (srun dbg start (calmPre dbg ++ .signal :: calmIn ++ calmPost dbg)).map
      (fun r => (r.1.st.pp, r.1.st.cp, decide (r.1.frames ≠ []))) = some (.gone, .exited, true) := by
    cases dbg <;> decide +kernel
  revert h
  rcases srun dbg start (calmPre dbg ++ .signal :: calmIn ++ calmPost dbg) with _ | ⟨s, es⟩
  · simp
  · intro h
    simp at h
    exact ⟨s, es, rfl, h⟩

/-- Decides whether a run stays within a handler. -/
private def underCheck (dbg : Bool) (k : Nat) (s : SSt) : List SAct → Bool
  | [] => true
  | a :: as => match sstep dbg s a with
    | none => true
    | some (s', _) => decide (k ≤ s'.frames.length) && underCheck dbg k s' as

private theorem under_of_check {dbg : Bool} {k : Nat} (as : List SAct) {s : SSt} (h : underCheck dbg k s as = true) :
    Under dbg k s as := by
  induction as generalizing s with
  | nil => trivial
  | cons a as ih =>
    intro s' es hs
    simp only [underCheck, hs, Bool.and_eq_true, decide_eq_true_eq] at h
    exact ⟨h.1, ih h.2⟩

/-- The hypotheses of `calls_wait` hold of it, and a function does begin within the handler. -/
example (dbg : Bool) : ∃ s s1 s2 es es1 es2, CalmRun dbg start (calmPre dbg ++ .signal :: calmIn) ∧
    srun dbg start (calmPre dbg) = some (s, es) ∧ sstep dbg s .signal = some (s1, es1) ∧
    Under dbg (s.frames.length + 1) s1 calmIn ∧ srun dbg s1 calmIn = some (s2, es2) ∧ .begin 11 ∈ es2 := by
  have h : (match srun dbg start (calmPre dbg) with
    | none => false
    | some (s, _) => match sstep dbg s .signal with
      | none => false
      | some (s1, _) => underCheck dbg (s.frames.length + 1) s1 calmIn && match srun dbg s1 calmIn with
        | none => false
        | some (_, es2) => decide (.begin 11 ∈ es2)) = true := by
    cases dbg <;> decide +kernel
  split at h
  · cases h
  rename_i s es h0
  split at h
  · cases h
  rename_i s1 es1 h1
  simp only [Bool.and_eq_true] at h
  obtain ⟨ha, h⟩ := h
  split at h
  · cases h
  rename_i s2 es2 h2
  exact ⟨s, s1, s2, es, es1, es2, calmRun_of_check _ (by cases dbg <;> decide +kernel), h0, h1, under_of_check _ ha, h2, by simpa using h⟩

/-- The hypotheses of `loading_broken` and `only_calm` hold while the host handles a callback of the loader. -/
example (dbg : Bool) : ∃ as s es, CoopRun dbg init as ∧ run dbg init as = some (s, es) ∧ s.sh.loaded = false ∧ s.cp ≠ .run none ∧
    s.cp ≠ .ld ∧ s.cp ≠ .exited ∧ ¬ Calm dbg s := by
  obtain ⟨s, es, h1, h2, h3, h4, h5⟩ := reaches (dbg := dbg) (as := exLoad.take 12)
    (P := fun s => s.sh.loaded = false ∧ s.cp = .r1 1 ∧ s.sh.shouldExit = false) (by cases dbg <;> decide +kernel)
  exact ⟨_, s, es, h1, h2, h3, by simp [h4], by simp [h4], by simp [h4], by simp [Calm, QuietOrLeaving, Quiet, h4, h5]⟩

/-- The hypotheses of `loaded_aborts_debug` hold where the loader has ended. -/
example : ∃ as s es, CoopRun true init as ∧ run true init as = some (s, es) ∧ s.cp = .ld := by
  obtain ⟨s, es, h1, h2, h3⟩ := reaches (dbg := true) (as := exLoad.take 22) (P := fun s => s.cp = .ld) (by decide +kernel)
  exact ⟨_, s, es, h1, h2, h3⟩

/-- The hypotheses of `destroying_aborts_sandbox` and `only_calm` hold when the host begins to destroy the sandbox. -/
example (dbg : Bool) : ∃ as s es, CoopRun dbg init as ∧ run dbg init as = some (s, es) ∧ s.pp = .d1 ∧ s.cp ≠ .exited ∧
    ¬ Calm dbg s := by
  obtain ⟨s, es, h1, h2, h3, h4, h5⟩ := reaches (dbg := dbg) (as := exLoad ++ exEnter ++ exReturn ++ [.destroy])
    (P := fun s => s.pp = .d1 ∧ s.cp = .r1 0 ∧ s.sh.shouldExit = false) (by cases dbg <;> decide +kernel)
  exact ⟨_, s, es, h1, h2, h3, by simp [h4], by simp [Calm, QuietOrLeaving, Quiet, h4, h5]⟩

/-- The hypotheses of `leaving_aborts_sandbox` and `only_calm` hold when the sandbox has only to leave. -/
example (dbg : Bool) : ∃ as s es, CoopRun dbg init as ∧ run dbg init as = some (s, es) ∧ s.sh.shouldExit = true ∧
    s.sh.parent ≠ 0 ∧ s.cp ≠ .exited ∧ ¬ Calm dbg s := by
  obtain ⟨s, es, h1, h2, h3, h4, h5⟩ := reaches (dbg := dbg)
    (as := exLoad ++ exEnter ++ exReturn ++ [.destroy] ++ List.replicate 4 .parent ++ List.replicate 6 .child)
    (P := fun s => s.sh.shouldExit = true ∧ s.sh.parent ≠ 0 ∧ s.cp = .r0 0) (by cases dbg <;> decide +kernel)
  exact ⟨_, s, es, h1, h2, h3, h4, by simp [h5], by simp [Calm, QuietOrLeaving, Quiet, h3, h4]⟩

end Verif.Signals
