import Verif.Signals.Spec
import Verif.Token.Crash

/-!
# Signal handlers of the sandboxed library (property C107)
-/

namespace Verif.Signals

open Verif.Token Verif.Token.Spec Spec

private theorem base_length {ps cs σ n} (h : Base ps cs σ n) : n = (cs.length : Int) := by
  induction h with
  | nil => rfl
  | cons id _ ih => simp; omega

/-- Code of a handler's body, or the beginning or end of a callback that it makes. -/
def body : CPc → Prop
  | .run _ | .k2 _ _ | .k3 _ _ _ | .k4 _ _ _ | .rcv _ _ => True
  | _ => False

/-- The newest handler is under way. -/
def TopOk (n : Nat) (s : St) : Prop := n ≤ s.cs.length ∧ (s.cs.length = n → body s.cp)

/-- A place at which a handler may have been started. -/
def place (n : Nat) : CPc → Prop
  | .run (some m) | .r3 m (some _) | .r4 m | .r5 m => m = (n : Int)
  | _ => False

/-- The interrupted places fit each other. -/
def FramesOk : List (CPc × Nat) → Prop
  | [] => True
  | (c, n) :: fs => place n c ∧ (match fs with | [] => True | (_, m) :: _ => m ≤ n ∧ (n = m → body c)) ∧ FramesOk fs

/-- The newest handler, if there is one, is under way. -/
def Top : List (CPc × Nat) → St → Prop
  | [], _ => True
  | (_, n) :: _, s => TopOk n s

/-- Handlers are started after loading, or while loading and then from the loader's code. -/
inductive Mode (s : St) : List (CPc × Nat) → Prop
  | none : Mode s []
  | loaded {fs} : s.sh.loaded = true → FramesOk fs → Top fs s → Mode s fs
  | loading {fs} : s.sh.loaded = false → (∀ f ∈ fs, f = (.run none, 0)) → TopOk 0 s → Mode s fs

structure SInv (s : SSt) (σ : List Item) : Prop where
  inv : Inv s.st σ
  mode : Mode s.st s.frames

private theorem parent_cs {dbg : Bool} {s s' : St} {es : List Ev} (h : parentStep dbg s = some (s', es)) :
    s'.cs = s.cs ∧ s'.cp = s.cp ∧ s'.sh.loaded = s.sh.loaded := by
  obtain ⟨sh, reqs, reps, nx, dead, ps, pp, cs, cp⟩ := s
  cases pp <;> simp only [parentStep, startHandler, wakeChild] at h <;> (try split at h) <;> (try split at h) <;>
    (try contradiction) <;> simp only [Option.some.injEq, Prod.mk.injEq] at h <;> obtain ⟨rfl, rfl⟩ := h <;>
    exact ⟨rfl, rfl, rfl⟩

private theorem child_top {dbg : Bool} {s s' : St} {es : List Ev} {n : Nat} (ht : TopOk n s)
    (h : childStep dbg s = some (s', es)) : TopOk n s' ∧ (s.sh.loaded = true → s'.sh.loaded = true) := by
  obtain ⟨sh, reqs, reps, nx, dead, ps, pp, cs, cp⟩ := s
  obtain ⟨h1, h2⟩ := ht
  cases cp <;> simp only [childStep, wakeParent] at h <;> (try split at h) <;> (try split at h) <;>
    (try contradiction) <;> simp only [Option.some.injEq, Prod.mk.injEq] at h <;> obtain ⟨rfl, rfl⟩ := h <;>
    simp only [TopOk, body] at h1 h2 ⊢ <;> grind

private theorem step_top {dbg : Bool} {s s' : St} {a : Act} {es : List Ev} {n : Nat} (hc : Coop s a) (ht : TopOk n s)
    (hr : a = .ret → s.cs.length ≠ n) (h : step dbg s a = some (s', es)) :
    TopOk n s' ∧ (s.sh.loaded = true → s'.sh.loaded = true) := by
  cases a
  case parent =>
    obtain ⟨h1, h2, h3⟩ := parent_cs h
    simp only [TopOk, h1, h2, h3] at ht ⊢
    exact ⟨ht, id⟩
  case child =>
    simp only [step] at h
    split at h
    · contradiction
    · exact child_top ht h
  case crash => exact absurd hc (by simp [Coop])
  case write => exact absurd hc (by simp [Coop])
  case inject => exact absurd hc (by simp [Coop])
  all_goals
    obtain ⟨sh, reqs, reps, nx, dead, ps, pp, cs, cp⟩ := s
    obtain ⟨h1, h2⟩ := ht
    simp only [step] at h
    (try split at h) <;> (try split at h) <;> (try contradiction) <;>
    simp only [Option.some.injEq, Prod.mk.injEq] at h <;> (try contradiction) <;> obtain ⟨rfl, rfl⟩ := h <;>
    simp only [TopOk, body] at h1 h2 ⊢ <;> grind

private theorem ld_config {s : St} {σ : List Item} (hI : Inv s σ) (h : s.cp = .ld) : s.cs = [] := by
  cases hI <;> (try cases ‹Parked _ _›) <;> (try cases ‹Ending _›) <;> (try cases ‹Closing _›) <;> (try cases ‹Closed _›) <;>
    first | rfl | contradiction

private theorem child_loading {dbg : Bool} {s s' : St} {es : List Ev} (hld : s.cp ≠ .ld)
    (h : childStep dbg s = some (s', es)) : s'.sh.loaded = s.sh.loaded := by
  obtain ⟨sh, reqs, reps, nx, dead, ps, pp, cs, cp⟩ := s
  cases cp <;> simp only [childStep, wakeParent] at h <;> (try split at h) <;> (try split at h) <;>
    (try contradiction) <;> simp only [Option.some.injEq, Prod.mk.injEq] at h <;> obtain ⟨rfl, rfl⟩ := h <;>
    rfl

private theorem other_loading {dbg : Bool} {s s' : St} {a : Act} {es : List Ev} (hc : Coop s a) (ha : a ≠ .parent)
    (hb : a ≠ .child) (h : step dbg s a = some (s', es)) : s'.sh.loaded = s.sh.loaded := by
  cases a
  case parent => exact absurd rfl ha
  case child => exact absurd rfl hb
  case crash => exact absurd hc (by simp [Coop])
  case write => exact absurd hc (by simp [Coop])
  case inject => exact absurd hc (by simp [Coop])
  all_goals
    simp only [step] at h
    (try split at h) <;> (try split at h) <;> (try contradiction) <;>
    simp only [Option.some.injEq, Prod.mk.injEq] at h <;> (try contradiction) <;> obtain ⟨rfl, rfl⟩ := h <;> rfl

private theorem step_loading {dbg : Bool} {s s' : St} {a : Act} {es : List Ev} (hc : Coop s a) (ht : TopOk 0 s)
    (hl : s.sh.loaded = false) {σ : List Item} (hI : Inv s σ) (h : step dbg s a = some (s', es)) :
    s'.sh.loaded = false := by
  by_cases ha : a = .parent
  · subst ha; rw [(parent_cs h).2.2]; exact hl
  by_cases hb : a = .child
  · subst hb
    simp only [step] at h
    split at h
    · contradiction
    · rw [child_loading ?_ h]
      · exact hl
      · intro hld
        have := ht.2 (by rw [ld_config hI hld]; rfl)
        simp [hld, body] at this
  · rw [other_loading hc ha hb h]; exact hl

theorem replay_own {σ σ' : List Item} {es : List Ev} (h : replay σ es = some σ') : OwnReplies es := by
  induction es generalizing σ with
  | nil => intro _ _ _ h; cases h
  | cons e es ih =>
    simp only [replay] at h
    rcases hp : push σ e with _ | σ1
    · simp [hp] at h
    · simp only [hp] at h
      intro id id' v hm
      rcases List.mem_cons.1 hm with rfl | hm
      · unfold push at hp
        split at hp <;> grind
      · exact ih h id id' v hm

/-- A running function, at a depth equal to the number of suspended callbacks. -/
private theorem run_config {s : St} {σ : List Item} {e : Option Int} (hI : Inv s σ) (hc : s.cp = .run e)
    (hl : s.sh.loaded = true) : ∃ nx ps cs σ0, Base ps cs σ0 (cs.length : Int) ∧
      s = ⟨⟨0, 0, (cs.length : Int), true, true, false, none⟩, [], [], nx, false, ps, .w (cs.length : Int), cs,
        .run (some (cs.length : Int))⟩ := by
  cases hI <;> simp at hc hl
  case running hb =>
    have := base_length hb
    subst this
    exact ⟨_, _, _, _, hb, rfl⟩
  all_goals first
    | (cases ‹Parked _ _› <;> first | contradiction | simp at hc)
    | (cases ‹Ending _› <;> first | contradiction | simp at hc)
    | (cases ‹Closing _› <;> first | contradiction | simp at hc)
    | (cases ‹Closed _› <;> first | contradiction | simp at hc)

/-- The state of the system when a signal arrives at a quiet place. -/
private theorem quiet_config {s : St} {σ : List Item} (hI : Inv s σ) (hq : Quiet s) (h1 : s.sh.loaded = true) :
    ∃ nx ps cs σ0 c, Base ps cs σ0 (cs.length : Int) ∧ place cs.length c ∧ entry c = some (.run (some (cs.length : Int))) ∧
      s = ⟨⟨0, 0, (cs.length : Int), true, true, false, none⟩, [], [], nx, false, ps, .w (cs.length : Int), cs, c⟩ := by
  obtain ⟨h2, h3⟩ := hq
  cases hI <;> simp at h1 h2 h3
  case cr3 hb =>
    have := base_length hb
    subst this
    exact ⟨_, _, _, _, _, hb, by simp only [place], rfl, rfl⟩
  case running hb =>
    have := base_length hb
    subst this
    exact ⟨_, _, _, _, _, hb, by simp only [place], rfl, rfl⟩
  case fr4 hb =>
    have := base_length hb
    subst this
    exact ⟨_, _, _, _, _, hb, by simp only [place], rfl, rfl⟩
  case fr5 hb =>
    have := base_length hb
    subst this
    exact ⟨_, _, _, _, _, hb, by simp only [place], rfl, rfl⟩
  case gr4 => omega
  all_goals first
    | (cases ‹Parked _ _› <;> first | contradiction | simp at h3)
    | (cases ‹Ending _› <;> first | contradiction | simp at h3)
    | (cases ‹Closing _› <;> first | contradiction | simp at h3)
    | (cases ‹Closed _› <;> first | contradiction | simp at h3)

private theorem inBody_cons {st : St} {c : CPc} {n : Nat} {fs : List (CPc × Nat)} (h : inBody ⟨st, (c, n) :: fs⟩ = true) :
    (∃ e, st.cp = .run e) ∧ st.cs.length = n := by
  obtain ⟨sh, reqs, reps, nx, dead, ps, pp, cs, cp⟩ := st
  cases cp <;> simp [inBody] at h ⊢
  exact h

/-- While loading, the quiet places are the loader's code. -/
private theorem quiet_loading {s : St} {σ : List Item} (hI : Inv s σ) (hq : Quiet s) (h1 : s.sh.loaded = false) :
    s.cp = .run none ∧ s.cs = [] := by
  obtain ⟨h2, h3⟩ := hq
  cases hI <;> (try cases ‹Parked _ _›) <;> simp at h1 h2 h3 <;> exact ⟨rfl, rfl⟩

private theorem run_loading {s : St} {σ : List Item} {e : Option Int} (hI : Inv s σ) (hc : s.cp = .run e)
    (hl : s.sh.loaded = false) : e = none := by
  inv_cases hI <;> simp_all

private theorem inBody_ret {dbg : Bool} {st st' : St} {c : CPc} {n : Nat} {fs : List (CPc × Nat)} {es : List Ev}
    (h : step dbg st .ret = some (st', es)) (hn : st.cs.length = n) : inBody ⟨st, (c, n) :: fs⟩ = true := by
  obtain ⟨sh, reqs, reps, nx, dead, ps, pp, cs, cp⟩ := st
  cases cp <;> simp [step] at h
  simpa [inBody] using hn

theorem sinv_step {dbg : Bool} {s s' : SSt} {a : SAct} {es : List Ev} {σ : List Item} (hI : SInv s σ)
    (hc : match a with | .base b => Coop s.st b | .signal => Quiet s.st | .sigret => True)
    (h : sstep dbg s a = some (s', es)) : OwnReplies es ∧ ∃ σ', SInv s' σ' := by
  obtain ⟨st, fs⟩ := s
  obtain ⟨h1, hm⟩ := hI
  cases a with
  | base b =>
    simp only [sstep] at h
    split at h
    · contradiction
    · rename_i hr
      rcases hs : step dbg st b with _ | ⟨st', es'⟩
      · simp [hs] at h
      · simp only [hs, Option.some.injEq, Prod.mk.injEq] at h
        obtain ⟨rfl, rfl⟩ := h
        obtain ⟨σ', hrep, hI'⟩ := inv_step h1 hc hs
        refine ⟨replay_own hrep, σ', hI', ?_⟩
        rcases fs with _ | ⟨⟨c, n⟩, fs⟩
        · exact .none
        · have hr' : ∀ m, m = n → b = .ret → st.cs.length ≠ m := by
            rintro m rfl rfl hl
            exact hr ⟨rfl, inBody_ret hs hl⟩
          rcases hm with _ | ⟨hl, hf, ht⟩ | ⟨hl, hf, ht⟩
          · have ht' := step_top hc ht (hr' _ rfl) hs
            exact .loaded (ht'.2 hl) hf ht'.1
          · have hn : (c, n) = (.run none, 0) := hf _ (by simp)
            simp only [Prod.mk.injEq] at hn
            have hr0 := hr' 0 hn.2.symm
            exact .loading (step_loading hc ht hl h1 hs) hf (step_top hc ht hr0 hs).1
  | signal =>
    simp only [sstep] at h
    rcases hl : st.sh.loaded with _ | _
    · obtain ⟨hcp, hcs⟩ := quiet_loading h1 hc hl
      have hd := h1.alive
      simp only at hd hcp hcs
      have hs : sstep dbg ⟨st, fs⟩ .signal = some (⟨st, (.run none, 0) :: fs⟩, []) := by
        obtain ⟨sh, reqs, reps, nx, dead, ps, pp, cs, cp⟩ := st
        simp_all [sstep, entry]
      rw [sstep] at hs
      rw [hs] at h
      simp only [Option.some.injEq, Prod.mk.injEq] at h
      obtain ⟨rfl, rfl⟩ := h
      refine ⟨(by intro _ _ _ h; cases h), σ, h1, ?_⟩
      · refine .loading hl ?_ ⟨Nat.zero_le _, fun _ => by simp only [hcp, body]⟩
        intro f hf
        rcases List.mem_cons.1 hf with rfl | hf
        · rfl
        · rcases hm with _ | ⟨hl', -, -⟩ | ⟨-, hf', -⟩
          · cases hf
          · simp only [hl] at hl'; cases hl'
          · exact hf' f hf
    · obtain ⟨nx, ps, cs, σ0, c, hb, hp, he, rfl⟩ := quiet_config h1 hc hl
      simp only [he, Bool.false_eq_true, if_false, Option.some.injEq, Prod.mk.injEq] at h
      obtain ⟨rfl, rfl⟩ := h
      refine ⟨(by intro _ _ _ h; cases h), _, .running hb, .loaded rfl ⟨hp, ?_, ?_⟩ ⟨Nat.le_refl _, fun _ => trivial⟩⟩
      · rcases hm with _ | ⟨-, -, ht⟩ | ⟨hl', -, -⟩
        · trivial
        · cases fs with
          | nil => trivial
          | cons f fs => exact ht
        · cases hl'
      · rcases hm with _ | ⟨-, hf, -⟩ | ⟨hl', -, -⟩
        · trivial
        · exact hf
        · cases hl'
  | sigret =>
    simp only [sstep] at h
    rcases fs with _ | ⟨⟨c, n⟩, fs⟩
    · contradiction
    · simp only at h
      split at h
      · rename_i hb
        simp only [Option.some.injEq, Prod.mk.injEq] at h
        obtain ⟨rfl, rfl⟩ := h
        refine ⟨(by intro _ _ _ h; cases h), ?_⟩
        obtain ⟨⟨e, hcp⟩, hn⟩ := inBody_cons hb.1
        rcases hm with _ | ⟨hl, hf, ht⟩ | ⟨hl, hf, ht⟩
        · obtain ⟨nx, ps, cs, σ0, hba, rfl⟩ := run_config h1 hcp hl
          obtain ⟨hp, hm, h2⟩ := hf
          simp only at hn
          subst hn
          have htop : Top fs ⟨⟨0, 0, (cs.length : Int), true, true, false, none⟩,
              [], [], nx, false, ps, .w (cs.length : Int), cs, c⟩ := by
            cases fs with
            | nil => trivial
            | cons f fs => exact hm
          have : ∃ σ', Inv ⟨⟨0, 0, (cs.length : Int), true, true, false, none⟩,
              [], [], nx, false, ps, .w (cs.length : Int), cs, c⟩ σ' := by
            unfold place at hp
            split at hp
            · subst hp; exact ⟨_, .running hba⟩
            · subst hp; exact ⟨_, .cr3 hba⟩
            · subst hp; exact ⟨_, .fr4 hba⟩
            · subst hp; exact ⟨_, .fr5 hba⟩
            · contradiction
          obtain ⟨σ', hI'⟩ := this
          exact ⟨σ', hI', .loaded rfl h2 htop⟩
        · have hc' : (c, n) = (.run none, 0) := hf _ (by simp)
          simp only [Prod.mk.injEq] at hc'
          obtain ⟨rfl, rfl⟩ := hc'
          have he := run_loading h1 hcp hl
          subst he
          refine ⟨σ, ?_, .loading hl (fun f h => hf f (by simp [h])) ⟨Nat.zero_le _, fun _ => trivial⟩⟩
          simp only [← hcp]
          exact h1
      · contradiction

private theorem sinv_run {dbg : Bool} (as : List SAct) {s s' : SSt} {es : List Ev} {σ : List Item} (hI : SInv s σ)
    (hc : QuietRun dbg s as) (h : srun dbg s as = some (s', es)) : OwnReplies es ∧ ∃ σ', SInv s' σ' := by
  induction as generalizing s σ es with
  | nil =>
    simp only [srun, Option.some.injEq, Prod.mk.injEq] at h
    obtain ⟨rfl, rfl⟩ := h
    exact ⟨(by intro _ _ _ h; cases h), σ, hI⟩
  | cons a as ih =>
    simp only [srun] at h
    rcases h1 : sstep dbg s a with _ | ⟨s1, es1⟩
    · simp [h1] at h
    · simp only [h1] at h
      rcases h2 : srun dbg s1 as with _ | ⟨s2, es2⟩
      · simp [h2] at h
      · simp only [h2, Option.some.injEq, Prod.mk.injEq] at h
        obtain ⟨rfl, rfl⟩ := h
        obtain ⟨ho, σ1, hI1⟩ := sinv_step hI hc.1 h1
        obtain ⟨ho', hI2⟩ := ih hI1 (hc.2 _ _ h1) h2
        refine ⟨fun id id' v hm => ?_, hI2⟩
        rcases List.mem_append.1 hm with hm | hm
        · exact ho _ _ _ hm
        · exact ho' _ _ _ hm

theorem sinv_live (dbg : Bool) {s : SSt} {σ : List Item} (hI : SInv s σ) :
    NoAbort s.st ∧ (s.st.pp = .user ∨ (s.st.pp = .gone ∧ s.st.cp = .exited) ∨
      ∃ a, (a = .base .parent ∨ a = .base .child ∨ a = .base .ret ∨ a = .sigret) ∧ (sstep dbg s a).isSome ∧
        ¬ (a = .base .parent ∧ Polling s.st)) := by
  obtain ⟨hI, -⟩ := hI
  refine ⟨?_, ?_⟩
  · generalize s.st = st at hI
    inv_cases hI <;> simp [NoAbort]
  · rcases inv_live dbg hI with h | h | ⟨a, ha, hs, hp⟩
    · exact .inl h
    · exact .inr (.inl h)
    · refine .inr (.inr ?_)
      by_cases hb : a = .ret ∧ inBody s = true
      · refine ⟨.sigret, by simp, ?_, by simp⟩
        obtain ⟨st, fs⟩ := s
        rcases fs with _ | ⟨⟨c, n⟩, fs⟩
        · simp [inBody] at hb
        · have hd := hI.alive
          simp only at hd
          simp [sstep, hb.2, hd]
      · refine ⟨.base a, ?_, ?_, ?_⟩
        · rcases ha with rfl | rfl | rfl <;> simp
        · simp only [sstep, if_neg hb]
          rcases hx : step dbg s.st a with _ | ⟨s1, e1⟩
          · simp [hx] at hs
          · rfl
        · rintro ⟨h1, h2⟩
          exact hp ⟨by simpa using h1, h2⟩

/-- **C107** (handlers at quiet places are harmless).  Take any run of a host and a sandbox that co-operate, in which
signals arrive at the sandbox any number of times, also within handlers, but only at quiet places, and in which handlers make
any number of callbacks, whose handlers in the host may call functions of the sandbox in turn.  Neither process aborts, every
callback gets its own reply, and unless the host's own code runs or the sandbox has been destroyed, some process can go
on.  Missing: signals at other places, see below. -/
theorem handlers_safe_partial (dbg : Bool) (as : List SAct) (s : SSt) (es : List Ev) (hc : QuietRun dbg start as)
    (h : srun dbg start as = some (s, es)) :
    NoAbort s.st ∧ OwnReplies es ∧ (s.st.pp = .user ∨ (s.st.pp = .gone ∧ s.st.cp = .exited) ∨
      ∃ a, (a = .base .parent ∨ a = .base .child ∨ a = .base .ret ∨ a = .sigret) ∧ (sstep dbg s a).isSome ∧
        ¬ (a = .base .parent ∧ Polling s.st)) := by
  obtain ⟨ho, σ, hI⟩ := sinv_run as (s := start) ⟨inv_init, .none⟩ hc h
  obtain ⟨g1, g2⟩ := sinv_live dbg hI
  exact ⟨g1, ho, g2⟩

end Verif.Signals
