import Verif.Threads.Spec
import Verif.Token.Props

/-!
# The call protocol with several threads (lemmas)

When the threads take turns, all of them together behave like the one host thread and the one thread of the sandbox of
`Verif.Token`.
-/

namespace Verif.Threads
open Verif.Token Spec

/-- The same state with another sandbox thread. -/
def withKid (cs : List (Nat × Option Int)) (cp : CPc) (r : St × List Ev) : St × List Ev :=
  ({ r.1 with cs := cs, cp := cp }, r.2)

/-- The same state with another host thread. -/
def withHost (ps : List (From × Nat)) (pp : PPc) (r : St × List Ev) : St × List Ev :=
  ({ r.1 with ps := ps, pp := pp }, r.2)

theorem step_host_frame {dbg : Bool} {s : St} {a : Act} (ha : isHost a = true) (cs : List (Nat × Option Int)) (cp : CPc) :
    step dbg { s with cs := cs, cp := cp } a = (step dbg s a).map (withKid cs cp) := by
  rcases s with ⟨sh, reqs, reps, next, dead, ps, pp, cs', cp'⟩
  cases a <;> simp only [isHost, Bool.false_eq_true] at ha
  · cases pp <;> simp only [step, parentStep, startHandler, wakeChild] <;> (repeat' split) <;> simp_all [withKid]
  all_goals simp only [step] <;> (repeat' split) <;> simp_all [withKid]

theorem step_kid_frame {dbg : Bool} {s : St} {a : Act} (ha : isKid a = true) (ps : List (From × Nat)) (pp : PPc) :
    step dbg { s with ps := ps, pp := pp } a = (step dbg s a).map (withHost ps pp) := by
  rcases s with ⟨sh, reqs, reps, next, dead, ps', pp', cs, cp⟩
  cases a <;> simp only [isKid, Bool.false_eq_true] at ha
  · cases cp <;> simp only [step, childStep, wakeParent] <;> (repeat' split) <;> simp_all [withHost]
  all_goals simp only [step] <;> (repeat' split) <;> simp_all [withHost]

/-- A host step does not touch the sandbox's thread. -/
theorem step_host_keeps {dbg : Bool} {s s' : St} {es : List Ev} {a : Act} (ha : isHost a = true)
    (h : step dbg s a = some (s', es)) : s'.cs = s.cs ∧ s'.cp = s.cp := by
  have := step_host_frame (dbg := dbg) (s := s) ha s.cs s.cp
  rw [show ({ s with cs := s.cs, cp := s.cp } : St) = s from rfl, h] at this
  simp only [Option.map_some, withKid, Option.some.injEq, Prod.mk.injEq] at this
  rw [this.1]
  exact ⟨rfl, rfl⟩

theorem step_kid_keeps {dbg : Bool} {s s' : St} {es : List Ev} {a : Act} (ha : isKid a = true)
    (h : step dbg s a = some (s', es)) : s'.ps = s.ps ∧ s'.pp = s.pp := by
  have := step_kid_frame (dbg := dbg) (s := s) ha s.ps s.pp
  rw [show ({ s with ps := s.ps, pp := s.pp } : St) = s from rfl, h] at this
  simp only [Option.map_some, withHost, Option.some.injEq, Prod.mk.injEq] at this
  rw [this.1]
  exact ⟨rfl, rfl⟩

/-- The place in the code of the one thread of `Verif.Token` that stands for a thread of the library at `cp` together
with a main thread that runs a function in loop `e0`. -/
def lift (e0 : Option Int) : CPc → CPc
  | .run e => .run (e.or e0)
  | .k2 id e => .k2 id (e.or e0)
  | .k3 id e n => .k3 id (e.or e0) n
  | .k4 id e n => .k4 id (e.or e0) n
  | .rcv id e => .rcv id (e.or e0)
  | c => c

/-- The same for a suspended callback. -/
def liftE (e0 : Option Int) (x : Nat × Option Int) : Nat × Option Int := (x.1, x.2.or e0)

/-- Only the first callback of a thread of the library was made outside a function of the host. -/
def Shape : List (Nat × Option Int) → Prop
  | [] => True
  | (_, e) :: cs => (e = none ↔ cs = []) ∧ Shape cs

/-- The place in the code fits the suspended callbacks of a thread of the library. -/
def At (cs : List (Nat × Option Int)) : CPc → Prop
  | .run e | .k2 _ e | .k3 _ e _ | .k4 _ e _ | .rcv _ e => e = none ↔ cs = []
  | .ld => False
  | .exited | .aborted => True
  | _ => cs ≠ []

theorem step_lift {dbg : Bool} {sh : Sh} {reqs : List Nat} {reps : List (Nat × Nat)} {next : Nat} {dead : Bool}
    {ps : List (From × Nat)} {pp : PPc} {cs cs0 : List (Nat × Option Int)} {cp : CPc} {e0 : Option Int} {a : Act} {s' : St}
    {es : List Ev} (ha : isKid a = true) (hr : ¬ (a = .ret ∧ cp = .run none)) (hs : Shape cs) (hat : At cs cp)
    (h : step dbg ⟨sh, reqs, reps, next, dead, ps, pp, cs, cp⟩ a = some (s', es)) :
    Shape s'.cs ∧ At s'.cs s'.cp ∧
      step dbg ⟨sh, reqs, reps, next, dead, ps, pp, cs.map (liftE e0) ++ cs0, lift e0 cp⟩ a =
        some ({ s' with cs := s'.cs.map (liftE e0) ++ cs0, cp := lift e0 s'.cp }, es) := by
  cases a <;> simp only [isKid, Bool.false_eq_true] at ha
  · -- child
    cases cp
    case r3 n buf =>
      cases buf <;> simp only [step, childStep] at h ⊢ <;> split at h <;>
        simp_all [lift, At] <;> obtain ⟨rfl, rfl⟩ := h <;> simp_all
    case r4 n =>
      simp only [step, childStep] at h ⊢
      rcases cs with _ | ⟨⟨id, e⟩, cs⟩
      · exact absurd rfl hat
      · simp only [Shape] at hs
        split at h
        · simp at h
        · rename_i hd
          simp only [Bool.not_eq_true] at hd
          subst hd
          simp only [lift, liftE, List.map_cons, List.cons_append, Bool.false_eq_true, if_false]
          split at h
          · rename_i hn
            rw [if_pos hn]
            obtain ⟨rfl, rfl⟩ := by simpa using h
            simp [At, Shape, liftE, hs]
          · rename_i hn
            rw [if_neg hn]
            obtain ⟨rfl, rfl⟩ := by simpa using h
            exact ⟨hs.2, hs.1, rfl⟩
    all_goals
      simp only [step, childStep, lift, wakeParent] at h ⊢
      repeat' split at h
      all_goals simp_all [At]
      all_goals first
        | done
        | (obtain ⟨rfl, rfl⟩ := h; simp_all [Shape, liftE]; done)
        | skip
  · -- ask
    cases cp <;> simp only [step, lift] at h ⊢ <;> try contradiction
    split at h
    · simp at h
    · rename_i hd
      rw [if_neg hd]
      obtain ⟨rfl, rfl⟩ := by simpa using h
      simp_all [At]
  · -- ret
    cases cp <;> simp only [step, lift] at h ⊢ <;> try contradiction
    rename_i e
    cases e with
    | none => exact absurd ⟨rfl, rfl⟩ hr
    | some n =>
      simp only [Option.some_or] at h ⊢
      split at h
      · simp at h
      · rename_i hd
        rw [if_neg hd]
        obtain ⟨rfl, rfl⟩ := by simpa using h
        simp_all [At]
  · -- childTimeout
    cases cp <;> simp only [step, lift] at h ⊢ <;> try contradiction
    split at h
    · simp at h
    · rename_i hd
      rw [if_neg hd]
      obtain ⟨rfl, rfl⟩ := by simpa using h
      simp_all [At]

/-- The threads together stand for the one host thread and the one sandbox thread of `s`. -/
structure Rel (m : MSt) (s : St) : Prop where
  sh : m.sh = s.sh
  reqs : m.reqs = s.reqs
  reps : m.reps = s.reps
  next : m.next = s.next
  dead : m.dead = s.dead
  host : ∃ i : Nat, m.hosts[i]? = some ⟨s.ps, s.pp⟩ ∧ HostsRest m i
  kid : (m.kids[0]? = some ⟨s.cs, s.cp⟩ ∧ KidsRest m 0) ∨
    ∃ (j : Nat) (cs cs0 : List (Nat × Option Int)) (cp : CPc) (e0 : Option Int), j ≠ 0 ∧
      m.kids[0]? = some ⟨cs0, .run e0⟩ ∧ m.kids[j]? = some ⟨cs, cp⟩ ∧ KidsRest m j ∧ Shape cs ∧ At cs cp ∧
      s.cs = cs.map (liftE e0) ++ cs0 ∧ s.cp = lift e0 cp

theorem rel_init (h k : Nat) : Rel (minit h k) init where
  sh := rfl
  reqs := rfl
  reps := rfl
  next := rfl
  dead := rfl
  host := ⟨0, by simp [minit, init, Host.rest], fun k _ h hk => by
    simp only [minit, List.getElem?_replicate] at hk
    grind⟩
  kid := .inl ⟨rfl, fun k hk _ d hd => by
    obtain ⟨k, rfl⟩ := Nat.exists_eq_succ_of_ne_zero hk
    simp only [minit, Nat.succ_eq_add_one, List.getElem?_cons_succ, List.getElem?_replicate] at hd
    grind⟩

/-- A step of the one host thread on behalf of thread `i`. -/
theorem host_sim {dbg : Bool} {m m' : MSt} {s : St} {i : Nat} {a : Act} {es : List Ev} (r : Rel m s)
    (hi : m.hosts[i]? = some ⟨s.ps, s.pp⟩) (hr : HostsRest m i) (h : mstep dbg m (.host i a) = some (m', es)) :
    ∃ s', step dbg s a = some (s', es) ∧ Rel m' s' := by
  simp only [mstep, hi] at h
  split at h
  · rename_i ha
    have hv : m.hostView ⟨s.ps, s.pp⟩ = { s with cs := [], cp := .run none } := by
      simp only [MSt.hostView, r.sh, r.reqs, r.reps, r.next, r.dead]
    rw [hv, step_host_frame ha] at h
    rcases hst : step dbg s a with _ | ⟨s', es'⟩
    · simp [hst] at h
    · simp only [hst, Option.map_some, withKid, Option.some.injEq, Prod.mk.injEq] at h
      obtain ⟨rfl, rfl⟩ := h
      obtain ⟨k1, k2⟩ := step_host_keeps ha hst
      refine ⟨s', rfl, rfl, rfl, rfl, rfl, rfl, ⟨i, ?_, ?_⟩, ?_⟩
      · have : i < m.hosts.length := by grind
        simp [MSt.hostBack, this]
      · intro k hk g hg
        simp only [MSt.hostBack, List.getElem?_set_ne (Ne.symm hk)] at hg
        exact hr k hk g hg
      · have := r.kid
        rw [← k1, ← k2] at this
        exact this
  · simp at h

/-- What a sandbox thread sees, in terms of the one sandbox thread. -/
theorem Rel.kidView {m : MSt} {s : St} (r : Rel m s) (cs : List (Nat × Option Int)) (cp : CPc) :
    m.kidView ⟨cs, cp⟩ = ⟨s.sh, s.reqs, s.reps, s.next, s.dead, [], .user, cs, cp⟩ := by
  simp only [MSt.kidView, r.sh, r.reqs, r.reps, r.next, r.dead]

theorem kidsRest_back {m : MSt} {j : Nat} {s : St} (h : KidsRest m j) : KidsRest (m.kidBack j s) j := by
  intro k hk hj d hd
  simp only [MSt.kidBack, List.getElem?_set_ne (Ne.symm hj)] at hd
  exact h k hk hj d hd

/-- A step of the main thread. -/
theorem main_sim {dbg : Bool} {m m' : MSt} {s : St} {a : Act} {es : List Ev} (r : Rel m s)
    (h0 : m.kids[0]? = some ⟨s.cs, s.cp⟩) (hk : KidsRest m 0) (h : mstep dbg m (.kid 0 a) = some (m', es)) :
    ∃ s', step dbg s a = some (s', es) ∧ Rel m' s' := by
  simp only [mstep, h0] at h
  split at h
  · rename_i ha
    have ha : isKid a = true := by simpa using ha
    rw [r.kidView] at h
    have hf := step_kid_frame (dbg := dbg) (s := s) ha [] .user
    have hf : step dbg ⟨s.sh, s.reqs, s.reps, s.next, s.dead, [], .user, s.cs, s.cp⟩ a =
        (step dbg s a).map (withHost [] .user) := hf
    rw [hf] at h
    rcases hst : step dbg s a with _ | ⟨s', es'⟩
    · simp [hst] at h
    · simp only [hst, Option.map_some, withHost, Option.some.injEq, Prod.mk.injEq] at h
      obtain ⟨rfl, rfl⟩ := h
      obtain ⟨k1, k2⟩ := step_kid_keeps ha hst
      refine ⟨s', rfl, rfl, rfl, rfl, rfl, rfl, ?_, .inl ⟨?_, kidsRest_back hk⟩⟩
      · have := r.host
        rw [← k1, ← k2] at this
        exact this
      · have : 0 < m.kids.length := by grind
        simp [MSt.kidBack, this]
  · simp at h

/-- A step of a thread of the library that may be in a callback. -/
theorem worker_sim {dbg : Bool} {m m' : MSt} {s : St} {j : Nat} {a : Act} {es : List Ev}
    {cs cs0 : List (Nat × Option Int)} {cp : CPc} {e0 : Option Int} (r : Rel m s) (hj : j ≠ 0)
    (h0 : m.kids[0]? = some ⟨cs0, .run e0⟩) (hjk : m.kids[j]? = some ⟨cs, cp⟩) (hk : KidsRest m j) (hs : Shape cs)
    (hat : At cs cp) (h1 : s.cs = cs.map (liftE e0) ++ cs0) (h2 : s.cp = lift e0 cp)
    (h : mstep dbg m (.kid j a) = some (m', es)) :
    ∃ s', step dbg s a = some (s', es) ∧ Rel m' s' := by
  simp only [mstep, hjk] at h
  split at h
  · rename_i ha
    obtain ⟨ha, hr⟩ : isKid a = true ∧ ¬ (a = .ret ∧ cp = .run none) := by
      simp [hj] at ha
      exact ⟨ha.1, fun x => ha.2.elim (· x.1) (· x.2)⟩
    rw [r.kidView] at h
    rcases hst : step dbg ⟨s.sh, s.reqs, s.reps, s.next, s.dead, [], .user, cs, cp⟩ a with _ | ⟨s', es'⟩
    · simp [hst] at h
    · simp only [hst, Option.some.injEq, Prod.mk.injEq] at h
      obtain ⟨rfl, rfl⟩ := h
      obtain ⟨g1, g2, g3⟩ := step_lift (cs0 := cs0) (e0 := e0) ha hr hs hat hst
      rw [← h1, ← h2] at g3
      have hf : step dbg s a = (step dbg ⟨s.sh, s.reqs, s.reps, s.next, s.dead, [], .user, s.cs, s.cp⟩ a).map
          (withHost s.ps s.pp) := step_kid_frame (dbg := dbg)
            (s := ⟨s.sh, s.reqs, s.reps, s.next, s.dead, [], .user, s.cs, s.cp⟩) ha s.ps s.pp
      rw [g3] at hf
      refine ⟨_, hf, rfl, rfl, rfl, rfl, rfl, r.host, .inr ⟨j, s'.cs, cs0, s'.cp, e0, hj, ?_, ?_, kidsRest_back hk, g1,
        g2, rfl, rfl⟩⟩
      · simpa [MSt.kidBack, List.getElem?_set_ne hj] using h0
      · have : j < m.kids.length := by grind
        simp [MSt.kidBack, this]
  · simp at h

/-- Only `ask` and `ret` are steps of a thread that runs code of the library. -/
theorem at_run {dbg : Bool} {m m' : MSt} {j : Nat} {a : Act} {es : List Ev} {cs : List (Nat × Option Int)}
    {e : Option Int} (hk : m.kids[j]? = some ⟨cs, .run e⟩) (h : mstep dbg m (.kid j a) = some (m', es)) :
    a = .ask ∨ (a = .ret ∧ (j ≠ 0 → e ≠ none)) := by
  simp only [mstep, hk] at h
  split at h
  · rename_i ha
    cases a <;> simp [isKid] at ha
    · cases hdd : m.dead <;> simp [hdd, step, childStep, MSt.kidView] at h
    · exact .inl rfl
    · refine .inr ⟨rfl, fun hj he => ?_⟩
      rcases ha with ha | ha
      · exact hj ha
      · exact ha he
    · simp [step, MSt.kidView] at h
  · simp at h

/-- A step of a sandbox thread. -/
theorem kid_sim {dbg : Bool} {m m' : MSt} {s : St} {j : Nat} {a : Act} {es : List Ev} (r : Rel m s)
    (ht : Turn m (.kid j a)) (h : mstep dbg m (.kid j a) = some (m', es)) :
    ∃ s', step dbg s a = some (s', es) ∧ Rel m' s' := by
  rcases r.kid with ⟨h0, hk⟩ | ⟨i, cs, cs0, cp, e0, hi, h0, hik, hk, hs, hat, h1, h2⟩
  · by_cases hj : j = 0
    · subst hj
      exact main_sim r h0 hk h
    · rcases hd : m.kids[j]? with _ | d
      · simp [mstep, hd] at h
      · have := hk j hj hj d hd
        subst this
        rcases at_run hd h with rfl | ⟨rfl, h3⟩
        · obtain ⟨n, rfl⟩ := Nat.exists_eq_succ_of_ne_zero hj
          obtain ⟨hkj, cs0, e0, hm⟩ := ht
          have h4 := h0.symm.trans hm
          simp only [Option.some.injEq, Kid.mk.injEq] at h4
          exact worker_sim (cs := []) (cp := .run none) r hj hm hd hkj trivial
            (by simp [At]) (by simp [h4.1]) (by simp [lift, h4.2]) h
        · exact absurd rfl (h3 hj)
  · have rest : m.kids[i]? = some Kid.rest → s.cs = cs0 ∧ s.cp = .run e0 := by
      intro h3
      have h4 := hik.symm.trans h3
      simp only [Option.some.injEq, Kid.mk.injEq, Kid.rest] at h4
      obtain ⟨rfl, rfl⟩ := h4
      exact ⟨by simpa using h1, by simpa [lift] using h2⟩
    by_cases hj : j = 0
    · subst hj
      have hkr : KidsRest m 0 := by
        rcases at_run h0 h with rfl | ⟨rfl, -⟩ <;> exact ht
      have h3 := rest (by rw [hik, hkr i hi hi _ hik])
      exact main_sim r (by rw [h0, h3.1, h3.2]) hkr h
    · by_cases hij : j = i
      · subst hij
        exact worker_sim r hi h0 hik hk hs hat h1 h2 h
      · rcases hd : m.kids[j]? with _ | d
        · simp [mstep, hd] at h
        · have := hk j hj hij d hd
          subst this
          rcases at_run hd h with rfl | ⟨rfl, h3⟩
          · obtain ⟨n, rfl⟩ := Nat.exists_eq_succ_of_ne_zero hj
            obtain ⟨hkj, -⟩ := ht
            have h3 := rest (by rw [hik, hkj i hi (Ne.symm hij) _ hik])
            exact worker_sim (cs := []) (cp := .run none) r hj h0 hd hkj trivial
              (by simp [At]) (by simp [h3.1]) (by simp [lift, h3.2]) h
          · exact absurd rfl (h3 hj)

/-- A thread outside the protocol can only begin a call or destroy the sandbox. -/
theorem at_rest {dbg : Bool} {m m' : MSt} {i : Nat} {a : Act} {es : List Ev} (hi : m.hosts[i]? = some Host.rest)
    (h : mstep dbg m (.host i a) = some (m', es)) : (∃ x, a = .call x) ∨ a = .destroy := by
  simp only [mstep, hi] at h
  split at h
  · rename_i ha
    cases a <;> simp [isHost] at ha
    · simp [step, parentStep, MSt.hostView, Host.rest] at h
    · exact .inl ⟨_, rfl⟩
    · simp [step, MSt.hostView, Host.rest] at h
    · exact .inr rfl
    · simp [step, MSt.hostView, Host.rest] at h
  · simp at h

/-- One step of the threads is one step of the one host thread and the one sandbox thread, and a co-operative one. -/
theorem sim {dbg : Bool} {m m' : MSt} {s : St} {a : MAct} {es : List Ev} (r : Rel m s) (ht : Turn m a)
    (h : mstep dbg m a = some (m', es)) :
    ∃ b s', Coop s b ∧ step dbg s b = some (s', es) ∧ Rel m' s' := by
  cases a with
  | kid j a =>
    obtain ⟨s', h1, h2⟩ := kid_sim r ht h
    refine ⟨a, s', ?_, h1, h2⟩
    simp only [mstep] at h
    split at h
    · simp at h
    · split at h
      · rename_i ha
        cases a <;> simp [isKid] at ha <;> trivial
      · simp at h
  | host i a =>
    obtain ⟨i0, h0, hr0⟩ := r.host
    obtain ⟨hi, hr⟩ : m.hosts[i]? = some ⟨s.ps, s.pp⟩ ∧ HostsRest m i := by
      by_cases hii : i = i0
      · subst hii
        exact ⟨h0, hr0⟩
      · rcases hd : m.hosts[i]? with _ | d
        · simp [mstep, hd] at h
        · have := hr0 i hii d hd
          subst this
          have hr : HostsRest m i := by
            rcases at_rest hd h with ⟨x, rfl⟩ | rfl <;> exact ht.1
          have := hr i0 (Ne.symm hii) _ h0
          rw [this]
          exact ⟨rfl, hr⟩
    obtain ⟨s', h1, h2⟩ := host_sim r hi hr h
    refine ⟨a, s', ?_, h1, h2⟩
    simp only [mstep, hi] at h
    split at h
    · rename_i ha
      cases a <;> simp [isHost] at ha <;> try trivial
      · rcases ht.2 with h3 | h3
        · exact .inl (by rw [← r.sh]; exact h3)
        · exact .inr (h3 _ hi)
      · show s.sh.loaded = true
        rw [← r.sh]
        exact ht.2
    · simp at h

/-- A run of threads that take turns is a run of one host thread and one sandbox thread, with the same events. -/
theorem sim_run {dbg : Bool} (as : List MAct) {m m' : MSt} {s : St} {es : List Ev} (r : Rel m s)
    (ht : TurnRun dbg m as) (h : mrun dbg m as = some (m', es)) :
    ∃ bs s', CoopRun dbg s bs ∧ run dbg s bs = some (s', es) ∧ Rel m' s' := by
  induction as generalizing m s es with
  | nil =>
    simp [mrun] at h
    obtain ⟨rfl, rfl⟩ := h
    exact ⟨[], s, trivial, rfl, r⟩
  | cons a as ih =>
    simp only [mrun] at h
    rcases h1 : mstep dbg m a with _ | ⟨m1, es1⟩
    · simp [h1] at h
    · simp only [h1] at h
      rcases h2 : mrun dbg m1 as with _ | ⟨m2, es2⟩
      · simp [h2] at h
      · simp only [h2, Option.some.injEq, Prod.mk.injEq] at h
        obtain ⟨rfl, rfl⟩ := h
        obtain ⟨b, s1, hc, hst, r1⟩ := sim r ht.1 h1
        obtain ⟨bs, s2, hcr, hrn, r2⟩ := ih r1 (ht.2 _ _ h1) h2
        refine ⟨b :: bs, s2, ⟨hc, fun s' es' h3 => ?_⟩, ?_, r2⟩
        · rw [hst] at h3
          simp only [Option.some.injEq, Prod.mk.injEq] at h3
          obtain ⟨rfl, rfl⟩ := h3
          exact hcr
        · simp only [run, hst, hrn]

/-- If the one sandbox thread can go on, so can the thread of the library that it stands for. -/
theorem lift_enabled {dbg : Bool} {sh : Sh} {reqs : List Nat} {reps : List (Nat × Nat)} {next : Nat} {dead : Bool}
    {ps ps' : List (From × Nat)} {pp pp' : PPc} {cs cs0 : List (Nat × Option Int)} {cp : CPc} {e0 : Option Int}
    (h : (step dbg ⟨sh, reqs, reps, next, dead, ps, pp, cs.map (liftE e0) ++ cs0, lift e0 cp⟩ .child).isSome = true) :
    (step dbg ⟨sh, reqs, reps, next, dead, ps', pp', cs, cp⟩ .child).isSome = true := by
  cases cp
  case r3 n buf => cases buf <;> simp_all [step, childStep, lift]
  case r4 n =>
    simp only [step, childStep, lift] at h ⊢
    rcases cs with _ | ⟨⟨id, e⟩, cs⟩ <;> split at h <;> simp_all <;> split <;> simp_all
  all_goals
    simp only [step, childStep, lift, wakeParent] at h ⊢
    (repeat' split at h) <;> simp_all <;> (try split) <;> simp_all

end Verif.Threads
