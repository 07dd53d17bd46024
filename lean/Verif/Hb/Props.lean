import Verif.Hb.Spec
import Verif.Token.Crash
import Verif.Token.Props

/-!
# What each side of a call has seen of the other (property C106)
-/

namespace Verif.Hb

open Verif.Token Verif.Token.Spec

/-! ### Who has control -/

/-- The host has control: it has been woken, or has seen that the sandbox is loaded. -/
def hostHas (pp : PPc) (ps : List (From × Nat)) : Prop :=
  match pp with
  | .l3 _ | .l4 _ | .l5 _ | .l6 _ | .a1 _ | .a2 _ _ | .a3 _ | .a4 _ | .a5 _ | .c1 _ | .h1 _ | .h3 _ | .h4 _ | .h5 _ => True
  | .user => ps ≠ []
  | _ => False

/-- The host has control. -/
def HostHas (s : St) : Prop := hostHas s.pp s.ps

/-- The host has not begun to wait for the sandbox. -/
def hostFree (pp : PPc) : Prop :=
  match pp with
  | .user | .s0 _ | .l1 _ => True
  | _ => False

/-- The host has not begun to wait for the sandbox. -/
def HostFree (s : St) : Prop := hostFree s.pp

/-- The sandbox has control. -/
def childHas (cp : CPc) : Prop :=
  match cp with
  | .run _ | .ld | .k2 _ _ | .k3 _ _ _ | .k4 _ _ _ | .r2 _ | .r3 _ _ | .r4 _ | .r5 _ | .r6 _ | .rcv _ _ => True
  | _ => False

/-- The sandbox has control. -/
def ChildHas (s : St) : Prop := childHas s.cp

/-- At most one side has control, and a semaphore that is set was set by a side that then gave up control. -/
private theorem one_side {s : St} {σ : List Item} (hI : Inv s σ) :
    (HostHas s → ¬ ChildHas s ∧ s.sh.child = 0) ∧
    (ChildHas s → s.sh.parent = 0 ∧ (s.sh.loaded = true → ¬ HostFree s)) := by
  cases hI
  all_goals
    (repeat' (first
      | (rename Free _ => hp; cases hp)
      | (rename Free2 _ => hp; cases hp)
      | (rename Ready _ _ => hp; cases hp)
      | (rename Parked _ _ => hp; cases hp)
      | (rename Ending _ => hp; cases hp)
      | (rename Closing _ => hp; cases hp)
      | (rename Closed _ => hp; cases hp))) <;>
    simp [HostHas, hostHas, ChildHas, childHas, HostFree, hostFree]

/-- What the clocks must include, if the last marks of host and sandbox are at `lh` and `lc`. -/
structure W (s : St) (k : Clocks) (lh lc : Nat) : Prop where
  hh : lh ≤ k.host.host
  cc : lc ≤ k.child.child
  hostHas : HostHas s → lc ≤ k.host.child
  semC : s.sh.child ≠ 0 → lh ≤ k.semChild.host
  semP : s.sh.parent ≠ 0 → lc ≤ k.semParent.child
  free : s.sh.loaded = true → HostFree s → lc ≤ k.host.child ∨ lc ≤ k.loaded.child
  childHas : ChildHas s → lh ≤ k.child.host
  uc : k.host.child ≤ k.child.child ∧ k.semChild.child ≤ k.child.child ∧ k.semParent.child ≤ k.child.child ∧
    k.loaded.child ≤ k.child.child
  uh : k.child.host ≤ k.host.host ∧ k.semChild.host ≤ k.host.host ∧ k.semParent.host ≤ k.host.host ∧
    k.loaded.host ≤ k.host.host

/-- Where the last mark of the host is after a step. -/
def nextH (a : Act) (es : List Ev) (k : Clocks) (lh : Nat) : Nat :=
  if es ≠ [] ∧ isHost a = true then k.host.host else lh

/-- Where the last mark of the sandbox is after a step. -/
def nextC (s : St) (a : Act) (es : List Ev) (k : Clocks) (lc : Nat) : Nat :=
  if (es ≠ [] ∨ readsMsg s a = true) ∧ isHost a = false then k.child.child else lc

set_option linter.unusedSimpArgs false in
private theorem parent_ok {dbg : Bool} {s s' : St} {es : List Ev} {k : Clocks} {lh lc : Nat}
    (h1 : HostHas s → ¬ ChildHas s ∧ s.sh.child = 0) (hW : W s k lh lc) (h : parentStep dbg s = some (s', es)) :
    W s' (advance true s .parent k) (nextH .parent es (advance true s .parent k) lh) lc ∧
    (es ≠ [] → HostHas s ∧ (advance true s .parent k).host.child = k.host.child) := by
  obtain ⟨hh, cc, hH, sC, sP, fr, cH, uc, uh⟩ := hW
  obtain ⟨sh, reqs, reps, nx, dead, ps, pp, cs, cp⟩ := s
  cases pp <;> simp only [parentStep, startHandler, wakeChild] at h <;> (try split at h) <;> (try split at h) <;>
    (try contradiction) <;>
    simp only [Option.some.injEq, Prod.mk.injEq] at h <;> obtain ⟨rfl, rfl⟩ := h <;>
    simp only [HostHas, HostFree, hostHas, hostFree, ChildHas] at h1 hH sC sP fr cH <;>
    refine ⟨⟨?_, ?_, ?_, ?_, ?_, ?_, ?_, ?_, ?_⟩, ?_⟩ <;>
    simp only [HostHas, HostFree, hostHas, hostFree, ChildHas, advance, nextH, isHost, VC.join] <;> grind

set_option linter.unusedSimpArgs false in
private theorem child_ok {dbg : Bool} {s s' : St} {es : List Ev} {k : Clocks} {lh lc : Nat}
    (h1 : HostHas s → ¬ ChildHas s ∧ s.sh.child = 0)
    (h2 : ChildHas s → s.sh.parent = 0 ∧ (s.sh.loaded = true → ¬ HostFree s))
    (hW : W s k lh lc) (h : childStep dbg s = some (s', es)) :
    W s' (advance true s .child k) lh (nextC s .child es (advance true s .child k) lc) ∧
    (es ≠ [] ∨ readsMsg s .child = true → ChildHas s ∧ (advance true s .child k).child.host = k.child.host) := by
  obtain ⟨hh, cc, hH, sC, sP, fr, cH, uc, uh⟩ := hW
  obtain ⟨sh, reqs, reps, nx, dead, ps, pp, cs, cp⟩ := s
  cases cp <;> simp only [childStep, wakeParent] at h <;> (try split at h) <;> (try split at h) <;>
    (try contradiction) <;>
    simp only [Option.some.injEq, Prod.mk.injEq] at h <;> obtain ⟨rfl, rfl⟩ := h <;>
    simp only [ChildHas, childHas] at h1 h2 cH <;>
    refine ⟨⟨?_, ?_, ?_, ?_, ?_, ?_, ?_, ?_, ?_⟩, ?_⟩ <;>
    simp only [HostHas, HostFree, ChildHas, childHas, advance, nextC, readsMsg, isHost, VC.join] at hH sC sP fr h1 h2 ⊢ <;> grind


set_option linter.unusedSimpArgs false in
private theorem host_ok {dbg : Bool} {s s' : St} {a : Act} {es : List Ev} {k : Clocks} {lh lc : Nat}
    (ha : isHost a = true) (hn : a ≠ .parent) (hd : s.dead = false) (h1 : HostHas s → ¬ ChildHas s ∧ s.sh.child = 0)
    (hW : W s k lh lc) (h : step dbg s a = some (s', es)) :
    W s' (advance true s a k) (nextH a es (advance true s a k) lh) lc ∧
    (es ≠ [] → HostHas s ∧ (advance true s a k).host.child = k.host.child) := by
  obtain ⟨hh, cc, hH, sC, sP, fr, cH, uc, uh⟩ := hW
  obtain ⟨sh, reqs, reps, nx, dead, ps, pp, cs, cp⟩ := s
  cases a <;> (try contradiction) <;> simp only [step, hd] at h <;>
    (try split at h) <;> (try split at h) <;> (try contradiction) <;>
    simp only [Option.some.injEq, Prod.mk.injEq] at h <;> (try contradiction) <;> obtain ⟨rfl, rfl⟩ := h <;>
    simp_all only [ChildHas, HostHas, HostFree, hostHas, hostFree] <;>
    refine ⟨⟨?_, ?_, ?_, ?_, ?_, ?_, ?_, ?_, ?_⟩, ?_⟩ <;>
    simp only [HostHas, HostFree, hostHas, hostFree, ChildHas, advance, nextH, isHost] <;> grind

set_option linter.unusedSimpArgs false in
private theorem sandbox_ok {dbg : Bool} {s s' : St} {a : Act} {es : List Ev} {k : Clocks} {lh lc : Nat}
    (ha : a = .ask ∨ a = .ret ∨ a = .childTimeout) (h1 : HostHas s → ¬ ChildHas s ∧ s.sh.child = 0)
    (h2 : ChildHas s → s.sh.parent = 0 ∧ (s.sh.loaded = true → ¬ HostFree s))
    (hW : W s k lh lc) (h : step dbg s a = some (s', es)) :
    W s' (advance true s a k) lh (nextC s a es (advance true s a k) lc) ∧
    (es ≠ [] → ChildHas s ∧ (advance true s a k).child.host = k.child.host) := by
  obtain ⟨hh, cc, hH, sC, sP, fr, cH, uc, uh⟩ := hW
  obtain ⟨sh, reqs, reps, nx, dead, ps, pp, cs, cp⟩ := s
  rcases ha with rfl | rfl | rfl <;> simp only [step] at h <;>
    (try split at h) <;> (try split at h) <;> (try contradiction) <;>
    simp only [Option.some.injEq, Prod.mk.injEq] at h <;> (try contradiction) <;> obtain ⟨rfl, rfl⟩ := h <;>
    simp_all only [ChildHas, childHas] <;>
    refine ⟨⟨?_, ?_, ?_, ?_, ?_, ?_, ?_, ?_, ?_⟩, ?_⟩ <;>
    simp only [HostHas, HostFree, ChildHas, childHas, advance, nextC, readsMsg, isHost] at hH sC sP fr h1 h2 ⊢ <;> grind

private theorem advance_host {s : St} {a : Act} {k : Clocks} (ha : isHost a = true) :
    k.host.host < (advance true s a k).host.host := by
  cases a <;> simp [isHost] at ha <;> simp only [advance] <;> grind [VC.join]

private theorem advance_child {s : St} {a : Act} {k : Clocks} (ha : a = .child ∨ a = .ask ∨ a = .ret ∨ a = .childTimeout) :
    k.child.child < (advance true s a k).child.child := by
  rcases ha with rfl | rfl | rfl | rfl <;> simp only [advance] <;> grind [VC.join]

private theorem advance_mono (s : St) (a : Act) (k : Clocks) :
    k.host.host ≤ (advance true s a k).host.host ∧ k.child.child ≤ (advance true s a k).child.child := by
  cases a <;> simp only [advance] <;> grind [VC.join]

private theorem reads {s : St} {a : Act} (h : readsMsg s a = true) : a = .child := by
  unfold readsMsg at h
  split at h
  · rfl
  · cases h

private theorem step_ok {dbg : Bool} {s s' : St} {σ : List Item} {a : Act} {es : List Ev} {k : Clocks} {lh lc : Nat}
    (hI : Inv s σ) (hc : Coop s a) (hW : W s k lh lc) (h : step dbg s a = some (s', es)) :
    W s' (advance true s a k) (nextH a es (advance true s a k) lh) (nextC s a es (advance true s a k) lc) ∧
    (es ≠ [] ∨ readsMsg s a = true → if isHost a then
        k.host.host < (advance true s a k).host.host ∧ lc ≤ (advance true s a k).host.child
      else k.child.child < (advance true s a k).child.child ∧ lh ≤ (advance true s a k).child.host) := by
  obtain ⟨h1, h2⟩ := one_side hI
  have hd := hI.alive
  by_cases ha : isHost a = true
  · have hC : nextC s a es (advance true s a k) lc = lc := by simp [nextC, ha]
    have hm : (es ≠ [] ∨ readsMsg s a = true) → es ≠ [] := by
      rintro (h | h)
      · exact h
      · rw [reads h] at ha; cases ha
    have key : W s' (advance true s a k) (nextH a es (advance true s a k) lh) lc ∧
        (es ≠ [] → HostHas s ∧ (advance true s a k).host.child = k.host.child) := by
      by_cases hp : a = .parent
      · subst hp; exact parent_ok h1 hW h
      · exact host_ok ha hp hd h1 hW h
    rw [hC]
    refine ⟨key.1, fun he => ?_⟩
    rw [if_pos ha]
    obtain ⟨q1, q2⟩ := key.2 (hm he)
    exact ⟨advance_host ha, q2 ▸ hW.hostHas q1⟩
  · have hH : nextH a es (advance true s a k) lh = lh := by simp [nextH, ha]
    have hcase : a = .child ∨ a = .ask ∨ a = .ret ∨ a = .childTimeout := by
      cases a <;> simp [isHost, Coop] at ha hc ⊢
    have key : W s' (advance true s a k) lh (nextC s a es (advance true s a k) lc) ∧
        (es ≠ [] ∨ readsMsg s a = true → ChildHas s ∧ (advance true s a k).child.host = k.child.host) := by
      by_cases hp : a = .child
      · subst hp
        simp only [step, hd] at h
        exact child_ok h1 h2 hW h
      · obtain ⟨q1, q2⟩ := sandbox_ok (hcase.resolve_left hp) h1 h2 hW h
        refine ⟨q1, ?_⟩
        rintro (h | h)
        · exact q2 h
        · exact absurd (reads h) hp
    rw [hH]
    refine ⟨key.1, fun he => ?_⟩
    rw [if_neg ha]
    obtain ⟨q1, q2⟩ := key.2 he
    exact ⟨advance_child hcase, q2 ▸ hW.childHas q1⟩

/-- Every later mark includes the last marks of both sides, and is not included in what came before. -/
private theorem later {dbg : Bool} (as : List Act) {s s' : St} {σ : List Item} {k k' : Clocks} {st : List Stamp}
    {lh lc : Nat} (hI : Inv s σ) (hc : CoopRun dbg s as) (hW : W s k lh lc) (h : run true dbg s k as = some (s', k', st)) :
    st.Pairwise (fun x y => Before x y ∧ ¬ Before y x) ∧
      ∀ y ∈ st, lh ≤ y.clock.host ∧ lc ≤ y.clock.child ∧
        (if y.byHost then k.host.host < y.clock.host else k.child.child < y.clock.child) := by
  induction as generalizing s σ k st lh lc with
  | nil => simp [run] at h; obtain ⟨rfl, rfl, rfl⟩ := h; simp
  | cons a as ih =>
    simp only [run] at h
    rcases h1 : step dbg s a with _ | ⟨s1, es1⟩
    · simp [h1] at h
    simp only [h1] at h
    rcases h2 : run true dbg s1 (advance true s a k) as with _ | ⟨s2, k2, st2⟩
    · simp [h2] at h
    simp only [h2, Option.some.injEq, Prod.mk.injEq] at h
    obtain ⟨rfl, rfl, rfl⟩ := h
    obtain ⟨σ1, -, hI1⟩ := inv_step hI hc.1 h1
    obtain ⟨hW1, hm⟩ := step_ok hI hc.1 hW h1
    obtain ⟨p1, p2⟩ := ih hI1 (hc.2 _ _ h1) hW1 h2
    obtain ⟨m1, m2⟩ := advance_mono s a k
    have hmono : ∀ y ∈ st2, lh ≤ y.clock.host ∧ lc ≤ y.clock.child ∧
        (if y.byHost then k.host.host < y.clock.host else k.child.child < y.clock.child) := by
      intro y hy
      obtain ⟨q1, q2, q3⟩ := p2 y hy
      have e1 : lh ≤ nextH a es1 (advance true s a k) lh := by
        have := hW.hh
        unfold nextH; split <;> omega
      have e2 : lc ≤ nextC s a es1 (advance true s a k) lc := by
        have := hW.cc
        unfold nextC; split <;> omega
      refine ⟨by omega, by omega, ?_⟩
      cases hb : y.byHost <;> simp [hb] at q3 ⊢ <;> omega
    by_cases hs : es1 ≠ [] ∨ readsMsg s a = true
    · have hm := hm hs
      simp only [stamp, if_pos hs, List.cons_append, List.nil_append, List.pairwise_cons, List.mem_cons]
      have uc := hW1.uc.1
      have uh := hW1.uh.1
      have hh := hW.hh
      have cc := hW.cc
      refine ⟨⟨fun y hy => ?_, p1⟩, ?_⟩
      · obtain ⟨q1, q2, q3⟩ := p2 y hy
        by_cases ha : isHost a = true
        · have he : es1 ≠ [] := by
            rcases hs with h | h
            · exact h
            · rw [reads h] at ha; cases ha
          simp only [nextH, he, ha, ne_eq, not_false_eq_true, and_self, if_true] at q1
          simp only [Before, ha, if_true]
          refine ⟨q1, ?_⟩
          split at q3 <;> simp_all <;> omega
        · simp only [nextC, hs, ha, and_self, if_true] at q2
          simp only [Before, ha]
          refine ⟨by simpa using q2, ?_⟩
          split at q3 <;> simp_all <;> omega
      · rintro y (rfl | hy)
        · by_cases ha : isHost a = true
          · simp only [ha, if_true] at hm ⊢; omega
          · simp only [ha] at hm ⊢
            simp at hm ⊢; omega
        · exact hmono y hy
    · simp only [stamp, if_neg hs, List.nil_append]
      exact ⟨p1, hmono⟩

/-! ### C106 -/

/-- The runs with clocks are the runs of the protocol, and the marks carry all its events. -/
theorem marks_are_events (release dbg : Bool) (as : List Act) (s s' : St) (es : List Ev) (k : Clocks)
    (h : Token.run dbg s as = some (s', es)) :
    ∃ k' st, run release dbg s k as = some (s', k', st) ∧ (st.map (·.evs)).flatten = es := by
  induction as generalizing s k es with
  | nil => simp [Token.run] at h; obtain ⟨rfl, rfl⟩ := h; exact ⟨k, [], rfl, rfl⟩
  | cons a as ih =>
    simp only [Token.run] at h
    rcases h1 : step dbg s a with _ | ⟨s1, es1⟩
    · simp [h1] at h
    simp only [h1] at h
    rcases h2 : Token.run dbg s1 as with _ | ⟨s2, es2⟩
    · simp [h2] at h
    simp only [h2, Option.some.injEq, Prod.mk.injEq] at h
    obtain ⟨rfl, rfl⟩ := h
    obtain ⟨k', st, r1, r2⟩ := ih s1 es2 (advance release s a k) h2
    refine ⟨k', stamp s a es1 (advance release s a k) ++ st, by simp [run, h1, r1], ?_⟩
    simp only [List.map_append, List.flatten_append, r2, stamp]
    split <;> simp_all

/-- **C106.** In every run of a host and a sandbox that co-operate, from a fresh sandbox, each step that can be seen
(an event, or a use of the ordinary members of the header) happens before all that come later, in the order of C++, and
none of them happens before it: control is passed with the memory orders that it takes for each side to see all that the
other has done.  So no ordinary data that one side uses while it has control is raced for. -/
theorem control_synchronises {dbg : Bool} {as : List Act} {s' : St} {k' : Clocks} {st : List Stamp}
    (hc : CoopRun dbg init as) (h : run true dbg init zero as = some (s', k', st)) :
    st.Pairwise (fun x y => Before x y ∧ ¬ Before y x) :=
  (later (lh := 0) (lc := 0) as inv_init hc (by constructor <;> simp [zero]) h).1

/-- A call, a callback, and the return of both, with loading before. -/
private def exActs : List Act :=
  [.ret, .child, .child, .call 7, .parent, .parent, .parent, .parent, .parent, .parent, .child, .child, .child, .ask,
   .child, .child, .child, .parent, .parent, .parent, .finish 5, .parent, .parent, .parent, .child, .child, .child, .child,
   .child, .child, .ret, .child, .child, .child, .parent, .parent]

-- A run that meets the hypotheses, with its events.
example : CoopRun true init exActs ∧ ((run true true init zero exActs).map fun r => r.2.2.map (·.evs)) =
    some [[.loaded], [.enter 7], [], [.begin 7], [.ask 0], [.serve 0], [.answer 0 5], [], [.got 0 0 5], [.done], [.leave]] := by
  exact ⟨coopRun_of_check _ (by decide +kernel), by decide +kernel⟩

/-- With semaphores that do not release, the order would be lost: the sandbox may start a call without having seen what
the host wrote for it. -/
theorem release_needed : ∃ as s' k' st, CoopRun true init as ∧ run false true init zero as = some (s', k', st) ∧
    ∃ x ∈ st, ∃ y ∈ st, x.evs = [.enter 7] ∧ y.evs = [.begin 7] ∧ ¬ Before x y := by
  have h : (run false true init zero exActs).map (fun r => r.2.2.any fun x => r.2.2.any fun y =>
      decide (x.evs = [.enter 7]) && decide (y.evs = [.begin 7]) && x.byHost && decide (y.clock.host < x.clock.host)) =
      some true := by decide +kernel
  rcases hr : run false true init zero exActs with _ | ⟨s, k, st⟩
  · simp [hr] at h
  · simp only [hr, Option.map_some, Option.some.injEq, List.any_eq_true, Bool.and_eq_true, decide_eq_true_eq] at h
    obtain ⟨x, hx, y, hy, ⟨⟨h1, h2⟩, h3⟩, h4⟩ := h
    exact ⟨exActs, s, k, st, coopRun_of_check _ (by decide +kernel), hr, x, hx, y, hy, h1, h2, by
      simp only [Before, h3, if_true]; omega⟩

end Verif.Hb
