import Verif.Token.Spec

/-!
# The call protocol (invariant)
-/

namespace Verif.Token
open Spec

/-- The suspended calls of the host, the suspended callbacks of the sandbox and the control stack
agree, at nesting depth `n`. -/
inductive Base : List (From × Nat) → List (Nat × Option Int) → List Item → Int → Prop
  | nil : Base [] [] [] 0
  | cons {ps cs σ n} (id : Nat) : Base ps cs σ n →
      Base ((.send n, id) :: ps) ((id, some n) :: cs) (.serving id :: .running :: σ) (n + 1)

theorem Base.nonneg {ps cs σ n} (h : Base ps cs σ n) : 0 ≤ n := by
  induction h with
  | nil => decide
  | cons id _ ih => omega

/-- The host has not begun to use the header, or is in the loading loop outside a callback. -/
inductive Free : PPc → Prop
  | user : Free .user
  | s0 (x) : Free (.s0 x)
  | l1 (x) : Free (.l1 x)

/-- The host is free or waits for a callback made while loading. -/
inductive Free2 : PPc → Prop
  | free {p} : Free p → Free2 p
  | l2 (x) : Free2 (.l2 x)

/-- The host runs its own code, or is about to make a call, with the sandbox loaded. -/
inductive Ready (n : Int) : PPc → Prop
  | user : Ready n .user
  | s0 (x) : Ready n (.s0 x)
  | a1 (x) : Ready n (.a1 x)
  | a2 (x) : Ready n (.a2 x n)

/-- The sandbox waits for a call, or has seen that it is to exit. -/
inductive Ending : CPc → Prop
  | r0 : Ending (.r0 0)
  | r1 : Ending (.r1 0)
  | exited : Ending .exited

/-- The sandbox was woken to exit. -/
inductive Closing : CPc → Prop
  | r2 : Closing (.r2 0)
  | r3 : Closing (.r3 0 none)
  | r4 : Closing (.r4 0)
  | r5 : Closing (.r5 0)

/-- The sandbox has acknowledged and exits. -/
inductive Closed : CPc → Prop
  | r0 : Closed (.r0 0)
  | exited : Closed .exited

/-- The invariant: the list of all configurations of the two processes, with the control stack. -/
inductive Inv : St → List Item → Prop
  -- the sandbox is loading
  | load {e nx p} (hp : Free p) :
      Inv ⟨⟨0, 0, 0, e, false, false, none⟩, [], [], nx, false, [], p, [], .run none⟩ [.loading]
  | loadEnd {nx p} (hp : Free p) :
      Inv ⟨⟨0, 0, 0, false, false, false, none⟩, [], [], nx, false, [], p, [], .ld⟩ [.loading]
  | lk2 {e nx p id} (hp : Free p) :
      Inv ⟨⟨0, 0, 0, e, false, false, none⟩, [id], [], nx, false, [], p, [], .k2 id none⟩
        [.asked id, .loading]
  | lk3 {e nx p id} (hp : Free2 p) :
      Inv ⟨⟨0, 0, 1, e, false, false, none⟩, [id], [], nx, false, [], p, [], .k3 id none 1⟩
        [.asked id, .loading]
  | lk4 {nx p id} (hp : Free2 p) :
      Inv ⟨⟨0, 0, 1, false, false, false, none⟩, [id], [], nx, false, [], p, [], .k4 id none 1⟩
        [.asked id, .loading]
  | lasked {nx p id c} (hp : Free2 p) (hc : Parked 1 c) :
      Inv ⟨⟨0, 1, 1, false, false, false, none⟩, [id], [], nx, false, [], p, [(id, none)], c⟩
        [.asked id, .loading]
  | ll3 {nx x id c} (hc : Parked 1 c) :
      Inv ⟨⟨0, 0, 1, false, false, false, none⟩, [id], [], nx, false, [], .l3 x, [(id, none)], c⟩
        [.asked id, .loading]
  | lserve {nx x id c} (hc : Parked 1 c) :
      Inv ⟨⟨0, 0, 1, false, false, false, none⟩, [], [], nx, false, [(.load x, id)], .user,
        [(id, none)], c⟩ [.serving id, .loading]
  | ll4 {nx x id v c} (hc : Parked 1 c) :
      Inv ⟨⟨0, 0, 1, false, false, false, none⟩, [], [(id, v)], nx, false, [], .l4 x, [(id, none)], c⟩
        [.answered id v, .loading]
  | ll5 {nx x id v c} (hc : Parked 1 c) :
      Inv ⟨⟨0, 0, 0, false, false, false, none⟩, [], [(id, v)], nx, false, [], .l5 x, [(id, none)], c⟩
        [.answered id v, .loading]
  | ll6 {nx x id v c} (hc : Parked 1 c) :
      Inv ⟨⟨0, 0, 0, true, false, false, none⟩, [], [(id, v)], nx, false, [], .l6 x, [(id, none)], c⟩
        [.answered id v, .loading]
  | lanswered {nx p id v c} (hp : Free p) (hc : Parked 1 c) :
      Inv ⟨⟨1, 0, 0, true, false, false, none⟩, [], [(id, v)], nx, false, [], p, [(id, none)], c⟩
        [.answered id v, .loading]
  | lr2 {nx p id v} (hp : Free p) :
      Inv ⟨⟨0, 0, 0, true, false, false, none⟩, [], [(id, v)], nx, false, [], p, [(id, none)], .r2 1⟩
        [.answered id v, .loading]
  | lr3 {nx p id v} (hp : Free p) :
      Inv ⟨⟨0, 0, 0, true, false, false, none⟩, [], [(id, v)], nx, false, [], p, [(id, none)],
        .r3 1 none⟩ [.answered id v, .loading]
  | lr4 {nx p id v} (hp : Free p) :
      Inv ⟨⟨0, 0, 0, true, false, false, none⟩, [], [(id, v)], nx, false, [], p, [(id, none)], .r4 1⟩
        [.answered id v, .loading]
  | lrcv {nx p id v} (hp : Free p) :
      Inv ⟨⟨0, 0, 0, true, false, false, none⟩, [], [(id, v)], nx, false, [], p, [], .rcv id none⟩
        [.answered id v, .loading]
  -- the host has just missed the end of loading
  | late {nx x c} (hc : Parked 0 c) :
      Inv ⟨⟨0, 0, 0, false, true, false, none⟩, [], [], nx, false, [], .l1 x, [], c⟩ []
  -- the host runs
  | ready {nx p ps cs σ n c} (hb : Base ps cs σ n) (hp : Ready n p) (hc : Parked n c) :
      Inv ⟨⟨0, 0, n, false, true, false, none⟩, [], [], nx, false, ps, p, cs, c⟩ σ
  | a3 {nx x ps cs σ n c} (hb : Base ps cs σ n) (hc : Parked n c) :
      Inv ⟨⟨0, 0, n, false, true, false, some x⟩, [], [], nx, false, ps, .a3 n, cs, c⟩ (.called x :: σ)
  | a4 {nx x ps cs σ n c} (hb : Base ps cs σ n) (hc : Parked n c) :
      Inv ⟨⟨0, 0, n, false, true, false, some x⟩, [], [], nx, false, ps, .a4 n, cs, c⟩ (.called x :: σ)
  | a5 {nx x ps cs σ n c} (hb : Base ps cs σ n) (hc : Parked n c) :
      Inv ⟨⟨0, 0, n, true, true, false, some x⟩, [], [], nx, false, ps, .a5 n, cs, c⟩ (.called x :: σ)
  -- the sandbox runs a function
  | called {nx x ps cs σ n c} (hb : Base ps cs σ n) (hc : Parked n c) :
      Inv ⟨⟨1, 0, n, true, true, false, some x⟩, [], [], nx, false, ps, .w n, cs, c⟩ (.called x :: σ)
  | cr2 {nx x ps cs σ n} (hb : Base ps cs σ n) :
      Inv ⟨⟨0, 0, n, true, true, false, some x⟩, [], [], nx, false, ps, .w n, cs, .r2 n⟩
        (.called x :: σ)
  | cr3 {nx x ps cs σ n} (hb : Base ps cs σ n) :
      Inv ⟨⟨0, 0, n, true, true, false, none⟩, [], [], nx, false, ps, .w n, cs, .r3 n (some x)⟩
        (.called x :: σ)
  | running {nx ps cs σ n} (hb : Base ps cs σ n) :
      Inv ⟨⟨0, 0, n, true, true, false, none⟩, [], [], nx, false, ps, .w n, cs, .run (some n)⟩
        (.running :: σ)
  | fr4 {nx ps cs σ n} (hb : Base ps cs σ n) :
      Inv ⟨⟨0, 0, n, true, true, false, none⟩, [], [], nx, false, ps, .w n, cs, .r4 n⟩ (.finished :: σ)
  | fr5 {nx ps cs σ n} (hb : Base ps cs σ n) :
      Inv ⟨⟨0, 0, n, true, true, false, none⟩, [], [], nx, false, ps, .w n, cs, .r5 n⟩ (.finished :: σ)
  | fr6 {nx ps cs σ n} (hb : Base ps cs σ n) :
      Inv ⟨⟨0, 0, n, false, true, false, none⟩, [], [], nx, false, ps, .w n, cs, .r6 n⟩ (.finished :: σ)
  | finished {nx ps cs σ n c} (hb : Base ps cs σ n) (hc : Parked n c) :
      Inv ⟨⟨0, 1, n, false, true, false, none⟩, [], [], nx, false, ps, .w n, cs, c⟩ (.finished :: σ)
  | fc1 {nx ps cs σ n c} (hb : Base ps cs σ n) (hc : Parked n c) :
      Inv ⟨⟨0, 0, n, false, true, false, none⟩, [], [], nx, false, ps, .c1 n, cs, c⟩ (.finished :: σ)
  -- the sandbox makes a callback
  | k2 {nx id ps cs σ n} (hb : Base ps cs σ n) :
      Inv ⟨⟨0, 0, n, true, true, false, none⟩, [id], [], nx, false, ps, .w n, cs, .k2 id (some n)⟩
        (.asked id :: .running :: σ)
  | k3 {nx id ps cs σ n} (hb : Base ps cs σ n) :
      Inv ⟨⟨0, 0, n + 1, true, true, false, none⟩, [id], [], nx, false, ps, .w n, cs,
        .k3 id (some n) (n + 1)⟩ (.asked id :: .running :: σ)
  | k4 {nx id ps cs σ n} (hb : Base ps cs σ n) :
      Inv ⟨⟨0, 0, n + 1, false, true, false, none⟩, [id], [], nx, false, ps, .w n, cs,
        .k4 id (some n) (n + 1)⟩ (.asked id :: .running :: σ)
  | asked {nx id ps cs σ n c} (hb : Base ps cs σ n) (hc : Parked (n + 1) c) :
      Inv ⟨⟨0, 1, n + 1, false, true, false, none⟩, [id], [], nx, false, ps, .w n, (id, some n) :: cs,
        c⟩ (.asked id :: .running :: σ)
  | kc1 {nx id ps cs σ n c} (hb : Base ps cs σ n) (hc : Parked (n + 1) c) :
      Inv ⟨⟨0, 0, n + 1, false, true, false, none⟩, [id], [], nx, false, ps, .c1 n, (id, some n) :: cs,
        c⟩ (.asked id :: .running :: σ)
  | kh1 {nx id ps cs σ n c} (hb : Base ps cs σ n) (hc : Parked (n + 1) c) :
      Inv ⟨⟨0, 0, n + 1, false, true, false, none⟩, [id], [], nx, false, ps, .h1 n, (id, some n) :: cs,
        c⟩ (.asked id :: .running :: σ)
  | kh3 {nx id v ps cs σ n c} (hb : Base ps cs σ n) (hc : Parked (n + 1) c) :
      Inv ⟨⟨0, 0, n + 1, false, true, false, none⟩, [], [(id, v)], nx, false, ps, .h3 n,
        (id, some n) :: cs, c⟩ (.answered id v :: .running :: σ)
  | kh4 {nx id v ps cs σ n c} (hb : Base ps cs σ n) (hc : Parked (n + 1) c) :
      Inv ⟨⟨0, 0, n, false, true, false, none⟩, [], [(id, v)], nx, false, ps, .h4 n,
        (id, some n) :: cs, c⟩ (.answered id v :: .running :: σ)
  | kh5 {nx id v ps cs σ n c} (hb : Base ps cs σ n) (hc : Parked (n + 1) c) :
      Inv ⟨⟨0, 0, n, true, true, false, none⟩, [], [(id, v)], nx, false, ps, .h5 n,
        (id, some n) :: cs, c⟩ (.answered id v :: .running :: σ)
  | answered {nx id v ps cs σ n c} (hb : Base ps cs σ n) (hc : Parked (n + 1) c) :
      Inv ⟨⟨1, 0, n, true, true, false, none⟩, [], [(id, v)], nx, false, ps, .w n,
        (id, some n) :: cs, c⟩ (.answered id v :: .running :: σ)
  | gr2 {nx id v ps cs σ n} (hb : Base ps cs σ n) :
      Inv ⟨⟨0, 0, n, true, true, false, none⟩, [], [(id, v)], nx, false, ps, .w n,
        (id, some n) :: cs, .r2 (n + 1)⟩ (.answered id v :: .running :: σ)
  | gr3 {nx id v ps cs σ n} (hb : Base ps cs σ n) :
      Inv ⟨⟨0, 0, n, true, true, false, none⟩, [], [(id, v)], nx, false, ps, .w n,
        (id, some n) :: cs, .r3 (n + 1) none⟩ (.answered id v :: .running :: σ)
  | gr4 {nx id v ps cs σ n} (hb : Base ps cs σ n) :
      Inv ⟨⟨0, 0, n, true, true, false, none⟩, [], [(id, v)], nx, false, ps, .w n,
        (id, some n) :: cs, .r4 (n + 1)⟩ (.answered id v :: .running :: σ)
  | grcv {nx id v ps cs σ n} (hb : Base ps cs σ n) :
      Inv ⟨⟨0, 0, n, true, true, false, none⟩, [], [(id, v)], nx, false, ps, .w n, cs,
        .rcv id (some n)⟩ (.answered id v :: .running :: σ)
  -- the sandbox is being destroyed
  | d1 {nx c} (hc : Parked 0 c) :
      Inv ⟨⟨0, 0, 0, false, true, false, none⟩, [], [], nx, false, [], .d1, [], c⟩ []
  | d2 {nx c} (hc : Ending c) :
      Inv ⟨⟨0, 0, 0, false, true, true, none⟩, [], [], nx, false, [], .d2, [], c⟩ []
  | d3 {nx c} (hc : Ending c) :
      Inv ⟨⟨0, 0, 0, false, true, true, none⟩, [], [], nx, false, [], .d3, [], c⟩ []
  | d4 {nx c} (hc : Ending c) :
      Inv ⟨⟨0, 0, 0, true, true, true, none⟩, [], [], nx, false, [], .d4, [], c⟩ []
  | gone {nx c} (hc : Ending c) :
      Inv ⟨⟨1, 0, 0, true, true, true, none⟩, [], [], nx, false, [], .gone, [], c⟩ []
  | er {nx c} (hc : Closing c) :
      Inv ⟨⟨0, 0, 0, true, true, true, none⟩, [], [], nx, false, [], .gone, [], c⟩ []
  | er6 {nx} :
      Inv ⟨⟨0, 0, 0, false, true, true, none⟩, [], [], nx, false, [], .gone, [], .r6 0⟩ []
  | ex {nx c} (hc : Closed c) :
      Inv ⟨⟨0, 1, 0, false, true, true, none⟩, [], [], nx, false, [], .gone, [], c⟩ []

theorem inv_init : Inv init [.loading] := .load .user

/-- Closes the side conditions of a configuration. -/
macro "inv_side" : tactic => `(tactic| first
    | assumption
    | exact Parked.r0
    | exact Parked.r1
    | exact Ending.r0
    | exact Ending.r1
    | exact Ending.exited
    | exact Closing.r2
    | exact Closing.r3
    | exact Closing.r4
    | exact Closing.r5
    | exact Closed.r0
    | exact Closed.exited
    | exact Free.user
    | exact Free.s0 _
    | exact Free.l1 _
    | exact Free2.l2 _
    | exact Free2.free ‹_›
    | exact Free2.free Free.user
    | exact Free2.free (Free.s0 _)
    | exact Free2.free (Free.l1 _)
    | exact Ready.user
    | exact Ready.s0 _
    | exact Ready.a1 _
    | exact Ready.a2 _
    | exact Base.nil
    | exact Base.cons _ ‹_›)

/-- Finds the configuration of a state. -/
macro "inv_tac" : tactic => `(tactic| first
    | (refine Inv.load ?_ <;> inv_side)
    | (refine Inv.loadEnd ?_ <;> inv_side)
    | (refine Inv.lk2 ?_ <;> inv_side)
    | (refine Inv.lk3 ?_ <;> inv_side)
    | (refine Inv.lk4 ?_ <;> inv_side)
    | (refine Inv.lasked ?_ ?_ <;> inv_side)
    | (refine Inv.ll3 ?_ <;> inv_side)
    | (refine Inv.lserve ?_ <;> inv_side)
    | (refine Inv.ll4 ?_ <;> inv_side)
    | (refine Inv.ll5 ?_ <;> inv_side)
    | (refine Inv.ll6 ?_ <;> inv_side)
    | (refine Inv.lanswered ?_ ?_ <;> inv_side)
    | (refine Inv.lr2 ?_ <;> inv_side)
    | (refine Inv.lr3 ?_ <;> inv_side)
    | (refine Inv.lr4 ?_ <;> inv_side)
    | (refine Inv.lrcv ?_ <;> inv_side)
    | (refine Inv.late ?_ <;> inv_side)
    | (refine Inv.ready ?_ ?_ ?_ <;> inv_side)
    | (refine Inv.a3 ?_ ?_ <;> inv_side)
    | (refine Inv.a4 ?_ ?_ <;> inv_side)
    | (refine Inv.a5 ?_ ?_ <;> inv_side)
    | (refine Inv.called ?_ ?_ <;> inv_side)
    | (refine Inv.cr2 ?_ <;> inv_side)
    | (refine Inv.cr3 ?_ <;> inv_side)
    | (refine Inv.running ?_ <;> inv_side)
    | (refine Inv.fr4 ?_ <;> inv_side)
    | (refine Inv.fr5 ?_ <;> inv_side)
    | (refine Inv.fr6 ?_ <;> inv_side)
    | (refine Inv.finished ?_ ?_ <;> inv_side)
    | (refine Inv.fc1 ?_ ?_ <;> inv_side)
    | (refine Inv.k2 ?_ <;> inv_side)
    | (refine Inv.k3 ?_ <;> inv_side)
    | (refine Inv.k4 ?_ <;> inv_side)
    | (refine Inv.asked ?_ ?_ <;> inv_side)
    | (refine Inv.kc1 ?_ ?_ <;> inv_side)
    | (refine Inv.kh1 ?_ ?_ <;> inv_side)
    | (refine Inv.kh3 ?_ ?_ <;> inv_side)
    | (refine Inv.kh4 ?_ ?_ <;> inv_side)
    | (refine Inv.kh5 ?_ ?_ <;> inv_side)
    | (refine Inv.answered ?_ ?_ <;> inv_side)
    | (refine Inv.gr2 ?_ <;> inv_side)
    | (refine Inv.gr3 ?_ <;> inv_side)
    | (refine Inv.gr4 ?_ <;> inv_side)
    | (refine Inv.grcv ?_ <;> inv_side)
    | (refine Inv.d1 ?_ <;> inv_side)
    | (refine Inv.d2 ?_ <;> inv_side)
    | (refine Inv.d3 ?_ <;> inv_side)
    | (refine Inv.d4 ?_ <;> inv_side)
    | (refine Inv.gone ?_ <;> inv_side)
    | (refine Inv.er ?_ <;> inv_side)
    | exact Inv.er6
    | (refine Inv.ex ?_ <;> inv_side))

theorem Base.push_enter {ps cs σ n} (h : Base ps cs σ n) (x : Nat) :
    push σ (.enter x) = some (.called x :: σ) := by
  cases h <;> rfl

theorem lt_succ_true (n : Int) : (n < n + 1) = True := eq_true (by omega)

theorem eq_succ_false (n : Int) : (n = n + 1) = False := eq_false (by omega)

/-- Runs one step from a known configuration and finds the next one. -/
macro "inv_run" h:ident ha:ident a:ident : tactic => `(tactic| (
    cases $a:ident <;> simp [step, parentStep, childStep, Coop, wakeChild, wakeParent,
      startHandler, lt_succ_true, eq_succ_false] at $h:ident $ha:ident <;>
    (try (obtain ⟨h1, h2⟩ := $h:ident; subst h1; subst h2)) <;>
    refine ⟨_, by (first | rfl | (simp [replay, push]; done) | (simp [replay, push]; rfl)), ?_⟩ <;> inv_tac))

set_option linter.unusedSimpArgs false in
theorem inv_step {dbg : Bool} {s s' : St} {a : Act} {es : List Ev} {σ : List Item} (hI : Inv s σ)
    (ha : Coop s a) (h : step dbg s a = some (s', es)) :
    ∃ σ', replay σ es = some σ' ∧ Inv s' σ' := by
  cases hI
  case load hp =>
    cases hp <;> inv_run h ha a
  case loadEnd hp =>
    cases hp <;> inv_run h ha a
  case lk2 hp =>
    cases hp <;> inv_run h ha a
  case lk3 hp =>
    rcases hp with ⟨⟨⟩⟩ | _ <;> inv_run h ha a
  case lk4 hp =>
    rcases hp with ⟨⟨⟩⟩ | _ <;> inv_run h ha a
  case lasked hp hc =>
    rcases hp with ⟨⟨⟩⟩ | _ <;> cases hc <;> inv_run h ha a
  case ll3 hc =>
    cases hc <;> inv_run h ha a
  case lserve hc =>
    cases hc <;> inv_run h ha a
  case ll4 hc =>
    cases hc <;> inv_run h ha a
  case ll5 hc =>
    cases hc <;> inv_run h ha a
  case ll6 hc =>
    cases hc <;> inv_run h ha a
  case lanswered hp hc =>
    cases hp <;> cases hc <;> inv_run h ha a
  case lr2 hp =>
    cases hp <;> inv_run h ha a
  case lr3 hp =>
    cases hp <;> inv_run h ha a
  case lr4 hp =>
    cases hp <;> inv_run h ha a
  case lrcv hp =>
    cases hp <;> inv_run h ha a
  case late hc =>
    cases hc <;> inv_run h ha a
  case ready hp hc hb =>
    cases hb
    case nil => cases hc <;> cases hp <;> inv_run h ha a
    case cons hb => cases hc <;> cases hp <;> inv_run h ha a
  case a3 hb hc =>
    cases hc <;> inv_run h ha a
  case a4 hb hc =>
    cases hc <;> inv_run h ha a
  case a5 hb hc =>
    cases hc <;> inv_run h ha a
  case called hb hc =>
    cases hc <;> inv_run h ha a
  case cr2 hb =>
    inv_run h ha a
  case cr3 hb =>
    inv_run h ha a
  case running hb =>
    inv_run h ha a
  case fr4 hb =>
    inv_run h ha a
  case fr5 hb =>
    inv_run h ha a
  case fr6 hb =>
    inv_run h ha a
  case finished hb hc =>
    cases hc <;> inv_run h ha a
  case fc1 hb hc =>
    cases hc <;> inv_run h ha a
  case k2 hb =>
    inv_run h ha a
  case k3 hb =>
    inv_run h ha a
  case k4 hb =>
    inv_run h ha a
  case asked hb hc =>
    cases hc <;> inv_run h ha a
  case kc1 hb hc =>
    cases hc <;> inv_run h ha a
  case kh1 hb hc =>
    cases hc <;> inv_run h ha a
  case kh3 hb hc =>
    cases hc <;> inv_run h ha a
  case kh4 hb hc =>
    cases hc <;> inv_run h ha a
  case kh5 hb hc =>
    cases hc <;> inv_run h ha a
  case answered hb hc =>
    cases hc <;> inv_run h ha a
  case gr2 hb =>
    inv_run h ha a
  case gr3 hb =>
    inv_run h ha a
  case gr4 hb =>
    inv_run h ha a
  case grcv hb =>
    inv_run h ha a
  case d1 hc =>
    cases hc <;> inv_run h ha a
  case d2 hc =>
    cases hc <;> inv_run h ha a
  case d3 hc =>
    cases hc <;> inv_run h ha a
  case d4 hc =>
    cases hc <;> inv_run h ha a
  case gone hc =>
    cases hc <;> inv_run h ha a
  case er hc =>
    cases hc <;> inv_run h ha a
  case er6  =>
    inv_run h ha a
  case ex hc =>
    cases hc <;> inv_run h ha a

theorem Base.len {ps cs σ n} (h : Base ps cs σ n) : cs.length = ps.length := by
  induction h with
  | nil => rfl
  | cons id _ ih => simp [ih]

theorem Base.depth {ps cs σ n} (h : Base ps cs σ n) : n = (ps.length : Int) := by
  induction h with
  | nil => rfl
  | cons id _ ih => simp [ih]

/-- Steps left at the top level of the control stack, as far as they depend on the sandbox. -/
def rankC (s : St) : Nat :=
  match s.cp with
  | .k2 _ _ => 23
  | .k3 _ _ _ => 22
  | .k4 _ _ _ => 21
  | .r2 _ => if s.cs.length > s.ps.length then 11 else 9
  | .r3 _ (some _) => 8
  | .r3 _ none => 10
  | .run _ => 7
  | .r4 _ => if s.cs.length > s.ps.length then 9 else 6
  | .r5 _ => 5
  | .r6 _ => 4
  | .rcv _ _ => 8
  | _ => 0

/-- Steps left while the sandbox shuts down. -/
def rankG (s : St) : Nat :=
  match s.cp with
  | .r2 _ => 6
  | .r3 _ _ => 5
  | .r4 _ => 4
  | .r5 _ => 3
  | .r6 _ => 2
  | _ => 0

/-- Steps left at the top level of the control stack. -/
def rankP (s : St) : Nat :=
  match s.pp with
  | .l1 _ => 17
  | .s0 _ => 16
  | .a1 _ => 15
  | .a2 _ _ => 14
  | .a3 _ => 13
  | .a4 _ => 12
  | .a5 _ => 11
  | .h1 _ => 17
  | .h3 _ => 15
  | .h4 _ => 14
  | .h5 _ => 13
  | .c1 d => if s.sh.depth > d then 18 else 1
  | .w d =>
    if s.sh.child = 1 then (if s.cs.length > s.ps.length then 12 else 10)
    else if s.sh.parent = 1 then (if s.sh.depth > d then 19 else 2)
    else rankC s
  | .d1 => 11
  | .d2 => 10
  | .d3 => 9
  | .d4 => 8
  | .gone => if s.sh.child = 1 then 7 else rankG s
  | _ => 0

/-- Bound on the steps left until the host's own code runs at the outermost level. -/
def rank (s : St) : Nat :=
  16 * s.ps.length + rankP s + (match s.cp with | .r0 _ => 1 | _ => 0)

/-- Runs one step from a known configuration and compares ranks. -/
macro "rank_run" h:ident ha:ident a:ident : tactic => `(tactic| (
    cases $a:ident <;> simp [step, parentStep, childStep, Coop, wakeChild, wakeParent,
      startHandler, lt_succ_true, eq_succ_false] at $h:ident $ha:ident <;>
    (try (obtain ⟨h1, h2⟩ := $h:ident; subst h1; subst h2)) <;>
    (try (subst $h:ident)) <;>
    simp [rank, rankP, rankC, rankG, work, choices, lt_succ_true, *] <;> omega))

set_option linter.unusedSimpArgs false in
theorem rank_step {dbg : Bool} {s s' : St} {a : Act} {es : List Ev} {σ : List Item} (hI : Inv s σ)
    (hld : s.sh.loaded = true) (ha : Coop s a) (h : step dbg s a = some (s', es)) :
    s'.sh.loaded = true ∧ work [a] + rank s' ≤ rank s + 24 * choices [a] := by
  cases hI <;> try (exact absurd hld Bool.false_ne_true)
  case late hc =>
    cases hc <;> rank_run h ha a
  case ready hp hc hb =>
    cases hb <;> cases hp <;> cases hc <;> rank_run h ha a
  case a3 hb hc =>
    have hl := hb.len
    cases hc <;> rank_run h ha a
  case a4 hb hc =>
    have hl := hb.len
    cases hc <;> rank_run h ha a
  case a5 hb hc =>
    have hl := hb.len
    cases hc <;> rank_run h ha a
  case called hb hc =>
    have hl := hb.len
    cases hc <;> rank_run h ha a
  case cr2 hb =>
    have hl := hb.len
    rank_run h ha a
  case cr3 hb =>
    have hl := hb.len
    rank_run h ha a
  case running hb =>
    have hl := hb.len
    rank_run h ha a
  case fr4 hb =>
    have hl := hb.len
    rank_run h ha a
  case fr5 hb =>
    have hl := hb.len
    rank_run h ha a
  case fr6 hb =>
    have hl := hb.len
    rank_run h ha a
  case finished hb hc =>
    have hl := hb.len
    cases hc <;> rank_run h ha a
  case fc1 hb hc =>
    have hl := hb.len
    cases hc <;> rank_run h ha a
  case k2 hb =>
    have hl := hb.len
    rank_run h ha a
  case k3 hb =>
    have hl := hb.len
    rank_run h ha a
  case k4 hb =>
    have hl := hb.len
    rank_run h ha a
  case asked hb hc =>
    have hl := hb.len
    cases hc <;> rank_run h ha a
  case kc1 hb hc =>
    have hl := hb.len
    cases hc <;> rank_run h ha a
  case kh1 hb hc =>
    have hl := hb.len
    cases hc <;> rank_run h ha a
  case kh3 hb hc =>
    have hl := hb.len
    cases hc <;> rank_run h ha a
  case kh4 hb hc =>
    have hl := hb.len
    cases hc <;> rank_run h ha a
  case kh5 hb hc =>
    have hl := hb.len
    cases hc <;> rank_run h ha a
  case answered hb hc =>
    have hl := hb.len
    cases hc <;> rank_run h ha a
  case gr2 hb =>
    have hl := hb.len
    rank_run h ha a
  case gr3 hb =>
    have hl := hb.len
    rank_run h ha a
  case gr4 hb =>
    have hl := hb.len
    rank_run h ha a
  case grcv hb =>
    have hl := hb.len
    rank_run h ha a
  case d1 hc =>
    cases hc <;> rank_run h ha a
  case d2 hc =>
    cases hc <;> rank_run h ha a
  case d3 hc =>
    cases hc <;> rank_run h ha a
  case d4 hc =>
    cases hc <;> rank_run h ha a
  case gone hc =>
    cases hc <;> rank_run h ha a
  case er hc =>
    cases hc <;> rank_run h ha a
  case er6  =>
    rank_run h ha a
  case ex hc =>
    cases hc <;> rank_run h ha a


/-- Names a side that can take a step. -/
macro "live_run" : tactic => `(tactic| first
    | exact Or.inl rfl
    | exact Or.inr (Or.inl ⟨rfl, rfl⟩)
    | (refine Or.inr (Or.inr ⟨.child, Or.inr (Or.inl rfl), ?_, ?_⟩) <;>
        simp [step, childStep, eq_succ_false] <;> done)
    | (refine Or.inr (Or.inr ⟨.ret, Or.inr (Or.inr rfl), ?_, ?_⟩) <;> simp [step] <;> done)
    | (refine Or.inr (Or.inr ⟨.parent, Or.inl rfl, ?_, ?_⟩) <;>
        simp [step, parentStep, Polling, lt_succ_true] <;> done))

set_option linter.unusedSimpArgs false in
theorem inv_live (dbg : Bool) {s : St} {σ : List Item} (hI : Inv s σ) :
    s.pp = .user ∨ (s.pp = .gone ∧ s.cp = .exited) ∨
      ∃ a, (a = .parent ∨ a = .child ∨ a = .ret) ∧ (step dbg s a).isSome ∧
        ¬ (a = .parent ∧ Polling s) := by
  cases hI
  case load hp =>
    cases hp <;> live_run
  case loadEnd hp =>
    cases hp <;> live_run
  case lk2 hp =>
    cases hp <;> live_run
  case lk3 hp =>
    rcases hp with ⟨⟨⟩⟩ | _ <;> live_run
  case lk4 hp =>
    rcases hp with ⟨⟨⟩⟩ | _ <;> live_run
  case lasked hp hc =>
    rcases hp with ⟨⟨⟩⟩ | _ <;> cases hc <;> live_run
  case ll3 hc =>
    cases hc <;> live_run
  case lserve hc =>
    cases hc <;> live_run
  case ll4 hc =>
    cases hc <;> live_run
  case ll5 hc =>
    cases hc <;> live_run
  case ll6 hc =>
    cases hc <;> live_run
  case lanswered hp hc =>
    cases hp <;> cases hc <;> live_run
  case lr2 hp =>
    cases hp <;> live_run
  case lr3 hp =>
    cases hp <;> live_run
  case lr4 hp =>
    cases hp <;> live_run
  case lrcv hp =>
    cases hp <;> live_run
  case late hc =>
    cases hc <;> live_run
  case ready hp hc hb =>
    cases hb <;> cases hp <;> cases hc <;> live_run
  case a3 hb hc =>
    have hl := hb.len
    cases hc <;> live_run
  case a4 hb hc =>
    have hl := hb.len
    cases hc <;> live_run
  case a5 hb hc =>
    have hl := hb.len
    cases hc <;> live_run
  case called hb hc =>
    have hl := hb.len
    cases hc <;> live_run
  case cr2 hb =>
    have hl := hb.len
    live_run
  case cr3 hb =>
    have hl := hb.len
    live_run
  case running hb =>
    have hl := hb.len
    live_run
  case fr4 hb =>
    have hl := hb.len
    live_run
  case fr5 hb =>
    have hl := hb.len
    live_run
  case fr6 hb =>
    have hl := hb.len
    live_run
  case finished hb hc =>
    have hl := hb.len
    cases hc <;> live_run
  case fc1 hb hc =>
    have hl := hb.len
    cases hc <;> live_run
  case k2 hb =>
    have hl := hb.len
    live_run
  case k3 hb =>
    have hl := hb.len
    live_run
  case k4 hb =>
    have hl := hb.len
    live_run
  case asked hb hc =>
    have hl := hb.len
    cases hc <;> live_run
  case kc1 hb hc =>
    have hl := hb.len
    cases hc <;> live_run
  case kh1 hb hc =>
    have hl := hb.len
    cases hc <;> live_run
  case kh3 hb hc =>
    have hl := hb.len
    cases hc <;> live_run
  case kh4 hb hc =>
    have hl := hb.len
    cases hc <;> live_run
  case kh5 hb hc =>
    have hl := hb.len
    cases hc <;> live_run
  case answered hb hc =>
    have hl := hb.len
    cases hc <;> live_run
  case gr2 hb =>
    have hl := hb.len
    live_run
  case gr3 hb =>
    have hl := hb.len
    live_run
  case gr4 hb =>
    have hl := hb.len
    live_run
  case grcv hb =>
    have hl := hb.len
    live_run
  case d1 hc =>
    cases hc <;> live_run
  case d2 hc =>
    cases hc <;> live_run
  case d3 hc =>
    cases hc <;> live_run
  case d4 hc =>
    cases hc <;> live_run
  case gone hc =>
    cases hc <;> live_run
  case er hc =>
    cases hc <;> live_run
  case er6  =>
    live_run
  case ex hc =>
    cases hc <;> live_run


end Verif.Token
