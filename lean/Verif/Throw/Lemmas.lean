import Verif.Throw.Spec
import Verif.Token.Props

/-!
# Handlers that throw (invariant)
-/

namespace Verif.Throw
open Verif.Token (St Sh PPc CPc From)
open Verif.Token.Spec (Item Parked Coop Polling HostWaits SandboxWaits NoAbort)

/-- The suspended calls of the host, the suspended callbacks of the sandbox and the control stack agree, at nesting depth `n`.  A
callback that an exception has abandoned is suspended in the sandbox alone. -/
inductive Base : List (From × Nat) → List (Nat × Option Int) → List Item → Int → Prop
  | nil : Base [] [] [] 0
  | cons {ps cs σ n} (id : Nat) : Base ps cs σ n →
      Base ((.send n, id) :: ps) ((id, some n) :: cs) (.serving id :: .running :: σ) (n + 1)
  | lost {ps cs σ n} (id : Nat) : Base ps cs σ n → Base ps ((id, some n) :: cs) σ (n + 1)

theorem Base.len {ps cs σ n} (h : Base ps cs σ n) : (cs.length : Int) = n := by
  induction h with
  | nil => rfl
  | cons id _ ih => simp [ih]
  | lost id _ ih => simp [ih]

theorem Base.le {ps cs σ n} (h : Base ps cs σ n) : ps.length ≤ cs.length := by
  induction h with
  | nil => simp
  | cons id _ ih => simp; omega
  | lost id _ ih => simp; omega

theorem Base.empty {cs σ n} (h : Base [] cs σ n) : σ = [] := by
  generalize hp : ([] : List (From × Nat)) = ps at h
  induction h with
  | nil => rfl
  | cons id _ ih => cases hp
  | lost id _ ih => exact ih hp

/-- The sandbox waits for a call, or has seen that it is to exit. -/
inductive Ending (n : Int) : CPc → Prop
  | r0 : Ending n (.r0 n)
  | r1 : Ending n (.r1 n)
  | exited : Ending n .exited

/-- The sandbox was woken to exit. -/
inductive Closing (n : Int) : CPc → Prop
  | r2 : Closing n (.r2 n)
  | r3 : Closing n (.r3 n none)
  | r4 : Closing n (.r4 n)
  | r5 : Closing n (.r5 n)

/-- The sandbox has acknowledged and exits. -/
inductive Closed (n : Int) : CPc → Prop
  | r0 : Closed n (.r0 n)
  | exited : Closed n .exited

/-- The invariant: the list of all configurations of the two processes, with the control stack. -/
inductive Inv : St → List Item → Prop
  -- the host has just missed the end of loading
  | late {nx x c} (hc : Parked 0 c) :
      Inv ⟨⟨0, 0, 0, false, true, false, none⟩, [], [], nx, false, [], .l1 x, [], c⟩ []
  -- the host runs
  | ready {nx p ps cs σ n c} (hb : Base ps cs σ n) (hp : Token.Ready n p) (hc : Parked n c) :
      Inv ⟨⟨0, 0, n, false, true, false, none⟩, [], [], nx, false, ps, p, cs, c⟩ σ
  | a3 {nx x ps cs σ n c} (hb : Base ps cs σ n) (hc : Parked n c) :
      Inv ⟨⟨0, 0, n, false, true, false, some x⟩, [], [], nx, false, ps, .a3 n, cs, c⟩ (.called x :: σ)
  | a4 {nx x ps cs σ n c} (hb : Base ps cs σ n) (hc : Parked n c) :
      Inv ⟨⟨0, 0, n, false, true, false, some x⟩, [], [], nx, false, ps, .a4 n, cs, c⟩ (.called x :: σ)
  | a5 {nx x ps cs σ n c} (hb : Base ps cs σ n) (hc : Parked n c) :
      Inv ⟨⟨0, 0, n, true, true, false, some x⟩, [], [], nx, false, ps, .a5 n, cs, c⟩ (.called x :: σ)
  -- the sandbox runs a function
  | called {nx x ps cs σ n c} (hb : Base ps cs σ n) (hc : Parked n c) :
      Inv ⟨⟨1, 0, n, true, true, false, some x⟩, [], [], nx, false, ps, .w n, cs, c⟩ (.called x :: σ)
  | cr2 {nx x ps cs σ n} (hb : Base ps cs σ n) :
      Inv ⟨⟨0, 0, n, true, true, false, some x⟩, [], [], nx, false, ps, .w n, cs, .r2 n⟩
        (.called x :: σ)
  | cr3 {nx x ps cs σ n} (hb : Base ps cs σ n) :
      Inv ⟨⟨0, 0, n, true, true, false, none⟩, [], [], nx, false, ps, .w n, cs, .r3 n (some x)⟩
        (.called x :: σ)
  | running {nx ps cs σ n} (hb : Base ps cs σ n) :
      Inv ⟨⟨0, 0, n, true, true, false, none⟩, [], [], nx, false, ps, .w n, cs, .run (some n)⟩
        (.running :: σ)
  | fr4 {nx ps cs σ n} (hb : Base ps cs σ n) :
      Inv ⟨⟨0, 0, n, true, true, false, none⟩, [], [], nx, false, ps, .w n, cs, .r4 n⟩ (.finished :: σ)
  | fr5 {nx ps cs σ n} (hb : Base ps cs σ n) :
      Inv ⟨⟨0, 0, n, true, true, false, none⟩, [], [], nx, false, ps, .w n, cs, .r5 n⟩ (.finished :: σ)
  | fr6 {nx ps cs σ n} (hb : Base ps cs σ n) :
      Inv ⟨⟨0, 0, n, false, true, false, none⟩, [], [], nx, false, ps, .w n, cs, .r6 n⟩ (.finished :: σ)
  | finished {nx ps cs σ n c} (hb : Base ps cs σ n) (hc : Parked n c) :
      Inv ⟨⟨0, 1, n, false, true, false, none⟩, [], [], nx, false, ps, .w n, cs, c⟩ (.finished :: σ)
  | fc1 {nx ps cs σ n c} (hb : Base ps cs σ n) (hc : Parked n c) :
      Inv ⟨⟨0, 0, n, false, true, false, none⟩, [], [], nx, false, ps, .c1 n, cs, c⟩ (.finished :: σ)
  -- the sandbox makes a callback
  | k2 {nx id ps cs σ n} (hb : Base ps cs σ n) :
      Inv ⟨⟨0, 0, n, true, true, false, none⟩, [id], [], nx, false, ps, .w n, cs, .k2 id (some n)⟩
        (.asked id :: .running :: σ)
  | k3 {nx id ps cs σ n} (hb : Base ps cs σ n) :
      Inv ⟨⟨0, 0, n + 1, true, true, false, none⟩, [id], [], nx, false, ps, .w n, cs,
        .k3 id (some n) (n + 1)⟩ (.asked id :: .running :: σ)
  | k4 {nx id ps cs σ n} (hb : Base ps cs σ n) :
      Inv ⟨⟨0, 0, n + 1, false, true, false, none⟩, [id], [], nx, false, ps, .w n, cs,
        .k4 id (some n) (n + 1)⟩ (.asked id :: .running :: σ)
  | asked {nx id ps cs σ n c} (hb : Base ps cs σ n) (hc : Parked (n + 1) c) :
      Inv ⟨⟨0, 1, n + 1, false, true, false, none⟩, [id], [], nx, false, ps, .w n, (id, some n) :: cs,
        c⟩ (.asked id :: .running :: σ)
  | kc1 {nx id ps cs σ n c} (hb : Base ps cs σ n) (hc : Parked (n + 1) c) :
      Inv ⟨⟨0, 0, n + 1, false, true, false, none⟩, [id], [], nx, false, ps, .c1 n, (id, some n) :: cs,
        c⟩ (.asked id :: .running :: σ)
  | kh1 {nx id ps cs σ n c} (hb : Base ps cs σ n) (hc : Parked (n + 1) c) :
      Inv ⟨⟨0, 0, n + 1, false, true, false, none⟩, [id], [], nx, false, ps, .h1 n, (id, some n) :: cs,
        c⟩ (.asked id :: .running :: σ)
  | kh3 {nx id v ps cs σ n c} (hb : Base ps cs σ n) (hc : Parked (n + 1) c) :
      Inv ⟨⟨0, 0, n + 1, false, true, false, none⟩, [], [(id, v)], nx, false, ps, .h3 n,
        (id, some n) :: cs, c⟩ (.answered id v :: .running :: σ)
  | kh4 {nx id v ps cs σ n c} (hb : Base ps cs σ n) (hc : Parked (n + 1) c) :
      Inv ⟨⟨0, 0, n, false, true, false, none⟩, [], [(id, v)], nx, false, ps, .h4 n,
        (id, some n) :: cs, c⟩ (.answered id v :: .running :: σ)
  | kh5 {nx id v ps cs σ n c} (hb : Base ps cs σ n) (hc : Parked (n + 1) c) :
      Inv ⟨⟨0, 0, n, true, true, false, none⟩, [], [(id, v)], nx, false, ps, .h5 n,
        (id, some n) :: cs, c⟩ (.answered id v :: .running :: σ)
  | answered {nx id v ps cs σ n c} (hb : Base ps cs σ n) (hc : Parked (n + 1) c) :
      Inv ⟨⟨1, 0, n, true, true, false, none⟩, [], [(id, v)], nx, false, ps, .w n,
        (id, some n) :: cs, c⟩ (.answered id v :: .running :: σ)
  | gr2 {nx id v ps cs σ n} (hb : Base ps cs σ n) :
      Inv ⟨⟨0, 0, n, true, true, false, none⟩, [], [(id, v)], nx, false, ps, .w n,
        (id, some n) :: cs, .r2 (n + 1)⟩ (.answered id v :: .running :: σ)
  | gr3 {nx id v ps cs σ n} (hb : Base ps cs σ n) :
      Inv ⟨⟨0, 0, n, true, true, false, none⟩, [], [(id, v)], nx, false, ps, .w n,
        (id, some n) :: cs, .r3 (n + 1) none⟩ (.answered id v :: .running :: σ)
  | gr4 {nx id v ps cs σ n} (hb : Base ps cs σ n) :
      Inv ⟨⟨0, 0, n, true, true, false, none⟩, [], [(id, v)], nx, false, ps, .w n,
        (id, some n) :: cs, .r4 (n + 1)⟩ (.answered id v :: .running :: σ)
  | grcv {nx id v ps cs σ n} (hb : Base ps cs σ n) :
      Inv ⟨⟨0, 0, n, true, true, false, none⟩, [], [(id, v)], nx, false, ps, .w n, cs,
        .rcv id (some n)⟩ (.answered id v :: .running :: σ)
  -- the sandbox is being destroyed
  | d1 {nx cs n c} (hb : Base [] cs [] n) (hc : Parked n c) :
      Inv ⟨⟨0, 0, n, false, true, false, none⟩, [], [], nx, false, [], .d1, cs, c⟩ []
  | d2 {nx cs n c} (hb : Base [] cs [] n) (hc : Ending n c) :
      Inv ⟨⟨0, 0, n, false, true, true, none⟩, [], [], nx, false, [], .d2, cs, c⟩ []
  | d3 {nx cs n c} (hb : Base [] cs [] n) (hc : Ending n c) :
      Inv ⟨⟨0, 0, n, false, true, true, none⟩, [], [], nx, false, [], .d3, cs, c⟩ []
  | d4 {nx cs n c} (hb : Base [] cs [] n) (hc : Ending n c) :
      Inv ⟨⟨0, 0, n, true, true, true, none⟩, [], [], nx, false, [], .d4, cs, c⟩ []
  | gone {nx cs n c} (hb : Base [] cs [] n) (hc : Ending n c) :
      Inv ⟨⟨1, 0, n, true, true, true, none⟩, [], [], nx, false, [], .gone, cs, c⟩ []
  | er {nx cs n c} (hb : Base [] cs [] n) (hc : Closing n c) :
      Inv ⟨⟨0, 0, n, true, true, true, none⟩, [], [], nx, false, [], .gone, cs, c⟩ []
  | er6 {nx cs n} (hb : Base [] cs [] n) :
      Inv ⟨⟨0, 0, n, false, true, true, none⟩, [], [], nx, false, [], .gone, cs, .r6 n⟩ []
  | ex {nx cs n c} (hb : Base [] cs [] n) (hc : Closed n c) :
      Inv ⟨⟨0, 1, n, false, true, true, none⟩, [], [], nx, false, [], .gone, cs, c⟩ []

/-- Closes the side conditions of a configuration. -/
macro "thr_side" : tactic => `(tactic| first
    | assumption
    | exact Parked.r0
    | exact Parked.r1
    | exact Ending.r0
    | exact Ending.r1
    | exact Ending.exited
    | exact Closing.r2
    | exact Closing.r3
    | exact Closing.r4
    | exact Closing.r5
    | exact Closed.r0
    | exact Closed.exited
    | exact Token.Ready.user
    | exact Token.Ready.s0 _
    | exact Token.Ready.a1 _
    | exact Token.Ready.a2 _
    | exact Base.nil
    | exact Base.cons _ ‹_›
    | exact Base.lost _ ‹_›)

/-- Finds the configuration of a state. -/
macro "thr_tac" : tactic => `(tactic| first
    | (refine Inv.late ?_ <;> thr_side)
    | (refine Inv.ready ?_ ?_ ?_ <;> thr_side)
    | (refine Inv.a3 ?_ ?_ <;> thr_side)
    | (refine Inv.a4 ?_ ?_ <;> thr_side)
    | (refine Inv.a5 ?_ ?_ <;> thr_side)
    | (refine Inv.called ?_ ?_ <;> thr_side)
    | (refine Inv.cr2 ?_ <;> thr_side)
    | (refine Inv.cr3 ?_ <;> thr_side)
    | (refine Inv.running ?_ <;> thr_side)
    | (refine Inv.fr4 ?_ <;> thr_side)
    | (refine Inv.fr5 ?_ <;> thr_side)
    | (refine Inv.fr6 ?_ <;> thr_side)
    | (refine Inv.finished ?_ ?_ <;> thr_side)
    | (refine Inv.fc1 ?_ ?_ <;> thr_side)
    | (refine Inv.k2 ?_ <;> thr_side)
    | (refine Inv.k3 ?_ <;> thr_side)
    | (refine Inv.k4 ?_ <;> thr_side)
    | (refine Inv.asked ?_ ?_ <;> thr_side)
    | (refine Inv.kc1 ?_ ?_ <;> thr_side)
    | (refine Inv.kh1 ?_ ?_ <;> thr_side)
    | (refine Inv.kh3 ?_ ?_ <;> thr_side)
    | (refine Inv.kh4 ?_ ?_ <;> thr_side)
    | (refine Inv.kh5 ?_ ?_ <;> thr_side)
    | (refine Inv.answered ?_ ?_ <;> thr_side)
    | (refine Inv.gr2 ?_ <;> thr_side)
    | (refine Inv.gr3 ?_ <;> thr_side)
    | (refine Inv.gr4 ?_ <;> thr_side)
    | (refine Inv.grcv ?_ <;> thr_side)
    | (refine Inv.d1 ?_ ?_ <;> thr_side)
    | (refine Inv.d2 ?_ ?_ <;> thr_side)
    | (refine Inv.d3 ?_ ?_ <;> thr_side)
    | (refine Inv.d4 ?_ ?_ <;> thr_side)
    | (refine Inv.gone ?_ ?_ <;> thr_side)
    | (refine Inv.er ?_ ?_ <;> thr_side)
    | (refine Inv.er6 ?_ <;> thr_side)
    | (refine Inv.ex ?_ ?_ <;> thr_side))

theorem Base.top {f id ps cs σ n} (h : Base ((f, id) :: ps) cs σ n) :
    ∃ m σ', f = .send m ∧ σ = .serving id :: .running :: σ' := by
  generalize hp : (f, id) :: ps = ps' at h
  induction h with
  | nil => cases hp
  | cons id' _ ih => cases hp; exact ⟨_, _, rfl, rfl⟩
  | lost id' _ ih => exact ih hp

theorem Base.mem {ps cs σ n} (h : Base ps cs σ n) : ∀ p ∈ ps, p.2 ∈ cs.map (·.1) := by
  induction h with
  | nil => simp
  | cons id _ ih =>
    intro p hp
    rcases List.mem_cons.1 hp with rfl | hp
    · simp
    · exact List.mem_cons_of_mem _ (ih p hp)
  | lost id _ ih => exact fun p hp => List.mem_cons_of_mem _ (ih p hp)

theorem Base.innermost {f id ps cs σ n} (h : Base ((f, id) :: ps) cs σ n) (hd : (cs.map (·.1)).Nodup)
    (hi : cs.head?.map (·.1) = (((f, id) :: ps).head?).map (·.2)) :
    ∃ m cs' σ', f = .send m ∧ cs = (id, some m) :: cs' ∧ σ = .serving id :: .running :: σ' ∧ n = m + 1 ∧
      Base ps cs' σ' m := by
  cases h with
  | cons _ h => exact ⟨_, _, _, rfl, rfl, rfl, rfl, h⟩
  | lost id' h =>
    have := h.mem _ List.mem_cons_self
    simp at hi
    subst hi
    simp at hd
    simp at this
    obtain ⟨x, hx⟩ := this
    exact absurd hx (hd.1 x)

/-- The callback that the sandbox is making or returning from. -/
def pend : CPc → List Nat
  | .k2 id _ => [id]
  | .k3 id _ _ => [id]
  | .k4 id _ _ => [id]
  | .rcv id _ => [id]
  | _ => []

/-- The callbacks of the sandbox that are not finished, the innermost first: their numbers decrease. -/
def Sorted (s : St) : Prop := (s.next :: (pend s.cp ++ s.cs.map (·.1))).Pairwise (· > ·)

theorem Sorted.nodup {s : St} (h : Sorted s) : (s.cs.map (·.1)).Nodup := by
  have := (List.pairwise_append.1 (List.pairwise_cons.1 h).2).2.1
  exact this.imp (by omega)

theorem lt_succ_true (n : Int) : (n < n + 1) = True := eq_true (by omega)

theorem eq_succ_false (n : Int) : (n = n + 1) = False := eq_false (by omega)

/-- Runs one step from a known configuration and finds the next one. -/
macro "thr_one" h:ident ha:ident : tactic => `(tactic| (
    simp [Token.step, Token.parentStep, Token.childStep, Coop, Token.wakeChild, Token.wakeParent,
      Token.startHandler, lt_succ_true, eq_succ_false] at $h:ident $ha:ident <;>
    (try (obtain ⟨h1, h2⟩ := $h:ident; subst h1; subst h2)) <;>
    refine ⟨_, by (first | rfl | (simp [Token.Spec.replay, Token.Spec.push]; done) | (simp [Token.Spec.replay, Token.Spec.push]; rfl)), ?_⟩ <;> thr_tac))

/-- The same, for every action. -/
macro "thr_run" h:ident ha:ident a:ident : tactic => `(tactic| (cases $a:ident <;> thr_one $h $ha))

set_option linter.unusedSimpArgs false in
theorem inv_prim {dbg : Bool} {s s' : St} {a : Token.Act} {es : List Token.Ev} {σ : List Item} (hI : Inv s σ)
    (hd : Sorted s) (ha : Coop s a) (hf : ∀ v, a = .finish v → Spec.Innermost s) (h : Token.step dbg s a = some (s', es)) :
    ∃ σ', Token.Spec.replay σ es = some σ' ∧ Inv s' σ' := by
  cases hI
  case late hc =>
    cases hc <;> thr_run h ha a
  case ready nx p ps cs n c hp hc hb =>
    rcases ps with _ | ⟨⟨f, id⟩, ps⟩
    · obtain rfl := hb.empty
      cases hc <;> cases hp <;> thr_run h ha a
    · by_cases hfin : ∃ v, a = .finish v
      · obtain ⟨v, rfl⟩ := hfin
        obtain ⟨m, cs', σ', rfl, rfl, rfl, rfl, hb⟩ := hb.innermost hd.nodup (hf v rfl)
        cases hc <;> cases hp <;> simp [Token.step] at h <;> obtain ⟨rfl, rfl⟩ := h <;>
          refine ⟨_, by simp [Token.Spec.replay, Token.Spec.push]; rfl, ?_⟩ <;> thr_tac
      · obtain ⟨m, σ', rfl, rfl⟩ := hb.top
        cases a
        case finish v => exact absurd ⟨v, rfl⟩ hfin
        all_goals (cases hc <;> cases hp <;> thr_one h ha)
  case a3 hb hc =>
    cases hc <;> thr_run h ha a
  case a4 hb hc =>
    cases hc <;> thr_run h ha a
  case a5 hb hc =>
    cases hc <;> thr_run h ha a
  case called hb hc =>
    cases hc <;> thr_run h ha a
  case cr2 hb =>
    thr_run h ha a
  case cr3 hb =>
    thr_run h ha a
  case running hb =>
    thr_run h ha a
  case fr4 hb =>
    thr_run h ha a
  case fr5 hb =>
    thr_run h ha a
  case fr6 hb =>
    thr_run h ha a
  case finished hb hc =>
    cases hc <;> thr_run h ha a
  case fc1 hb hc =>
    cases hc <;> thr_run h ha a
  case k2 hb =>
    thr_run h ha a
  case k3 hb =>
    thr_run h ha a
  case k4 hb =>
    thr_run h ha a
  case asked hb hc =>
    cases hc <;> thr_run h ha a
  case kc1 hb hc =>
    cases hc <;> thr_run h ha a
  case kh1 hb hc =>
    cases hc <;> thr_run h ha a
  case kh3 hb hc =>
    cases hc <;> thr_run h ha a
  case kh4 hb hc =>
    cases hc <;> thr_run h ha a
  case kh5 hb hc =>
    cases hc <;> thr_run h ha a
  case answered hb hc =>
    cases hc <;> thr_run h ha a
  case gr2 hb =>
    thr_run h ha a
  case gr3 hb =>
    thr_run h ha a
  case gr4 hb =>
    thr_run h ha a
  case grcv hb =>
    thr_run h ha a
  case d1 hb hc =>
    have hl := hb.len
    cases hc <;> thr_run h ha a
  case d2 hb hc =>
    have hl := hb.len
    cases hc <;> thr_run h ha a
  case d3 hb hc =>
    have hl := hb.len
    cases hc <;> thr_run h ha a
  case d4 hb hc =>
    have hl := hb.len
    cases hc <;> thr_run h ha a
  case gone hb hc =>
    have hl := hb.len
    cases hc <;> thr_run h ha a
  case er hb hc =>
    have hl := hb.len
    cases hc <;> thr_run h ha a
  case er6 hb =>
    have hl := hb.len
    thr_run h ha a
  case ex hb hc =>
    have hl := hb.len
    cases hc <;> thr_run h ha a

/-- Steps left at the top level of the control stack, as far as they depend on the sandbox. -/
def rankC (s : St) : Nat :=
  match s.cp with
  | .k2 _ _ => 23
  | .k3 _ _ _ => 22
  | .k4 _ _ _ => 21
  | .r2 _ => if (s.cs.length : Int) > s.sh.depth then 11 else 9
  | .r3 _ (some _) => 8
  | .r3 _ none => 10
  | .run _ => 7
  | .r4 _ => if (s.cs.length : Int) > s.sh.depth then 9 else 6
  | .r5 _ => 5
  | .r6 _ => 4
  | .rcv _ _ => 8
  | _ => 0

/-- Steps left while the sandbox shuts down. -/
def rankG (s : St) : Nat :=
  match s.cp with
  | .r2 _ => 6
  | .r3 _ _ => 5
  | .r4 _ => 4
  | .r5 _ => 3
  | .r6 _ => 2
  | _ => 0

/-- Steps left at the top level of the control stack. -/
def rankP (s : St) : Nat :=
  match s.pp with
  | .l1 _ => 17
  | .s0 _ => 16
  | .a1 _ => 15
  | .a2 _ _ => 14
  | .a3 _ => 13
  | .a4 _ => 12
  | .a5 _ => 11
  | .h1 _ => 17
  | .h3 _ => 15
  | .h4 _ => 14
  | .h5 _ => 13
  | .c1 d => if s.sh.depth > d then 18 else 1
  | .w d =>
    if s.sh.child = 1 then (if (s.cs.length : Int) > s.sh.depth then 12 else 10)
    else if s.sh.parent = 1 then (if s.sh.depth > d then 19 else 2)
    else rankC s
  | .d1 => 11
  | .d2 => 10
  | .d3 => 9
  | .d4 => 8
  | .gone => if s.sh.child = 1 then 7 else rankG s
  | _ => 0

/-- Bound on the steps left until the host's own code runs at the outermost level. -/
def rank (s : St) : Nat :=
  16 * s.ps.length + rankP s + (match s.cp with | .r0 _ => 1 | _ => 0)

/-- Runs one step from a known configuration and compares ranks. -/
macro "thr_rank" h:ident ha:ident a:ident : tactic => `(tactic| (
    cases $a:ident <;> simp [Token.step, Token.parentStep, Token.childStep, Coop, Token.wakeChild, Token.wakeParent,
      Token.startHandler, lt_succ_true, eq_succ_false] at $h:ident $ha:ident <;>
    (try (obtain ⟨h1, h2⟩ := $h:ident; subst h1; subst h2)) <;>
    (try (subst $h:ident)) <;>
    simp [rank, rankP, rankC, rankG, Token.Spec.work, Token.Spec.choices, lt_succ_true, *] <;> omega))

set_option linter.unusedSimpArgs false in
theorem rank_prim {dbg : Bool} {s s' : St} {a : Token.Act} {es : List Token.Ev} {σ : List Item} (hI : Inv s σ)
    (ha : Coop s a) (h : Token.step dbg s a = some (s', es)) :
    Token.Spec.work [a] + rank s' ≤ rank s + 24 * Token.Spec.choices [a] := by
  cases hI
  case late hc =>
    cases hc <;> thr_rank h ha a
  case ready nx p ps cs n c hp hc hb =>
    have hl := hb.len
    rcases ps with _ | ⟨⟨f, id⟩, ps⟩
    · cases hp <;> cases hc <;> thr_rank h ha a
    · obtain ⟨m, σ', rfl, rfl⟩ := hb.top
      cases hp <;> cases hc <;> thr_rank h ha a
  case a3 hb hc =>
    have hl := hb.len
    cases hc <;> thr_rank h ha a
  case a4 hb hc =>
    have hl := hb.len
    cases hc <;> thr_rank h ha a
  case a5 hb hc =>
    have hl := hb.len
    cases hc <;> thr_rank h ha a
  case called hb hc =>
    have hl := hb.len
    cases hc <;> thr_rank h ha a
  case cr2 hb =>
    have hl := hb.len
    thr_rank h ha a
  case cr3 hb =>
    have hl := hb.len
    thr_rank h ha a
  case running hb =>
    have hl := hb.len
    thr_rank h ha a
  case fr4 hb =>
    have hl := hb.len
    thr_rank h ha a
  case fr5 hb =>
    have hl := hb.len
    thr_rank h ha a
  case fr6 hb =>
    have hl := hb.len
    thr_rank h ha a
  case finished hb hc =>
    have hl := hb.len
    cases hc <;> thr_rank h ha a
  case fc1 hb hc =>
    have hl := hb.len
    cases hc <;> thr_rank h ha a
  case k2 hb =>
    have hl := hb.len
    thr_rank h ha a
  case k3 hb =>
    have hl := hb.len
    thr_rank h ha a
  case k4 hb =>
    have hl := hb.len
    thr_rank h ha a
  case asked hb hc =>
    have hl := hb.len
    cases hc <;> thr_rank h ha a
  case kc1 hb hc =>
    have hl := hb.len
    cases hc <;> thr_rank h ha a
  case kh1 hb hc =>
    have hl := hb.len
    cases hc <;> thr_rank h ha a
  case kh3 hb hc =>
    have hl := hb.len
    cases hc <;> thr_rank h ha a
  case kh4 hb hc =>
    have hl := hb.len
    cases hc <;> thr_rank h ha a
  case kh5 hb hc =>
    have hl := hb.len
    cases hc <;> thr_rank h ha a
  case answered hb hc =>
    have hl := hb.len
    cases hc <;> thr_rank h ha a
  case gr2 hb =>
    have hl := hb.len
    thr_rank h ha a
  case gr3 hb =>
    have hl := hb.len
    thr_rank h ha a
  case gr4 hb =>
    have hl := hb.len
    thr_rank h ha a
  case grcv hb =>
    have hl := hb.len
    thr_rank h ha a
  case d1 hb hc =>
    have hl := hb.len
    cases hc <;> thr_rank h ha a
  case d2 hb hc =>
    have hl := hb.len
    cases hc <;> thr_rank h ha a
  case d3 hb hc =>
    have hl := hb.len
    cases hc <;> thr_rank h ha a
  case d4 hb hc =>
    have hl := hb.len
    cases hc <;> thr_rank h ha a
  case gone hb hc =>
    have hl := hb.len
    cases hc <;> thr_rank h ha a
  case er hb hc =>
    have hl := hb.len
    cases hc <;> thr_rank h ha a
  case er6 hb =>
    have hl := hb.len
    thr_rank h ha a
  case ex hb hc =>
    have hl := hb.len
    cases hc <;> thr_rank h ha a


/-- Names a side that can take a step. -/
macro "thr_live" : tactic => `(tactic| first
    | exact Or.inl rfl
    | exact Or.inr (Or.inl ⟨rfl, rfl⟩)
    | (refine Or.inr (Or.inr ⟨.child, Or.inr (Or.inl rfl), ?_, ?_⟩) <;>
        simp [Token.step, Token.childStep, eq_succ_false] <;> done)
    | (refine Or.inr (Or.inr ⟨.ret, Or.inr (Or.inr rfl), ?_, ?_⟩) <;> simp [Token.step] <;> done)
    | (refine Or.inr (Or.inr ⟨.parent, Or.inl rfl, ?_, ?_⟩) <;>
        simp [Token.step, Token.parentStep, Polling, lt_succ_true] <;> done))

set_option linter.unusedSimpArgs false in
theorem inv_live (dbg : Bool) {s : St} {σ : List Item} (hI : Inv s σ) :
    s.pp = .user ∨ (s.pp = .gone ∧ s.cp = .exited) ∨
      ∃ a, (a = .parent ∨ a = .child ∨ a = .ret) ∧ (Token.step dbg s a).isSome ∧
        ¬ (a = .parent ∧ Polling s) := by
  cases hI
  case late hc =>
    cases hc <;> thr_live
  case ready hp hc hb =>
    cases hp <;> cases hc <;> thr_live
  case a3 hb hc =>
    have hl := hb.len
    cases hc <;> thr_live
  case a4 hb hc =>
    have hl := hb.len
    cases hc <;> thr_live
  case a5 hb hc =>
    have hl := hb.len
    cases hc <;> thr_live
  case called hb hc =>
    have hl := hb.len
    cases hc <;> thr_live
  case cr2 hb =>
    have hl := hb.len
    thr_live
  case cr3 hb =>
    have hl := hb.len
    thr_live
  case running hb =>
    have hl := hb.len
    thr_live
  case fr4 hb =>
    have hl := hb.len
    thr_live
  case fr5 hb =>
    have hl := hb.len
    thr_live
  case fr6 hb =>
    have hl := hb.len
    thr_live
  case finished hb hc =>
    have hl := hb.len
    cases hc <;> thr_live
  case fc1 hb hc =>
    have hl := hb.len
    cases hc <;> thr_live
  case k2 hb =>
    have hl := hb.len
    thr_live
  case k3 hb =>
    have hl := hb.len
    thr_live
  case k4 hb =>
    have hl := hb.len
    thr_live
  case asked hb hc =>
    have hl := hb.len
    cases hc <;> thr_live
  case kc1 hb hc =>
    have hl := hb.len
    cases hc <;> thr_live
  case kh1 hb hc =>
    have hl := hb.len
    cases hc <;> thr_live
  case kh3 hb hc =>
    have hl := hb.len
    cases hc <;> thr_live
  case kh4 hb hc =>
    have hl := hb.len
    cases hc <;> thr_live
  case kh5 hb hc =>
    have hl := hb.len
    cases hc <;> thr_live
  case answered hb hc =>
    have hl := hb.len
    cases hc <;> thr_live
  case gr2 hb =>
    have hl := hb.len
    thr_live
  case gr3 hb =>
    have hl := hb.len
    thr_live
  case gr4 hb =>
    have hl := hb.len
    thr_live
  case grcv hb =>
    have hl := hb.len
    thr_live
  case d1 hb hc =>
    have hl := hb.len
    cases hc <;> thr_live
  case d2 hb hc =>
    have hl := hb.len
    cases hc <;> thr_live
  case d3 hb hc =>
    have hl := hb.len
    cases hc <;> thr_live
  case d4 hb hc =>
    have hl := hb.len
    cases hc <;> thr_live
  case gone hb hc =>
    have hl := hb.len
    cases hc <;> thr_live
  case er hb hc =>
    have hl := hb.len
    cases hc <;> thr_live
  case er6 hb =>
    have hl := hb.len
    thr_live
  case ex hb hc =>
    have hl := hb.len
    cases hc <;> thr_live


end Verif.Throw
