import Verif.Family.Spec
import Verif.Child.Props

/-!
# Several children of one host (property C120)
-/

namespace Verif.Family
open Verif.Child (ExitStatus Ans Proc Result wexitstatus)

structure Inv (s : St) : Prop where
  uniq : ∀ x ∈ s.kids, ∀ y ∈ s.kids, x.pid = y.pid → x = y
  pos : ∀ x ∈ s.kids, x.pid ≠ 0
  known : ∀ x ∈ s.kids, ∀ i, x.who = some i → ∃ p, s.procs[i]? = some p ∧ p.pid = (x.pid : Int)
  handle : ∀ i p, s.procs[i]? = some p →
    (p.status = truth (s.fates i) ∧ s.fates i ≠ none ∧ ∀ x ∈ s.kids, x.who ≠ some i) ∨
    (p.status = ⟨false, 0⟩ ∧ ∃ x ∈ s.kids, x.who = some i ∧ p.pid = (x.pid : Int) ∧ x.fate = s.fates i)
  fresh : ∀ i, s.procs.length ≤ i → s.fates i = none
  alive : s.over = false
  own : ∀ e ∈ s.log, (∀ i f, e = .said i f → f.hasExited = true → f = truth (s.fates i)) ∧
    (∀ i w, e = .killed i w → w = some i) ∧ (∀ i, e ≠ .stranger i) ∧ ∀ i, e ≠ .everyone i

theorem inv_start : Inv {} := by
  refine ⟨?_, ?_, ?_, ?_, ?_, rfl, ?_⟩ <;> simp

theorem waitpid_one {p : Proc} (h : p.status.hasExited = false) (k : Nat) {a : Ans} (ha : a ≠ .eintr) :
    Child.waitpid p (List.replicate k .eintr ++ [a]) =
      match a with
      | .ok r s => if r = p.pid then (.status ⟨true, wexitstatus s⟩, { p with status := ⟨true, wexitstatus s⟩ }, [])
        else (.status p.status, p, [])
      | _ => (.hostExit, p, []) := by
  unfold Child.waitpid
  rw [if_neg (by simp [h]), Child.ask_eintr k a [] ha]
  cases a <;> rfl

theorem find_pid {s : St} (g : Inv s) {x : Kid} (hx : x ∈ s.kids) :
    s.kids.find? (fun y => (y.pid : Int) = (x.pid : Int)) = some x := by
  rcases h : s.kids.find? (fun y => (y.pid : Int) = (x.pid : Int)) with _ | y
  · rw [List.find?_eq_none] at h
    have := h x hx
    simp at this
  · have h1 := List.mem_of_find?_eq_some h
    have h2 := List.find?_some h
    simp only [decide_eq_true_eq] at h2
    rw [h, g.uniq y h1 x hx (by omega)]

theorem answer_own {s : St} (g : Inv s) {x : Kid} (hx : x ∈ s.kids) (b : Bool) (c : Nat) :
    answer s.kids (x.pid : Int) b c =
      match x.fate with
      | some st => some (.ok x.pid st, s.kids.filter (fun y => (y.pid : Int) ≠ (x.pid : Int)))
      | none => if b then none else some (.ok 0 0, s.kids) := by
  have h0 : (0 : Int) < (x.pid : Int) := by have := g.pos x hx; omega
  unfold answer
  rw [if_pos h0, find_pid g hx]
  rfl

/-- A query tells the truth about its own process, never ends the host, and leaves the rest as it was. -/
theorem ask_inv {s s' : St} (g : Inv s) {i k c : Nat} {b : Bool} {r : Option ExitStatus} (h : ask s i k c b = some (r, s')) :
    r = some (truth (s.fates i)) ∧ Inv s' ∧ s'.fates = s.fates ∧ s'.log = s.log ∧ s'.procs.length = s.procs.length ∧
      (s.fates i = none → s' = s ∧ b = false) := by
  unfold ask at h
  split at h
  · cases h
  rename_i p hp
  split at h
  · rename_i hx
    cases h
    rcases g.handle i p hp with ⟨h1, h2, _⟩ | ⟨h1, _⟩
    · exact ⟨by rw [h1], g, rfl, rfl, rfl, fun h => absurd h h2⟩
    · rw [h1] at hx; cases hx
  · rename_i hx
    have hx' : p.status.hasExited = false := by simpa using hx
    rcases g.handle i p hp with ⟨h1, h2, _⟩ | ⟨h1, x, hm, hw, hpid, hf⟩
    · rw [h1] at hx'
      cases hfi : s.fates i with
      | none => exact absurd hfi h2
      | some st => rw [hfi] at hx'; cases hx'
    have h0 : (0 : Int) < p.pid := by have := g.pos x hm; omega
    rw [hpid, answer_own g hm] at h
    split at h
    · cases h
    rename_i a kids ha
    cases hfa : x.fate with
    | none =>
      simp only [hfa] at ha
      have hb : ¬ b = true := by intro hb; rw [if_pos hb] at ha; cases ha
      rw [if_neg hb] at ha
      cases ha
      rw [waitpid_one hx' k (by simp)] at h
      simp only [if_neg (show ¬ (0 : Int) = p.pid by omega)] at h
      cases h
      have hset : s.procs.set i p = s.procs := by
        apply List.ext_getElem?
        intro j
        rw [List.getElem?_set]
        split
        · rename_i e; subst e
          split <;> simp_all
        · rfl
      rw [hset, ← hf, hfa, h1]
      exact ⟨rfl, g, rfl, rfl, rfl, fun _ => ⟨rfl, by simpa using hb⟩⟩
    | some st =>
      simp only [hfa] at ha
      cases ha
      rw [waitpid_one hx' k (by simp)] at h
      simp only [hpid, if_true] at h
      cases h
      have hfi : s.fates i = some st := by rw [← hf, hfa]
      have hlt : i < s.procs.length := (List.getElem?_eq_some_iff.1 hp).1
      refine ⟨by rw [hfi]; rfl, ?_, rfl, rfl, by simp, fun h => by rw [hfi] at h; cases h⟩
      refine ⟨?_, ?_, ?_, ?_, ?_, g.alive, g.own⟩
      · intro y hy z hz
        simp only [List.mem_filter] at hy hz
        exact g.uniq y hy.1 z hz.1
      · intro y hy
        simp only [List.mem_filter] at hy
        exact g.pos y hy.1
      · intro y hy j hj
        simp only [List.mem_filter] at hy
        obtain ⟨q, hq, hq'⟩ := g.known y hy.1 j hj
        by_cases hij : i = j
        · subst hij
          exact ⟨_, by simp [hlt]; rfl, by rw [hp] at hq; cases hq; rw [← hq', hpid]⟩
        · exact ⟨q, by simp [hij, hq], hq'⟩
      · intro j q hq
        simp only [List.getElem?_set] at hq
        split at hq
        · rename_i hij
          subst hij
          cases hq
          refine .inl ⟨by rw [hfi]; rfl, by simp [hfi], fun y hy hyw => ?_⟩
          simp only [List.mem_filter] at hy
          obtain ⟨q, hq, hq'⟩ := g.known y hy.1 i hyw
          rw [hp] at hq; cases hq
          have := hy.2
          simp at this
          omega
        · rename_i hij
          rcases g.handle j q hq with ⟨k1, k2, k3⟩ | ⟨k1, y, k2, k3, k4, k5⟩
          · refine .inl ⟨k1, k2, fun y hy => ?_⟩
            simp only [List.mem_filter] at hy
            exact k3 y hy.1
          · refine .inr ⟨k1, y, ?_, k3, k4, k5⟩
            simp only [List.mem_filter]
            refine ⟨k2, ?_⟩
            have hne : y.pid ≠ x.pid := by
              intro e
              have := g.uniq y k2 x hm e
              rw [this, hw] at k3
              cases k3
              exact hij rfl
            simp; omega
      · intro j hj
        exact g.fresh j (by simpa using hj)

theorem ask_some {s : St} (g : Inv s) {i k c : Nat} {b : Bool} (hi : i < s.procs.length) (hb : b = false ∨ s.fates i ≠ none) :
    ∃ r s', ask s i k c b = some (r, s') := by
  unfold ask
  rw [List.getElem?_eq_getElem hi]
  have hp : s.procs[i]? = some s.procs[i] := List.getElem?_eq_getElem hi
  generalize s.procs[i] = p at hp
  simp only
  split
  · exact ⟨_, _, rfl⟩
  · rename_i hx
    rcases g.handle i p hp with ⟨h1, h2, _⟩ | ⟨h1, x, hm, hw, hpid, hf⟩
    · rw [h1] at hx
      cases hfi : s.fates i with
      | none => exact absurd hfi h2
      | some st => rw [hfi] at hx; simp [truth] at hx
    have h0 : (0 : Int) < p.pid := by have := g.pos x hm; omega
    rw [hpid, answer_own g hm]
    rcases hfa : x.fate with _ | st
    · have : b = false := by
        rcases hb with hb | hb
        · exact hb
        · rw [← hf, hfa] at hb; exact absurd rfl hb
      subst this
      simp only [Bool.false_eq_true, if_false]
      split <;> exact ⟨_, _, rfl⟩
    · simp only
      split <;> exact ⟨_, _, rfl⟩

theorem inv_step {s s' : St} (g : Inv s) {a : Act} (hc : Careful s a) (h : step s a = some s') : Inv s' := by
  unfold step at h
  rw [if_neg (by simp [g.alive])] at h
  cases a with
  | make p =>
    cases p with
    | none => exact absurd rfl hc
    | some p =>
      simp only at h
      split at h
      · cases h
      rename_i hn
      cases h
      simp only [List.any_eq_true, decide_eq_true_eq, not_or, not_exists, not_and] at hn
      refine ⟨?_, ?_, ?_, ?_, ?_, g.alive, g.own⟩
      · have := g.uniq; grind
      · have := g.pos; grind
      · intro x hx i hi
        rcases List.mem_cons.1 hx with rfl | hx
        · cases hi
          exact ⟨Child.start p, by simp, rfl⟩
        · obtain ⟨q, hq, hq'⟩ := g.known x hx i hi
          exact ⟨q, by grind, hq'⟩
      · intro i q hq
        simp only [List.getElem?_append] at hq
        split at hq
        · rename_i hi
          rcases g.handle i q hq with ⟨k1, k2, k3⟩ | ⟨k1, y, k2, k3, k4, k5⟩
          · exact .inl ⟨k1, k2, by grind⟩
          · exact .inr ⟨k1, y, by simp [k2], k3, k4, k5⟩
        · rename_i hi
          have hi' : i = s.procs.length := by
            have := (List.getElem?_eq_some_iff.1 hq).1
            simp at this; omega
          subst hi'
          simp at hq
          subst hq
          exact .inr ⟨rfl, _, List.mem_cons_self, rfl, rfl, (g.fresh _ (Nat.le_refl _)).symm⟩
      · intro i hi
        exact g.fresh i (by simp at hi; omega)
  | fork p =>
    simp only at h
    split at h
    · cases h
    rename_i hn
    cases h
    simp only [List.any_eq_true, decide_eq_true_eq, not_or, not_exists, not_and] at hn
    refine ⟨?_, ?_, ?_, ?_, g.fresh, g.alive, g.own⟩
    · have := g.uniq; grind
    · have := g.pos; grind
    · have := g.known; grind
    · intro i q hq
      rcases g.handle i q hq with ⟨k1, k2, k3⟩ | ⟨k1, y, k2, k3, k4, k5⟩
      · exact .inl ⟨k1, k2, by grind⟩
      · exact .inr ⟨k1, y, by simp [k2], k3, k4, k5⟩
  | ends p st =>
    simp only at h
    split at h
    · rename_i q who hf
      cases h
      have hm := List.mem_of_find?_eq_some hf
      have hp := List.find?_some hf
      simp only [decide_eq_true_eq] at hp
      subst hp
      have key : ∀ x ∈ s.kids, x.pid = q → x = ⟨q, who, none⟩ := fun x hx e => g.uniq x hx _ hm e
      have hnone : ∀ i, who = some i → s.fates i = none := by
        intro i hi
        obtain ⟨p, hp, hp'⟩ := g.known _ hm i hi
        rcases g.handle i p hp with ⟨k1, k2, k3⟩ | ⟨k1, y, k2, k3, k4, k5⟩
        · exact absurd hi (k3 _ hm)
        · rw [← k5, key y k2 (by simp only at hp'; omega)]
      refine ⟨?_, ?_, ?_, ?_, ?_, g.alive, ?_⟩
      · intro x hx y hy e
        obtain ⟨x0, hx0, rfl⟩ := List.mem_map.1 hx
        obtain ⟨y0, hy0, rfl⟩ := List.mem_map.1 hy
        have : x0 = y0 := g.uniq x0 hx0 y0 hy0 (by grind)
        rw [this]
      · have := g.pos; grind
      · intro x hx i hi
        obtain ⟨x0, hx0, rfl⟩ := List.mem_map.1 hx
        have := g.known x0 hx0 i (by grind)
        grind
      · intro i p hp
        rcases g.handle i p hp with ⟨k1, k2, k3⟩ | ⟨k1, y, k2, k3, k4, k5⟩
        · have hw : who ≠ some i := k3 _ hm
          refine .inl ⟨by simpa only [if_neg hw] using k1, by simpa only [if_neg hw] using k2, ?_⟩
          intro x hx
          obtain ⟨x0, hx0, rfl⟩ := List.mem_map.1 hx
          have := k3 x0 hx0
          grind
        · refine .inr ⟨k1, _, List.mem_map.2 ⟨y, k2, rfl⟩, ?_, ?_, ?_⟩
          · grind
          · grind
          · by_cases hy : y.pid = q
            · have := key y k2 hy
              subst this
              simp only at k3
              simp [k3]
            · have hw : who ≠ some i := by
                intro hw
                obtain ⟨p', hp', hpp⟩ := g.known _ hm i hw
                rw [hp] at hp'; cases hp'
                simp only at hpp
                omega
              simp only [if_neg hy, if_neg hw, k5]
      · intro i hi
        have hw : who ≠ some i := by
          intro hw
          obtain ⟨p', hp', hpp⟩ := g.known _ hm i hw
          have := (List.getElem?_eq_some_iff.1 hp').1
          simp only at hi
          omega
        simp only [if_neg hw]
        exact g.fresh i hi
      · intro e he
        refine ⟨fun i f h1 h2 => ?_, (g.own e he).2⟩
        have h3 := (g.own e he).1 i f h1 h2
        have hw : who ≠ some i := by
          intro hw
          rw [hnone i hw] at h3
          rw [h3] at h2; cases h2
        simpa only [if_neg hw] using h3
    · cases h
  | reap p =>
    simp only at h
    split at h
    · rename_i q w st hf
      cases h
      have hm := List.mem_of_find?_eq_some hf
      refine ⟨?_, ?_, ?_, ?_, g.fresh, g.alive, g.own⟩
      · have := g.uniq; grind
      · have := g.pos; grind
      · have := g.known; grind
      · intro i q hq
        rcases g.handle i q hq with ⟨k1, k2, k3⟩ | ⟨k1, y, k2, k3, k4, k5⟩
        · exact .inl ⟨k1, k2, by grind⟩
        · refine .inr ⟨k1, y, ?_, k3, k4, k5⟩
          simp only [Careful] at hc
          have := hc y k2
          simp [k2]; grind
    · cases h
  | query i k c b =>
    simp only at h
    split at h
    · rename_i e s1 ha
      obtain ⟨h1, g1, h2, h3, h4, h5⟩ := ask_inv g ha
      cases h
      refine ⟨g1.uniq, g1.pos, g1.known, g1.handle, g1.fresh, g1.alive, ?_⟩
      intro e' he'
      rcases List.mem_cons.1 he' with rfl | he'
      · refine ⟨?_, by simp, by simp, by simp⟩
        rintro j f he hf
        cases he
        cases h1
        rw [h2]
      · exact g1.own e' he'
    · rename_i s1 ha
      obtain ⟨h1, _⟩ := ask_inv g ha
      cases h1
    · cases h
  | term i k c =>
    simp only at h
    split at h
    · rename_i e s1 ha
      obtain ⟨h1, g1, h2, h3, h4, h5⟩ := ask_inv g ha
      cases h1
      split at h
      · cases h; exact g1
      · rename_i hx
        have hfi : s.fates i = none := by
          rcases hh : s.fates i with _ | st
          · rfl
          · rw [hh] at hx; simp [truth] at hx
        obtain ⟨rfl, -⟩ := h5 hfi
        split at h
        · rename_i p hp
          cases h
          refine ⟨g1.uniq, g1.pos, g1.known, g1.handle, g1.fresh, g1.alive, ?_⟩
          intro e' he'
          rcases List.mem_cons.1 he' with rfl | he'
          · rcases g.handle i p hp with ⟨k1, k2, k3⟩ | ⟨k1, y, k2, k3, k4, k5⟩
            · exact absurd hfi k2
            · have h0 : (0 : Int) < p.pid := by have := g.pos y k2; omega
              have hsig : signal s1 i p = .killed i (some i) := by
                unfold signal Child.terminate
                rw [if_pos h0, k4, find_pid g k2]
                simp only [k3]
              rw [hsig]
              simp
          · exact g1.own e' he'
        · cases h
    · rename_i s1 ha
      obtain ⟨h1, _⟩ := ask_inv g ha
      cases h1
    · cases h

theorem inv_run : ∀ (as : List Act) {s s' : St}, Inv s → CarefulRun s as → run s as = some s' → Inv s' := by
  intro as
  induction as with
  | nil => intro s s' g _ h; cases h; exact g
  | cons a as ih =>
    intro s s' g hc h
    simp only [run] at h
    split at h
    · rename_i s1 h1
      exact ih (inv_step g hc.1 h1) (hc.2 s1 h1) h
    · cases h

/-- **C120** (partial).  As long as `vfork` never fails and the host program waits for no sandbox itself: whatever sandboxes
and other children come and go, and however their numbers are used again, no query ends the host, what a query once said
stays true, and a signal goes to the sandbox that was to be terminated and to nothing else.  Missing: the two other cases,
see `failed_start_ends_host`, `failed_start_kills_all` and `reaped_ends_host`. -/
theorem own_child_partial {as : List Act} {s : St} (hc : CarefulRun {} as) (h : run {} as = some s) :
    s.over = false ∧
    (∀ i f, Event.said i f ∈ s.log → f.hasExited = true → f = truth (s.fates i)) ∧
    (∀ i w, Event.killed i w ∈ s.log → w = some i) ∧ (∀ i, .stranger i ∉ s.log) ∧ ∀ i, .everyone i ∉ s.log := by
  have g := inv_run as inv_start hc h
  exact ⟨g.alive, fun i f hm hf => (g.own _ hm).1 i f rfl hf, fun i w hm => (g.own _ hm).2.1 i w rfl,
    fun i hm => (g.own _ hm).2.2.1 i rfl, fun i hm => (g.own _ hm).2.2.2 i rfl⟩

/-- **C120** (partial), exactly.  At the end of such a run a query about any sandbox says whether that sandbox's own process
has ended, and with what code; one that waits returns exactly if it has. -/
theorem query_truth_partial {as : List Act} {s : St} (hc : CarefulRun {} as) (h : run {} as = some s) {i : Nat}
    (hi : i < s.procs.length) (k c : Nat) :
    (∃ s', step s (.query i k c false) = some s' ∧ s'.log = .said i (truth (s.fates i)) :: s.log ∧ s'.over = false) ∧
    (s.fates i = none → step s (.query i k c true) = none) ∧
    (s.fates i ≠ none →
      ∃ s', step s (.query i k c true) = some s' ∧ s'.log = .said i (truth (s.fates i)) :: s.log ∧ s'.over = false) := by
  have g := inv_run as inv_start hc h
  have key : ∀ b, (b = false ∨ s.fates i ≠ none) →
      ∃ s', step s (.query i k c b) = some s' ∧ s'.log = .said i (truth (s.fates i)) :: s.log ∧ s'.over = false := by
    intro b hb
    obtain ⟨r, s1, ha⟩ := ask_some g (k := k) (c := c) hi hb
    obtain ⟨h1, g1, h2, h3, h4, h5⟩ := ask_inv g ha
    subst h1
    exact ⟨{ s1 with log := .said i (truth (s.fates i)) :: s1.log }, by simp only [step, g.alive, ha]; rfl, by simp only [h3],
      g1.alive⟩
  refine ⟨key false (.inl rfl), ?_, fun hf => key true (.inr hf)⟩
  intro hf
  rcases ha : ask s i k c true with _ | ⟨r, s1⟩
  · simp only [step, g.alive, ha]; rfl
  · have := ((ask_inv g ha).2.2.2.2.2 hf).2
    cases this

/-- **C120 fails if `vfork` fails.**  In every state in which sandbox `i` has not been started and some other sandbox `j` has
ended, the next query about `i` may take the end of `j`, and the query about `j` thereafter ends the host: whether the query
about `i` waits or not. -/
theorem failed_start_ends_host (s : St) {i j k k' c q st : Nat} {b b' : Bool} (ho : s.over = false)
    (hi : s.procs[i]? = some (Child.start (-1))) (hj : s.procs[j]? = some (Child.start q)) (hq : q ≠ 0)
    (hu : ∀ x ∈ s.kids, ∀ y ∈ s.kids, x.pid = y.pid → x = y) (hk : ⟨q, some j, some st⟩ ∈ s.kids) :
    ∃ s1 s2, step s (.query i k q b) = some s1 ∧ s1.log = .said i ⟨false, 0⟩ :: s.log ∧
      step s1 (.query j k' c b') = some s2 ∧ s2.over = true := by
  have hne : i ≠ j := by
    intro e; subst e
    rw [hi] at hj
    have : (-1 : Int) = q := by injection hj with h; injection h
    omega
  have hfind : s.kids.find? (fun x => decide (x.pid = q ∧ x.fate.isSome = true)) = some ⟨q, some j, some st⟩ := by
    rcases hh : s.kids.find? (fun x => decide (x.pid = q ∧ x.fate.isSome = true)) with _ | y
    · rw [List.find?_eq_none] at hh
      have := hh _ hk
      simp at this
    · have h1 := List.mem_of_find?_eq_some hh
      have h2 := List.find?_some hh
      simp only [decide_eq_true_eq] at h2
      rw [hh, hu y h1 _ hk h2.1]
  have hnil : s.kids ≠ [] := List.ne_nil_of_mem hk
  have hans : answer s.kids (Child.start (-1)).pid b q = some (.ok q st, s.kids.filter (fun y => y.pid ≠ q)) := by
    show answer s.kids (-1) b q = _
    unfold answer
    rw [if_neg (show ¬ (0 : Int) < -1 by decide), if_neg hnil, hfind]
    rfl
  have hask : ask s i k q b =
      some (some ⟨false, 0⟩, { s with kids := s.kids.filter (fun y => y.pid ≠ q), procs := s.procs.set i (Child.start (-1)) }) := by
    unfold ask
    rw [hi]
    simp only
    rw [if_neg (by simp [Child.start]), hans]
    simp only
    have hw : Child.waitpid (Child.start (-1)) (List.replicate k .eintr ++ [.ok q st]) =
        (.status ⟨false, 0⟩, Child.start (-1), []) := by
      rw [waitpid_one rfl k (by simp)]
      exact if_neg (show ¬ (q : Int) = -1 by omega)
    rw [hw]
  obtain ⟨s1, hs1⟩ : ∃ t : St, t = St.mk (s.kids.filter (fun y => y.pid ≠ q))
      (s.procs.set i (Child.start (-1))) s.fates s.over (.said i ⟨false, 0⟩ :: s.log) := ⟨_, rfl⟩
  have hj1 : s1.procs[j]? = some (Child.start q) := by rw [hs1]; simp [hne, hj]
  have ho1 : s1.over = false := by rw [hs1]; exact ho
  have hans1 : answer s1.kids (Child.start q).pid b' c = some (.failed, s1.kids) := by
    show answer s1.kids (q : Int) b' c = _
    unfold answer
    rw [if_pos (by omega)]
    have : s1.kids.find? (fun x => decide ((x.pid : Int) = (q : Int))) = none := by
      rw [List.find?_eq_none, hs1]
      intro x hx
      simp only [List.mem_filter, decide_eq_true_eq] at hx
      simp; omega
    rw [this]
  have hask1 : ask s1 j k' c b' = some (none, { s1 with kids := s1.kids, over := true }) := by
    unfold ask
    rw [hj1]
    simp only
    rw [if_neg (by simp [Child.start]), hans1]
    simp only
    rw [waitpid_one rfl k' (by simp)]
  refine ⟨s1, _, ?_, by rw [hs1], by simp only [step, ho1, hask1]; rfl, rfl⟩
  simp only [step, ho, hask, hs1]; rfl

/-- **C120 fails if `vfork` fails**, also without another sandbox: with no child at all, the first query ends the host. -/
theorem failed_start_alone (s : St) {i k c : Nat} {b : Bool} (ho : s.over = false)
    (hi : s.procs[i]? = some (Child.start (-1))) (hk : s.kids = []) :
    ∃ s', step s (.query i k c b) = some s' ∧ s'.over = true := by
  have hask : ask s i k c b = some (none, { s with kids := s.kids, over := true }) := by
    unfold ask
    rw [hi]
    simp only
    rw [if_neg (by simp [Child.start])]
    have ha : answer s.kids (Child.start (-1)).pid b c = some (.failed, s.kids) := by
      show answer s.kids (-1) b c = _
      unfold answer
      rw [if_neg (show ¬ (0 : Int) < -1 by decide), if_pos hk]
    rw [ha]
    simp only
    rw [waitpid_one rfl k (by simp)]
  exact ⟨_, by simp only [step, ho, hask]; rfl, rfl⟩

/-- **C120 fails if `vfork` fails**: terminating the sandbox that was never started while all children of the host run
signals every process that the host may signal. -/
theorem failed_start_kills_all (s : St) {i k c : Nat} (ho : s.over = false)
    (hi : s.procs[i]? = some (Child.start (-1))) (hk : s.kids ≠ []) (hr : ∀ x ∈ s.kids, x.fate = none) :
    ∃ s', step s (.term i k c) = some s' ∧ s'.log = .everyone i :: s.log := by
  have hask : ask s i k c false = some (some ⟨false, 0⟩, { s with procs := s.procs.set i (Child.start (-1)) }) := by
    unfold ask
    rw [hi]
    simp only
    rw [if_neg (by simp [Child.start])]
    have h1 : s.kids.find? (fun x => decide (x.pid = c ∧ x.fate.isSome = true)) = none := by
      rw [List.find?_eq_none]
      intro x hx
      simp [hr x hx]
    have h2 : ¬ (false = true ∨ (s.kids.any fun x => x.fate.isSome) = true) := by
      simp only [List.any_eq_true]
      rintro (h | ⟨x, hx, h⟩)
      · cases h
      · simp [hr x hx] at h
    have ha : answer s.kids (Child.start (-1)).pid false c = some (.ok 0 0, s.kids) := by
      show answer s.kids (-1) false c = _
      unfold answer
      rw [if_neg (show ¬ (0 : Int) < -1 by decide), if_neg hk, h1]
      simp only [if_neg h2]
    have hw : Child.waitpid (Child.start (-1)) (List.replicate k .eintr ++ [.ok 0 0]) =
        (.status ⟨false, 0⟩, Child.start (-1), []) := by
      rw [waitpid_one rfl k (by simp)]
      exact if_neg (show ¬ (0 : Int) = -1 by decide)
    rw [ha]
    simp only
    rw [hw]
  have hlt : i < s.procs.length := (List.getElem?_eq_some_iff.1 hi).1
  exact ⟨_, by simp only [step, ho, hask]; simp [hlt]; rfl, by simp [signal, Child.terminate, Child.start]⟩

/-- **C120 fails if the host program waits for its children itself** (or ignores `SIGCHLD`, so that the kernel does): in every
state in which the host has taken the end of a sandbox that no query has seen, the next query about it ends the host. -/
theorem reaped_ends_host (s : St) {i k c q st : Nat} {b : Bool} (ho : s.over = false) (hi : s.procs[i]? = some (Child.start q))
    (hq : q ≠ 0) (hu : ∀ x ∈ s.kids, ∀ y ∈ s.kids, x.pid = y.pid → x = y) (hk : ⟨q, some i, some st⟩ ∈ s.kids) :
    ∃ s1 s2, step s (.reap q) = some s1 ∧ step s1 (.query i k c b) = some s2 ∧ s2.over = true := by
  have hfind : s.kids.find? (fun x => decide (x.pid = q)) = some ⟨q, some i, some st⟩ := by
    rcases hh : s.kids.find? (fun x => decide (x.pid = q)) with _ | y
    · rw [List.find?_eq_none] at hh
      have := hh _ hk
      simp at this
    · have h1 := List.mem_of_find?_eq_some hh
      have h2 := List.find?_some hh
      simp only [decide_eq_true_eq] at h2
      rw [hh, hu y h1 _ hk h2]
  obtain ⟨s1, hs1⟩ : ∃ t : St, t = { s with kids := s.kids.filter (fun y => y.pid ≠ q) } := ⟨_, rfl⟩
  have hj1 : s1.procs[i]? = some (Child.start q) := by rw [hs1]; exact hi
  have ho1 : s1.over = false := by rw [hs1]; exact ho
  have hask1 : ask s1 i k c b = some (none, { s1 with kids := s1.kids, over := true }) := by
    unfold ask
    rw [hj1]
    simp only
    rw [if_neg (by simp [Child.start])]
    have ha : answer s1.kids (Child.start q).pid b c = some (.failed, s1.kids) := by
      show answer s1.kids (q : Int) b c = _
      unfold answer
      rw [if_pos (by omega)]
      have : s1.kids.find? (fun x => decide ((x.pid : Int) = (q : Int))) = none := by
        rw [List.find?_eq_none, hs1]
        intro x hx
        simp only [List.mem_filter, decide_eq_true_eq] at hx
        simp; omega
      rw [this]
    rw [ha]
    simp only
    rw [waitpid_one rfl k (by simp)]
  refine ⟨s1, _, ?_, by simp only [step, ho1, hask1]; rfl, rfl⟩
  simp only [step, ho, hfind, hs1]; rfl

/-! ## Examples -/

/-- Two sandboxes and a child of the host's own; the first ends with code 3, its number goes to the third sandbox, and the
second is terminated: a careful run. -/
example : ∃ s, run {} [.make (some 10), .fork 11, .make (some 12), .ends 10 0x300, .query 0 2 0 false, .make (some 10),
      .ends 11 0, .reap 11, .term 1 0 0, .query 0 0 0 true, .query 2 0 0 false] = some s ∧
    s.log = [.said 2 ⟨false, 0⟩, .said 0 ⟨true, 3⟩, .killed 1 (some 1), .said 0 ⟨true, 3⟩] ∧
    CarefulRun {} [.make (some 10), .fork 11, .make (some 12), .ends 10 0x300, .query 0 2 0 false, .make (some 10),
      .ends 11 0, .reap 11, .term 1 0 0, .query 0 0 0 true, .query 2 0 0 false] := by
  refine ⟨_, rfl, rfl, ?_⟩
  iterate 11
    refine ⟨by first | trivial | (simp [Careful]; done) | (unfold Careful; decide), ?_⟩
    intro s' h
    cases Option.some.inj h
  trivial

/-- One sandbox that could not be started, and one that ends. -/
example : ∃ s, run {} [.make none, .make (some 12), .ends 12 0x300] = some s ∧ s.over = false ∧
    s.procs[0]? = some (Child.start (-1)) ∧ s.procs[1]? = some (Child.start (12 : Nat)) ∧ s.kids = [⟨12, some 1, some 0x300⟩] :=
  ⟨_, rfl, rfl, rfl, rfl, rfl⟩

/-- While the other runs: everything is signalled. -/
example : ∃ s, run {} [.make none, .make (some 12), .term 0 0 0] = some s ∧ s.log = [.everyone 0] := ⟨_, rfl, rfl⟩

end Verif.Family
