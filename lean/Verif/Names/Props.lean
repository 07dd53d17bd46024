import Verif.Names.Model

/-!
# Anonymous shared memory made from named shared memory (property C74)
-/

namespace Verif.Names

/-! ### Specification -/

/-- The object that a process of ours has made. -/
def Pc.object : Pc → Option Nat
  | .unlink _ o => some o
  | .done o => o
  | .dead (some (_, o)) => some o
  | _ => none

/-- The name that a process of ours has made and not removed. -/
def Pc.holds : Pc → Option (Name × Nat)
  | .unlink n o => some (n, o)
  | .dead h => h
  | _ => none

/-- At the beginning: some processes that will make objects, and names of other programs' objects, each with one
name. -/
structure Start (s : St) : Prop where
  fresh : ∀ (i : Nat) (p : Pc), s.procs[i]? = some p → p = .choose
  old : ∀ n o, s.names n = some o → o < s.next ∧ s.others o = true
  one : ∀ n n' o, s.names n = some o → s.names n' = some o → n = n'

/-! ### Invariant -/

/-- What holds in every state. -/
structure Good (s : St) : Prop where
  /-- objects with names have numbers already given -/
  lt : ∀ n o, s.names n = some o → o < s.next
  /-- an object has at most one name -/
  one : ∀ n n' o, s.names n = some o → s.names n' = some o → n = n'
  /-- a named object of ours belongs to a process that holds the name -/
  ours : ∀ n o, s.names n = some o → s.others o = false →
    ∃ (i : Nat) (p : Pc), s.procs[i]? = some p ∧ Pc.holds p = some (n, o)
  /-- a process that holds a name holds it -/
  held : ∀ (i : Nat) (p : Pc) n o, s.procs[i]? = some p → Pc.holds p = some (n, o) → s.names n = some o
  /-- objects of processes have numbers already given and are not of other programs -/
  obj : ∀ (i : Nat) (p : Pc) o, s.procs[i]? = some p → Pc.object p = some o → o < s.next ∧ s.others o = false
  /-- different processes have different objects -/
  diff : ∀ (i j : Nat) (p q : Pc) o, s.procs[i]? = some p → s.procs[j]? = some q → Pc.object p = some o → Pc.object q = some o →
    i = j

theorem holds_object {p : Pc} {n : Name} {o : Nat} (h : p.holds = some (n, o)) : p.object = some o := by
  cases p with
  | unlink n' o' => cases h; rfl
  | dead h' =>
    cases h' with
    | none => cases h
    | some x => simp only [Pc.holds, Option.some.injEq] at h; subst h; rfl
  | _ => cases h

theorem at_procs (s : St) (i : Nat) (p : Pc) (j : Nat) (q : Pc) (h : (s.at i p).procs[j]? = some q) :
    (j = i ∧ q = p) ∨ (j ≠ i ∧ s.procs[j]? = some q) := by
  simp only [St.at, List.getElem?_set] at h
  by_cases hj : i = j
  · subst hj
    left
    simp at h
    exact ⟨rfl, h.2.symm⟩
  · right
    simp only [hj, if_false] at h
    exact ⟨fun e => hj e.symm, h⟩

theorem at_same (s : St) (i : Nat) (p q : Pc) (h : s.procs[i]? = some q) : (s.at i p).procs[i]? = some p := by
  have : i < s.procs.length := (List.getElem?_eq_some_iff.1 h).1
  simp [St.at, this]

theorem at_other (s : St) (i j : Nat) (p : Pc) (h : j ≠ i) : (s.at i p).procs[j]? = s.procs[j]? := by
  simp [St.at, Ne.symm h]

/-- A step that changes neither the names nor what the process has. -/
theorem good_at {s : St} {i : Nat} {p q : Pc} (g : Good s) (hp : s.procs[i]? = some p) (ho : ∀ o, q.object = some o → p.object = some o)
    (hh : q.holds = p.holds) : Good (s.at i q) := by
  refine ⟨g.lt, g.one, ?_, ?_, ?_, ?_⟩
  · intro n o h1 h2
    obtain ⟨j, r, h3, h4⟩ := g.ours n o h1 h2
    by_cases hj : j = i
    · subst hj
      rw [hp] at h3
      cases h3
      exact ⟨j, q, at_same s j q p hp, hh.trans h4⟩
    · exact ⟨j, r, (at_other s i j q hj).trans h3, h4⟩
  · intro j r n o h1 h2
    rcases at_procs s i q j r h1 with ⟨rfl, rfl⟩ | ⟨_, h3⟩
    · exact g.held j p n o hp (hh ▸ h2)
    · exact g.held j r n o h3 h2
  · intro j r o h1 h2
    rcases at_procs s i q j r h1 with ⟨rfl, rfl⟩ | ⟨_, h3⟩
    · exact g.obj j p o hp (ho o h2)
    · exact g.obj j r o h3 h2
  · intro j k r t o h1 h2 h3 h4
    rcases at_procs s i q j r h1 with ⟨ej, er⟩ | ⟨hj, h5⟩ <;>
      rcases at_procs s i q k t h2 with ⟨ek, et⟩ | ⟨hk, h6⟩
    · exact ej.trans ek.symm
    · subst ej er; exact g.diff j k p t o hp h6 (ho o h3) h4
    · subst ek et; exact g.diff j k r p o h5 hp h3 (ho o h4)
    · exact g.diff j k r t o h5 h6 h3 h4

theorem good_make {s : St} {n : Name} {b : Bool} (g : Good s) (hn : s.names n = none) (hb : b = true) :
    Good (s.make n b) := by
  subst hb
  refine ⟨?_, ?_, ?_, ?_, ?_, g.diff⟩
  · intro x o h
    simp only [St.make] at h ⊢
    have := g.lt x o
    grind
  · intro x y o h1 h2
    simp only [St.make] at h1 h2
    have := g.lt x o
    have := g.lt y o
    have := g.one x y o
    grind
  · intro x o h1 h2
    simp only [St.make] at h1 h2 ⊢
    have := g.ours x o
    grind
  · intro i p x o h1 h2
    have := g.held i p x o h1 h2
    simp only [St.make]
    by_cases hx : x = n
    · subst hx; rw [hn] at this; cases this
    · rw [if_neg hx]; exact this
  · intro i p o h1 h2
    have := g.obj i p o h1 h2
    simp only [St.make]
    rw [if_neg (by omega)]
    exact ⟨by omega, this.2⟩

theorem good_own {s : St} {i : Nat} {n : Name} (g : Good s) (hp : s.procs[i]? = some (.«open» n))
    (hn : s.names n = none) : Good ((s.make n false).at i (.unlink n s.next)) := by
  have hp' : (s.make n false).procs[i]? = some (.«open» n) := hp
  refine ⟨?_, ?_, ?_, ?_, ?_, ?_⟩
  · intro x o h
    simp only [St.make, St.at] at h ⊢
    have := g.lt x o
    grind
  · intro x y o h1 h2
    simp only [St.make, St.at] at h1 h2
    have := g.lt x o
    have := g.lt y o
    have := g.one x y o
    grind
  · intro x o h1 h2
    simp only [St.make, St.at] at h1 h2
    by_cases hx : x = n
    · subst hx
      simp only [if_true, Option.some.injEq] at h1
      subst h1
      exact ⟨i, _, at_same _ i _ _ hp', rfl⟩
    · rw [if_neg hx] at h1
      have := g.lt x o h1
      rw [if_neg (by omega)] at h2
      obtain ⟨j, r, h3, h4⟩ := g.ours x o h1 h2
      have hj : j ≠ i := by
        rintro rfl
        rw [hp] at h3; cases h3; cases h4
      exact ⟨j, r, (at_other _ i j _ hj).trans h3, h4⟩
  · intro j r x o h1 h2
    rcases at_procs _ i _ j r h1 with ⟨rfl, rfl⟩ | ⟨_, h3⟩
    · simp only [Pc.holds, Option.some.injEq, Prod.mk.injEq] at h2
      simp [St.make, St.at, h2.1, h2.2]
    · have := g.held j r x o h3 h2
      simp only [St.make, St.at]
      by_cases hx : x = n
      · subst hx; rw [hn] at this; cases this
      · rw [if_neg hx]; exact this
  · intro j r o h1 h2
    simp only [St.at]
    rcases at_procs _ i _ j r h1 with ⟨rfl, rfl⟩ | ⟨_, h3⟩
    · simp only [Pc.object, Option.some.injEq] at h2
      subst h2
      simp [St.make]
    · have := g.obj j r o h3 h2
      simp only [St.make]
      rw [if_neg (by omega)]
      exact ⟨by omega, this.2⟩
  · intro j k r t o h1 h2 h3 h4
    rcases at_procs _ i _ j r h1 with ⟨ej, er⟩ | ⟨hj, h5⟩ <;>
      rcases at_procs _ i _ k t h2 with ⟨ek, et⟩ | ⟨hk, h6⟩
    · exact ej.trans ek.symm
    · subst ej er
      simp only [Pc.object, Option.some.injEq] at h3
      have := g.obj k t o h6 h4
      omega
    · subst ek et
      simp only [Pc.object, Option.some.injEq] at h4
      have := g.obj j r o h5 h3
      omega
    · exact g.diff j k r t o h5 h6 h3 h4

theorem good_unlink {s : St} {i : Nat} {n : Name} {o : Nat} (g : Good s) (hp : s.procs[i]? = some (.unlink n o)) :
    Good ((s.bind n none).at i (.done (some o))) := by
  have hp' : (s.bind n none).procs[i]? = some (.unlink n o) := hp
  have hb : ∀ x y, (s.bind n none).names x = some y → x ≠ n ∧ s.names x = some y := by
    intro x y h
    simp only [St.bind] at h
    by_cases hx : x = n
    · rw [if_pos hx] at h; cases h
    · rw [if_neg hx] at h; exact ⟨hx, h⟩
  refine ⟨?_, ?_, ?_, ?_, ?_, ?_⟩
  · intro x y h
    exact g.lt x y (hb x y h).2
  · intro x y z h1 h2
    exact g.one x y z (hb _ _ h1).2 (hb _ _ h2).2
  · intro x y h1 h2
    obtain ⟨hx, h3⟩ := hb x y h1
    obtain ⟨j, r, h4, h5⟩ := g.ours x y h3 h2
    have hj : j ≠ i := by
      rintro rfl
      rw [hp] at h4; cases h4
      simp only [Pc.holds, Option.some.injEq, Prod.mk.injEq] at h5
      exact hx h5.1.symm
    exact ⟨j, r, (at_other _ i j _ hj).trans h4, h5⟩
  · intro j r x y h1 h2
    rcases at_procs _ i _ j r h1 with ⟨rfl, rfl⟩ | ⟨hj, h3⟩
    · cases h2
    · have h4 := g.held j r x y h3 h2
      simp only [St.bind, St.at]
      rw [if_neg]
      · exact h4
      · rintro rfl
        have h5 := g.held i _ x o hp rfl
        rw [h4] at h5
        simp only [Option.some.injEq] at h5
        exact hj (g.diff j i r _ y h3 hp (holds_object h2) (congrArg some h5.symm))
  · intro j r y h1 h2
    rcases at_procs _ i _ j r h1 with ⟨rfl, rfl⟩ | ⟨_, h3⟩
    · exact g.obj j _ y hp h2
    · exact g.obj j r y h3 h2
  · intro j k r t y h1 h2 h3 h4
    rcases at_procs _ i _ j r h1 with ⟨ej, er⟩ | ⟨hj, h5⟩ <;>
      rcases at_procs _ i _ k t h2 with ⟨ek, et⟩ | ⟨hk, h6⟩
    · exact ej.trans ek.symm
    · subst ej er; exact g.diff j k _ t y hp h6 h3 h4
    · subst ek et; exact g.diff j k r _ y h5 hp h3 h4
    · exact g.diff j k r t y h5 h6 h3 h4

theorem good_remove {s : St} {n : Name} {o : Nat} (g : Good s) (hn : s.names n = some o) (ho : s.others o = true) :
    Good (s.bind n none) := by
  have hb : ∀ x y, (s.bind n none).names x = some y → x ≠ n ∧ s.names x = some y := by
    intro x y h
    simp only [St.bind] at h
    by_cases hx : x = n
    · rw [if_pos hx] at h; cases h
    · rw [if_neg hx] at h; exact ⟨hx, h⟩
  refine ⟨fun x y h => g.lt x y (hb x y h).2, fun x y z h1 h2 => g.one x y z (hb _ _ h1).2 (hb _ _ h2).2,
    fun x y h1 h2 => g.ours x y (hb x y h1).2 h2, ?_, g.obj, g.diff⟩
  intro j r x y h1 h2
  have h4 := g.held j r x y h1 h2
  simp only [St.bind]
  rw [if_neg]
  · exact h4
  · rintro rfl
    rw [hn] at h4
    cases h4
    have := (g.obj j r o h1 (holds_object h2)).2
    rw [ho] at this; cases this

theorem good_step {s s' : St} {a : Act} (g : Good s) (h : step s a = some s') : Good s' := by
  cases a with
  | choose i n =>
    simp only [step] at h
    split at h
    · rename_i hp; cases h; exact good_at g hp (fun _ h => nomatch h) rfl
    · cases h
  | «open» i =>
    simp only [step] at h
    split at h
    · rename_i n hp
      split at h
      · cases h; exact good_at g hp (fun _ h => nomatch h) rfl
      · rename_i hn; cases h; exact good_own g hp hn
    · cases h
  | fail i =>
    simp only [step] at h
    split at h
    · rename_i hp; cases h; exact good_at g hp (fun _ h => nomatch h) rfl
    · cases h
  | unlink i =>
    simp only [step] at h
    split at h
    · rename_i hp; cases h; exact good_unlink g hp
    · cases h
  | crash i =>
    simp only [step] at h
    split at h
    · rename_i hp; cases h; exact good_at g hp (fun _ h => h) rfl
    · cases h
    · rename_i p h1 h2 hp
      cases h
      refine good_at g hp (fun _ h => nomatch h) ?_
      cases p with
      | unlink n o => exact absurd rfl (h1 n o)
      | dead x => exact absurd rfl (h2 x)
      | _ => rfl
    · cases h
  | otherMake n =>
    simp only [step] at h
    split at h
    · cases h
    · rename_i hn; cases h; exact good_make g hn rfl
  | otherRemove n =>
    simp only [step] at h
    split at h
    · rename_i o hn
      split at h
      · rename_i ho; cases h; exact good_remove g hn ho
      · cases h
    · cases h

theorem good_start {s : St} (h : Start s) : Good s := by
  have hc : ∀ (i : Nat) (p : Pc), s.procs[i]? = some p → Pc.object p = none ∧ Pc.holds p = none := by
    intro i p hp
    rw [h.fresh i p hp]
    exact ⟨rfl, rfl⟩
  refine ⟨fun n o hn => (h.old n o hn).1, h.one, ?_, ?_, ?_, ?_⟩
  · intro n o hn ho
    rw [(h.old n o hn).2] at ho
    cases ho
  · intro i p n o hp hh
    rw [(hc i p hp).2] at hh
    cases hh
  · intro i p o hp hh
    rw [(hc i p hp).1] at hh
    cases hh
  · intro i j p q o hp _ hh
    rw [(hc i p hp).1] at hh
    cases hh

theorem good_run {s s' : St} {as : List Act} (g : Good s) (h : run s as = some s') : Good s' := by
  induction as generalizing s with
  | nil => cases h; exact g
  | cons a as ih =>
    simp only [run] at h
    cases hs : step s a with
    | none => rw [hs] at h; cases h
    | some s1 => rw [hs] at h; exact ih (good_step g hs) h

/-- The numbers of objects only grow, and who made an object does not change. -/
theorem step_next {s s' : St} {a : Act} (h : step s a = some s') :
    s.next ≤ s'.next ∧ ∀ o, o < s.next → s'.others o = s.others o := by
  have hmake : ∀ n b, (s.make n b).next = s.next + 1 ∧ ∀ o, o < s.next → (s.make n b).others o = s.others o := by
    intro n b
    refine ⟨rfl, fun o ho => ?_⟩
    simp only [St.make]
    rw [if_neg (by omega)]
  cases a <;> simp only [step] at h <;> (repeat' split at h) <;> cases h <;>
    first
    | exact ⟨Nat.le_refl _, fun _ _ => rfl⟩
    | exact ⟨Nat.le_succ _, fun o ho => (hmake 0 true).2 o ho⟩
    | exact ⟨Nat.le_succ _, fun o ho => (hmake 0 false).2 o ho⟩

theorem step_length {s s' : St} {a : Act} (h : step s a = some s') : s'.procs.length = s.procs.length := by
  cases a <;> simp only [step] at h <;> (repeat' split at h) <;> cases h <;>
    simp [St.at, St.make, St.bind]

theorem run_next {s s' : St} {as : List Act} (h : run s as = some s') :
    s.next ≤ s'.next ∧ ∀ o, o < s.next → s'.others o = s.others o := by
  induction as generalizing s with
  | nil => cases h; exact ⟨Nat.le_refl _, fun _ _ => rfl⟩
  | cons a as ih =>
    simp only [run] at h
    cases hs : step s a with
    | none => rw [hs] at h; cases h
    | some s1 =>
      rw [hs] at h
      have h1 := step_next hs
      have h2 := ih h
      exact ⟨Nat.le_trans h1.1 h2.1, fun o ho => (h2.2 o (by omega)).trans (h1.2 o ho)⟩

/-! ### Properties -/

/-- **C74, one object each.**  Whatever names are chosen, and however the processes and other programs interleave: a
process that is given an object has one that no other process has, and that no other program made. -/
theorem exclusive {s s' : St} {as : List Act} (h : Start s) (hr : run s as = some s') {i : Nat} {o : Nat}
    (hi : s'.procs[i]? = some (.done (some o))) :
    s'.others o = false ∧ (∀ n, s.names n ≠ some o) ∧
      ∀ (j : Nat), s'.procs[j]? = some (.done (some o)) → j = i := by
  have g := good_run (good_start h) hr
  have ho := g.obj i _ o hi rfl
  refine ⟨ho.2, fun n hn => ?_, fun j hj => g.diff j i _ _ o hj hi rfl rfl⟩
  have h1 := h.old n o hn
  have h2 := (run_next hr).2 o h1.1
  rw [h1.2, ho.2] at h2
  cases h2

/-- **C74, no name.**  When the constructor returns, and ever after, no name leads to the object. -/
theorem anonymous {s s' : St} {as : List Act} (h : Start s) (hr : run s as = some s') {i : Nat} {o : Nat}
    (hi : s'.procs[i]? = some (.done (some o))) (n : Name) : s'.names n ≠ some o := by
  have g := good_run (good_start h) hr
  intro hn
  obtain ⟨j, p, hj, hh⟩ := g.ours n o hn (g.obj i _ o hi rfl).2
  have := g.diff j i p _ o hj hi (holds_object hh) rfl
  subst this
  rw [hi] at hj
  cases hj
  cases hh

/-- **C74, other programs.**  No step of a process of ours takes a name away from an object of another program or gives
that name another object. -/
theorem others_kept {s s' s'' : St} {as : List Act} {a : Act} (h : Start s) (hr : run s as = some s')
    (hs : step s' a = some s'') (ha : ∀ n, a ≠ .otherRemove n) {n : Name} {o : Nat} (hn : s'.names n = some o)
    (ho : s'.others o = true) : s''.names n = some o := by
  have g := good_run (good_start h) hr
  have hmake : ∀ x b, s'.names x = none → (s'.make x b).names n = some o := by
    intro x b hx
    simp only [St.make]
    rw [if_neg]
    · exact hn
    · rintro rfl; rw [hx] at hn; cases hn
  cases a with
  | choose i x =>
    simp only [step] at hs
    split at hs <;> cases hs
    exact hn
  | «open» i =>
    simp only [step] at hs
    split at hs
    · split at hs <;> cases hs
      · exact hn
      · exact hmake _ false (by assumption)
    · cases hs
  | fail i =>
    simp only [step] at hs
    split at hs <;> cases hs
    exact hn
  | unlink i =>
    simp only [step] at hs
    split at hs
    · rename_i x y hp
      cases hs
      simp only [St.bind, St.at]
      rw [if_neg]
      · exact hn
      · rintro rfl
        have h1 := g.held i _ n y hp rfl
        rw [hn] at h1
        cases h1
        have h2 := (g.obj i _ o hp rfl).2
        rw [ho] at h2
        cases h2
    · cases hs
  | crash i =>
    simp only [step] at hs
    split at hs <;> cases hs <;> exact hn
  | otherMake x =>
    simp only [step] at hs
    split at hs <;> cases hs
    exact hmake _ true (by assumption)
  | otherRemove x => exact absurd rfl (ha x)

/-- **C74, nothing is left behind.**  When every process has returned from the constructor, every name that remains is
of another program.  A process that ended in the constructor leaves at most one name, of its own object. -/
theorem no_leak {s s' : St} {as : List Act} (h : Start s) (hr : run s as = some s') {n : Name} {o : Nat}
    (hn : s'.names n = some o) (ho : s'.others o = false) :
    ∃ i : Nat, s'.procs[i]? = some (.unlink n o) ∨ s'.procs[i]? = some (.dead (some (n, o))) := by
  obtain ⟨i, p, hi, hh⟩ := (good_run (good_start h) hr).ours n o hn ho
  refine ⟨i, ?_⟩
  cases p with
  | unlink x y => cases hh; exact .inl hi
  | dead x => cases hh; exact .inr hi
  | _ => cases hh

/-- **C74, the loop ends.**  With the names held still, the loop ends with the first free name of the sequence of random
numbers, and not before; so it ends exactly when there is a free one among them. -/
theorem search_first (names : Name → Option Nat) (rnd : Nat → Name) (fuel k j : Nat) (n : Name) :
    search names rnd fuel k = some (j, n) ↔
      k ≤ j ∧ j < k + fuel ∧ n = rnd j ∧ names (rnd j) = none ∧ ∀ i, k ≤ i → i < j → names (rnd i) ≠ none := by
  induction fuel generalizing k with
  | zero => simp only [search]; constructor <;> intro h; cases h; omega
  | succ f ih =>
    simp only [search]
    cases hk : names (rnd k) with
    | none =>
      simp only [Option.some.injEq, Prod.mk.injEq]
      constructor
      · rintro ⟨rfl, rfl⟩
        exact ⟨Nat.le_refl _, by omega, rfl, hk, fun i h1 h2 => by omega⟩
      · rintro ⟨h1, h2, h3, h4, h5⟩
        by_cases hj : k < j
        · exact absurd hk (h5 k (Nat.le_refl _) hj)
        · have : k = j := by omega
          subst this
          exact ⟨rfl, h3.symm⟩
    | some o =>
      rw [ih (k + 1)]
      constructor
      · rintro ⟨h1, h2, h3, h4, h5⟩
        refine ⟨by omega, by omega, h3, h4, fun i h6 h7 => ?_⟩
        by_cases hi : i = k
        · subst hi; rw [hk]; simp
        · exact h5 i (by omega) h7
      · rintro ⟨h1, h2, h3, h4, h5⟩
        have : j ≠ k := by rintro rfl; rw [hk] at h4; cases h4
        exact ⟨by omega, by omega, h3, h4, fun i h6 h7 => h5 i (by omega) h7⟩

/-- **C74, no map without an object.**  The host goes on exactly with an object of the right size, the
anonymous one if there is one, and ends otherwise. -/
theorem base_object (memfd posix : Option Nat) (truncates : Bool) (o : Nat) : (base memfd posix truncates = .ok o ↔
    truncates = true ∧ (memfd = some o ∨ (memfd = none ∧ posix = some o))) ∧
    (base memfd posix truncates = .abort ↔ truncates = false ∨ (memfd = none ∧ posix = none)) := by
  cases memfd <;> cases posix <;> cases truncates <;> simp_all [base]

/-! ### The hypotheses can be met -/

/-- Two processes and one name of another program. -/
def exStart : St :=
  { names := fun n => if n = 7 then some 0 else none
    next := 1
    others := fun o => o == 0
    procs := [.choose, .choose] }

theorem exStart_start : Start exStart := by
  refine ⟨?_, ?_, ?_⟩
  · intro i p h
    match i, h with
    | 0, h => cases h; rfl
    | 1, h => cases h; rfl
    | _ + 2, h => cases h
  · intro n o h
    simp only [exStart] at h ⊢
    split at h <;> cases h
    exact ⟨by decide, by decide⟩
  · intro n n' o h h'
    simp only [exStart] at h h'
    split at h <;> split at h' <;> simp_all

/-- Both processes choose the name of the other program, then both choose 9; one waits for the other. -/
def exActs : List Act :=
  [.choose 0 7, .choose 1 7, .«open» 0, .«open» 1, .choose 0 9, .choose 1 9, .«open» 1, .«open» 0, .choose 0 9, .unlink 1,
   .«open» 0, .otherMake 3, .unlink 0]

example : (run exStart exActs).map (·.procs) = some [.done (some 2), .done (some 1)] := by decide

example : ∃ s', run exStart exActs = some s' ∧ s'.procs[0]? = some (.done (some 2)) ∧ s'.others 2 = false ∧
    (∀ n, s'.names n ≠ some 2) := by
  cases h : run exStart exActs with
  | none => exact absurd (congrArg Option.isSome h) (by decide)
  | some s' =>
    have h1 : s'.procs = [.done (some 2), .done (some 1)] := by
      have : (run exStart exActs).map (·.procs) = some [.done (some 2), .done (some 1)] := by decide
      rw [h] at this
      exact Option.some.inj this
    have h2 : s'.procs[0]? = some (.done (some 2)) := by rw [h1]; rfl
    exact ⟨s', rfl, h2, (exclusive exStart_start h h2).1, anonymous exStart_start h h2⟩

/-- The name of the other program stays when process 1 removes its own. -/
example : ((run exStart (exActs.take 10)).map (·.names 7)) = some (some 0) := by decide

/-- A process that ends between the two calls leaves its name. -/
example : (run exStart [.choose 0 9, .«open» 0, .crash 0]).map (fun s => (s.names 9, s.others 1, s.procs)) =
    some (some 1, false, [.dead (some (9, 1)), .choose]) := by decide

example : search exStart.names (fun k => if k < 3 then 7 else k) 10 0 = some (3, 3) := by decide

example : base none (some 4) true = .ok 4 := by decide

end Verif.Names
