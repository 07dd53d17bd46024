import Verif.Path.Model
import Verif.Path.Spec

namespace Verif.Path

open Spec

/-- `nextSep` finds the first separator. -/
theorem nextSep_none (s : List Byte) : nextSep s = none ↔ slash ∉ s := by
  fun_induction nextSep s with
  | case1 => simp
  | case2 => simp_all
  | case3 c hc => simp; exact fun h => hc h.symm
  | case4 c hc ds ih =>
    simp only [Option.map_eq_none_iff, ih, List.mem_cons, not_or]
    constructor
    · intro h; exact ⟨fun h => hc h.symm, by decide, h⟩
    · exact fun h => h.2.2
  | case5 c hc d ds hd ih =>
    simp only [Option.map_eq_none_iff, ih, List.mem_cons, not_or]
    constructor
    · intro h; exact ⟨fun h => hc h.symm, h⟩
    · exact fun h => h.2

theorem nextSep_some (s : List Byte) (i : Nat) (h : nextSep s = some i) :
    slash ∉ s.take i ∧ ∃ rest, s = s.take i ++ slash :: rest ∧ s.drop (i + 1) = rest := by
  fun_induction nextSep s generalizing i with
  | case1 => simp at h
  | case2 => simp at h; subst h; simp_all
  | case3 => simp at h
  | case4 c hc ds ih =>
    simp only [Option.map_eq_some_iff] at h
    obtain ⟨j, hj, rfl⟩ := h
    obtain ⟨h1, r, h2, h3⟩ := ih j hj
    refine ⟨?_, r, ?_, ?_⟩
    · simp only [List.take_succ_cons, List.mem_cons, not_or]
      exact ⟨fun h => hc h.symm, by decide, h1⟩
    · simp only [List.take_succ_cons, List.cons_append]
      rw [← h2]
    · simpa using h3
  | case5 c hc d ds hd ih =>
    simp only [Option.map_eq_some_iff] at h
    obtain ⟨j, hj, rfl⟩ := h
    obtain ⟨h1, r, h2, h3⟩ := ih j hj
    refine ⟨?_, r, ?_, ?_⟩
    · simp only [List.take_succ_cons, List.mem_cons, not_or]
      exact ⟨fun h => hc h.symm, h1⟩
    · simp only [List.take_succ_cons, List.cons_append]
      rw [← h2]
    · simpa using h3

theorem splitLoop_nil : splitLoop [] = [] := by
  rw [splitLoop]
  split
  · rename_i i hi
    simp [nextSep] at hi
  · rfl

theorem splitLoop_no_slash (s : List Byte) (h : slash ∉ s) (hne : s ≠ []) :
    splitLoop s = [s] := by
  rw [splitLoop]
  split
  · rename_i i hi
    have := (nextSep_none s).2 h
    simp [hi] at this
  · simp [hne]

theorem splitLoop_slash (a b : List Byte) (h : slash ∉ a) :
    splitLoop (a ++ slash :: b) = a :: splitLoop b := by
  rw [splitLoop]
  split
  · rename_i i hi
    obtain ⟨h1, r, h2, h3⟩ := nextSep_some _ i hi
    have hil := nextSep_lt _ _ hi
    have hia : i = a.length := by
      rcases Nat.lt_trichotomy i a.length with hlt | heq | hgt
      · exfalso
        rw [List.take_append_of_le_length (by omega)] at h2
        have hh : (a ++ slash :: b)[i]? = some slash := by
          rw [h2, List.getElem?_append_right (by simp; omega)]
          simp
          rw [Nat.min_eq_left (by omega)]; simp
        rw [List.getElem?_append_left hlt] at hh
        exact h (List.mem_of_getElem? hh)
      · exact heq
      · exfalso
        apply h1
        rw [List.take_append]
        simp only [List.mem_append]
        right
        obtain ⟨k, hk⟩ : ∃ k, i - a.length = k + 1 := ⟨i - a.length - 1, by omega⟩
        rw [hk]; simp
    subst hia
    simp
  · rename_i hn
    rw [nextSep_none] at hn
    simp at hn

/-- Every component of a split text is free of separators. -/
theorem splitLoop_mem (s : List Byte) : ∀ c ∈ splitLoop s, slash ∉ c := by
  fun_induction splitLoop s with
  | case1 s i hi _ ih =>
    intro c hc
    simp only [List.mem_cons] at hc
    rcases hc with rfl | hc
    · exact (nextSep_some s i hi).1
    · exact ih c hc
  | case2 => simp
  | case3 s h hne =>
    simp only [List.mem_singleton]
    rintro c rfl
    exact (nextSep_none _).1 h

/-- Printing the components with a separator before each gives the text back. -/
theorem strLoop_splitLoop (s : List Byte) :
    strLoop true (splitLoop s) = dropTrailingSlash (slash :: s) := by
  fun_induction splitLoop s with
  | case1 s i hi _ ih =>
    obtain ⟨h1, r, h2, h3⟩ := nextSep_some s i hi
    simp only [strLoop, if_true, List.cons_append, List.nil_append]
    rw [ih, h3]
    have : slash :: s = (slash :: s.take i) ++ (slash :: r) := by
      rw [List.cons_append, ← h2]
    rw [this]
    unfold dropTrailingSlash
    have hlast : ((slash :: s.take i) ++ (slash :: r)).getLast? = (slash :: r).getLast? := by
      rw [List.getLast?_append]; simp [List.getLast?_cons]
    rw [hlast]
    split
    · rw [List.dropLast_append_of_ne_nil (by simp)]; simp
    · simp
  | case2 => simp [strLoop, dropTrailingSlash]
  | case3 s h hne =>
    have hs := (nextSep_none s).1 h
    simp only [strLoop, if_true, List.append_nil, List.singleton_append]
    unfold dropTrailingSlash
    rw [if_neg]
    rw [List.getLast?_cons_of_ne_nil hne]
    intro hl
    exact hs (List.mem_of_getLast? hl)

theorem splitLoop_eq_nil (s : List Byte) : splitLoop s = [] ↔ s = [] := by
  rw [splitLoop]
  split
  · rename_i i hi
    have := nextSep_lt s i hi
    simp only [reduceCtorEq, false_iff]
    rintro rfl
    simp at this
  · split <;> simp_all

theorem strLoop_false (c : Comp) (cs : List Comp) :
    slash :: strLoop false (c :: cs) = strLoop true (c :: cs) := by
  simp [strLoop]

/-- Splitting a printed list of separator-free names whose last one is not empty gives the
names back. -/
theorem splitLoop_strLoop (c : Comp) (cs : List Comp) (hs : ∀ x ∈ c :: cs, slash ∉ x)
    (hl : (c :: cs).getLast (by simp) ≠ []) :
    splitLoop (strLoop false (c :: cs)) = c :: cs := by
  induction cs generalizing c with
  | nil =>
    simp only [strLoop, List.append_nil, Bool.false_eq_true, if_false, List.nil_append]
    exact splitLoop_no_slash c (hs c (by simp)) (by simpa using hl)
  | cons d ds ih =>
    have : strLoop false (c :: d :: ds) = c ++ slash :: strLoop false (d :: ds) := by
      simp [strLoop]
    rw [this, splitLoop_slash _ _ (hs c (by simp)), ih d]
    · intro x hx; exact hs x (List.mem_cons_of_mem _ hx)
    · simpa using hl

/-! ### Canonicalisation -/

/-- Invariant form of the in-place loop: `done` has no `..`, and the loop position is right
after `done`. -/
theorem removeDotdotLoop_eq (done todo : List Comp) (hd : dotdot ∉ done)
    (hn : [] ∉ done) (hn' : [] ∉ todo) :
    (∀ r, resolve done.reverse todo = some r →
      removeDotdotLoop (done ++ todo) done.length = (true, r)) ∧
    (resolve done.reverse todo = none →
      ∃ l, removeDotdotLoop (done ++ todo) done.length = (false, l) ∧
        l.head? = some dotdot ∧ l.Sublist (done ++ todo)) := by
  induction todo generalizing done with
  | nil =>
    constructor
    · intro r hr
      rw [removeDotdotLoop]
      simp [resolve] at hr ⊢
      exact hr
    · intro h; simp [resolve] at h
  | cons c cs ih =>
    simp only [List.mem_cons, not_or] at hn'
    have hc : c ≠ [] := fun h => hn'.1 h.symm
    have hlt : done.length < (done ++ c :: cs).length := by simp
    have hget : (done ++ c :: cs)[done.length] = c := by simp
    by_cases hdd : c = dotdot
    · rcases List.eq_nil_or_concat done with rfl | ⟨d', x, rfl⟩
      · constructor
        · intro r hr
          simp [resolve, hdd] at hr
        · intro _
          refine ⟨c :: cs, ?_, by simp [hdd], by simp⟩
          rw [removeDotdotLoop]
          simp [hdd]
      · have hstep : removeDotdotLoop (d'.concat x ++ c :: cs) (d'.concat x).length =
            removeDotdotLoop (d' ++ cs) d'.length := by
          conv => lhs; rw [removeDotdotLoop]
          rw [dif_pos hlt, hget]
          have h1 : (d'.concat x ++ c :: cs).take ((d'.concat x).length - 1) = d' := by
            simp
          have h2 : (d'.concat x ++ c :: cs).drop ((d'.concat x).length + 1) = cs := by
            rw [List.drop_append]; simp
          rw [h1, h2]
          simp [hdd]
        rw [hstep]
        have hr : resolve (d'.concat x).reverse (c :: cs) = resolve d'.reverse cs := by
          simp [resolve, hdd]
        rw [hr]
        simp only [List.concat_eq_append, List.mem_append, List.mem_singleton, not_or] at hd hn
        obtain ⟨i1, i2⟩ := ih d' hd.1 hn.1 hn'.2
        refine ⟨i1, fun h => ?_⟩
        obtain ⟨l, e1, e2, e3⟩ := i2 h
        refine ⟨l, e1, e2, e3.trans ?_⟩
        simp
    · have hstep : removeDotdotLoop (done ++ c :: cs) done.length =
          removeDotdotLoop ((done ++ [c]) ++ cs) (done ++ [c]).length := by
        conv => lhs; rw [removeDotdotLoop]
        rw [dif_pos hlt, hget]
        simp [hdd]
      rw [hstep]
      have hr : resolve done.reverse (c :: cs) = resolve (done ++ [c]).reverse cs := by
        simp [resolve, hc, hdd]
      rw [hr]
      have hd' : dotdot ∉ done ++ [c] := by
        simp only [List.mem_append, List.mem_singleton, not_or]
        exact ⟨hd, fun h => hdd h.symm⟩
      have hn'' : [] ∉ done ++ [c] := by
        simp only [List.mem_append, List.mem_singleton, not_or]
        exact ⟨hn, hn'.1⟩
      obtain ⟨i1, i2⟩ := ih (done ++ [c]) hd' hn'' hn'.2
      refine ⟨i1, fun h => ?_⟩
      obtain ⟨l, e1, e2, e3⟩ := i2 h
      exact ⟨l, e1, e2, by simpa using e3⟩

/-- Empty names do not matter to `resolve`. -/
theorem resolve_filter (st cs : List Comp) :
    resolve st (cs.filter (fun c => !(c.length == 0))) = resolve st cs := by
  induction cs generalizing st with
  | nil => rfl
  | cons c cs ih =>
    by_cases hc : c = []
    · subst hc; simp [resolve, ih]
    · have : (!(c.length == 0)) = true := by
        simp [hc]
      rw [List.filter_cons_of_pos (by simpa using this)]
      simp only [resolve, hc, if_false]
      split
      · cases st <;> simp [ih]
      · exact ih _

/-- What a successful resolution looks like. -/
theorem resolve_shape (st cs r : List Comp) (h : resolve st cs = some r)
    (h1 : [] ∉ st) (h2 : dotdot ∉ st) : [] ∉ r ∧ dotdot ∉ r := by
  induction cs generalizing st with
  | nil => simp only [resolve, Option.some.injEq] at h; subst h; simpa using ⟨h1, h2⟩
  | cons c cs ih =>
    simp only [resolve] at h
    split at h
    · exact ih st h h1 h2
    · split at h
      · cases st with
        | nil => simp at h
        | cons x st =>
          simp only [List.mem_cons, not_or] at h1 h2
          exact ih st h h1.2 h2.2
      · rename_i e1 e2
        refine ih (c :: st) h ?_ ?_
        · simp only [List.mem_cons, not_or]; exact ⟨fun h => e1 h.symm, h1⟩
        · simp only [List.mem_cons, not_or]; exact ⟨fun h => e2 h.symm, h2⟩

/-- A clean list resolves to itself. -/
theorem resolve_clean (st cs : List Comp) (h1 : [] ∉ cs) (h2 : dotdot ∉ cs) :
    resolve st cs = some (st.reverse ++ cs) := by
  induction cs generalizing st with
  | nil => simp [resolve]
  | cons c cs ih =>
    simp only [List.mem_cons, not_or] at h1 h2
    have e1 : c ≠ [] := fun h => h1.1 h.symm
    have e2 : c ≠ dotdot := fun h => h2.1 h.symm
    simp only [resolve, e1, e2, if_false]
    rw [ih (c :: st) h1.2 h2.2]
    simp

theorem resolve_sublist (st cs r : List Comp) (h : resolve st cs = some r) :
    r.Sublist (st.reverse ++ cs) := by
  induction cs generalizing st with
  | nil => simp only [resolve, Option.some.injEq] at h; subst h; simp
  | cons c cs ih =>
    simp only [resolve] at h
    split at h
    · refine (ih st h).trans ?_
      simp
    · split at h
      · cases st with
        | nil => simp at h
        | cons x st =>
          refine (ih st h).trans ?_
          simp only [List.reverse_cons, List.append_assoc, List.singleton_append]
          simp
      · simpa using ih (c :: st) h

/-- Success of the resolution in terms of counts. -/
theorem resolve_isSome (st cs : List Comp) :
    (resolve st cs).isSome = true ↔ ∀ p, p <+: cs → ups p ≤ st.length + downs p := by
  induction cs generalizing st with
  | nil =>
    simp only [resolve, Option.isSome_some, true_iff]
    intro p hp
    simp only [List.prefix_nil] at hp
    subst hp; simp [ups]
  | cons c cs ih =>
    have split_prefix : ∀ P : List Comp → Prop,
        (∀ p, p <+: c :: cs → P p) ↔ P [] ∧ ∀ p, p <+: cs → P (c :: p) := by
      intro P
      constructor
      · intro h
        exact ⟨h [] (by simp), fun p hp => h _ (by simpa using hp)⟩
      · rintro ⟨h0, h1⟩ p hp
        cases p with
        | nil => exact h0
        | cons x p =>
          simp only [List.cons_prefix_cons] at hp
          obtain ⟨rfl, hp⟩ := hp
          exact h1 p hp
    rw [split_prefix]
    simp only [resolve]
    have hzero : ups [] ≤ st.length + downs [] := by simp [ups]
    split
    · rename_i hc
      subst hc
      rw [ih]
      simp [ups, downs] at hzero ⊢
    · split
      · rename_i hc1 hc2
        subst hc2
        cases st with
        | nil =>
          simp only [Option.isSome_none, Bool.false_eq_true, false_iff]
          intro h
          have := h.2 [] (by simp)
          simp [ups, downs] at this
        | cons x st =>
          simp only
          rw [ih]
          constructor
          · intro h
            refine ⟨hzero, fun p hp => ?_⟩
            have := h p hp
            simp [ups, downs] at this ⊢
            omega
          · rintro ⟨_, h⟩ p hp
            have := h p hp
            simp [ups, downs] at this ⊢
            omega
      · rename_i hc1 hc2
        rw [ih]
        have hu : ∀ p, ups (c :: p) = ups p := by
          intro p; simp [ups, hc2]
        have hw : ∀ p, downs (c :: p) = downs p + 1 := by
          intro p; simp [downs, hc1, hc2]
        constructor
        · intro h
          refine ⟨hzero, fun p hp => ?_⟩
          have := h p hp
          rw [hu, hw]
          simp at this
          omega
        · rintro ⟨_, h⟩ p hp
          have := h p hp
          rw [hu, hw] at this
          simp
          omega

/-! ### Walking -/

theorem walk_append (t : Tree) (n : t.Node) (a b : List Comp) :
    t.walk n (a ++ b) = (t.walk n a).bind (fun m => t.walk m b) := by
  induction a generalizing n with
  | nil => rfl
  | cons c cs ih =>
    simp only [List.cons_append, Tree.walk, Option.bind_assoc]
    congr 1
    funext m
    exact ih m

/-- If the names on the stack lead from `n` to `m`, resolving the rest lexically and walking
gives the same node as walking the rest from `m`. -/
theorem walk_resolve (t : Tree) (n m : t.Node) (st cs r : List Comp)
    (hst : t.walk n st.reverse = some m)
    (h1 : ∀ c ∈ st, c ≠ [] ∧ c ≠ [46] ∧ c ≠ dotdot) (h2 : [46] ∉ cs)
    (hr : resolve st cs = some r) (k : t.Node) (hw : t.walk m cs = some k) :
    t.walk n r = some k := by
  induction cs generalizing st m with
  | nil =>
    simp only [resolve, Option.some.injEq] at hr
    simp only [Tree.walk, Option.some.injEq] at hw
    subst hr; subst hw; exact hst
  | cons c cs ih =>
    simp only [List.mem_cons, not_or] at h2
    simp only [Tree.walk] at hw
    simp only [resolve] at hr
    split at hr
    · rename_i hc
      subst hc
      simp only [Tree.step, true_or, if_true, Option.bind_some] at hw
      exact ih m st hst h1 h2.2 hr hw
    · split at hr
      · rename_i hc1 hc2
        cases st with
        | nil => simp at hr
        | cons x st =>
          simp only at hr
          subst hc2
          have hstep : t.step m [46, 46] = some (t.parent m) := by simp [Tree.step]
          rw [hstep] at hw
          simp only [Option.bind_some] at hw
          rw [List.reverse_cons, walk_append] at hst
          obtain ⟨y, hy1, hy2⟩ := Option.bind_eq_some_iff.1 hst
          simp only [Tree.walk] at hy2
          obtain ⟨z, hz1, hz2⟩ := Option.bind_eq_some_iff.1 hy2
          simp only [Option.some.injEq] at hz2
          subst hz2
          obtain ⟨q1, q2, q3⟩ := h1 x (by simp)
          simp only [Tree.step, q1, q2, or_self, if_false] at hz1
          rw [if_neg q3] at hz1
          rw [t.up_down _ _ _ hz1] at hw
          exact ih y st hy1 (fun c hc => h1 c (by simp [hc])) h2.2 hr hw
      · rename_i hc1 hc2
        obtain ⟨m', hm1, hm2⟩ := Option.bind_eq_some_iff.1 hw
        refine ih m' (c :: st) ?_ ?_ h2.2 hr hm2
        · rw [List.reverse_cons, walk_append, hst]
          simp [Tree.walk, hm1]
        · intro x hx
          simp only [List.mem_cons] at hx
          rcases hx with rfl | hx
          · exact ⟨hc1, fun h => h2.1 h.symm, hc2⟩
          · exact h1 x hx

theorem resolve_append (st a b r : List Comp) (h : resolve st a = some r) :
    resolve st (a ++ b) = resolve r.reverse b := by
  induction a generalizing st with
  | nil => simp only [resolve, Option.some.injEq] at h; subst h; simp
  | cons c cs ih =>
    simp only [resolve, List.cons_append] at h ⊢
    split
    · rename_i hc; rw [if_pos hc] at h; exact ih st h
    · rename_i hc
      rw [if_neg hc] at h
      split
      · rename_i hd
        rw [if_pos hd] at h
        cases st with
        | nil => simp at h
        | cons x st => exact ih st h
      · rename_i hd
        rw [if_neg hd] at h
        exact ih _ h

theorem walk_filter (t : Tree) (n : t.Node) (cs : List Comp) :
    t.walk n (cs.filter (fun c => !(c.length == 0))) = t.walk n cs := by
  induction cs generalizing n with
  | nil => rfl
  | cons c cs ih =>
    by_cases hc : c = []
    · subst hc; simp [Tree.walk, Tree.step, ih]
    · have : (!(c.length == 0)) = true := by simp [hc]
      rw [List.filter_cons_of_pos (by simpa using this)]
      simp only [Tree.walk]
      congr 1
      funext m
      exact ih m

end Verif.Path
