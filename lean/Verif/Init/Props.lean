import Verif.Init.Model

/-!
# Creation of the page map by the first sandbox: property C61
-/

namespace Verif.Init

/-! ### Specification -/

/-- One page map was made, and everyone who used the page map used that one. -/
def Single (s : St) : Prop := s.made ≤ 1 ∧ ∀ u ∈ s.uses, u.2 = some 0

/-! ### C61 -/

/-- The state once a page map is there and nobody is about to make another. -/
def Settled (s : St) : Prop :=
  s.flag = true ∧ s.map = some 0 ∧ s.made = 1 ∧ (∀ t, s.pc t = .start ∨ s.pc t = .ready) ∧ ∀ u ∈ s.uses, u.2 = some 0

theorem settled_step {s s' : St} (h : Settled s) (a : Act) (hs : step s a = some s') : Settled s' := by
  obtain ⟨h1, h2, h3, h4, h5⟩ := h
  cases a with
  | test t =>
    simp only [step] at hs
    split at hs
    · simp only [Option.some.injEq] at hs
      subst hs
      refine ⟨h1, h2, h3, fun u => ?_, h5⟩
      by_cases h : u = t
      · exact Or.inr (by simp [St.goto, h])
      · simpa [St.goto, h] using h4 u
    · simp at hs
  | mark t =>
    simp only [step] at hs
    split at hs
    · rename_i hp
      rcases h4 t with h | h <;> rw [h] at hp <;> simp at hp
    · simp at hs
  | init t =>
    simp only [step] at hs
    split at hs
    · rename_i hp
      rcases h4 t with h | h <;> rw [h] at hp <;> simp at hp
    · simp at hs
  | use t =>
    simp only [step] at hs
    split at hs
    · simp only [Option.some.injEq] at hs
      subst hs
      refine ⟨h1, h2, h3, h4, fun u hu => ?_⟩
      simp only [List.mem_cons] at hu
      rcases hu with rfl | hu
      · exact h2
      · exact h5 u hu
    · simp at hs

theorem settled_run {s s' : St} (h : Settled s) : ∀ (as : List Act), run s as = some s' → Settled s' := by
  intro as
  induction as generalizing s with
  | nil =>
    intro hr
    simp only [run, Option.some.injEq] at hr
    exact hr ▸ h
  | cons a as ih =>
    intro hr
    rw [run] at hr
    split at hr
    · rename_i s1 h1
      exact ih (settled_step h a h1) hr
    · simp at hr

theorem goto_self (s : St) (t : Nat) (p : Pc) : s.goto t p t = p := by simp [St.goto]

theorem goto_fun (s : St) (t : Nat) (p : Pc) : s.goto t p = fun u => if u = t then p else s.pc u := rfl

/-- **C61 (partial).**  If the first thread passes through the function before any other begins, one page map is made and everyone
uses it, whatever happens afterwards.  What is missing: two threads that create their first sandboxes at the same time, see
`used_before_made` and `made_twice`. -/
theorem one_pagemap_partial (t : Nat) (as : List Act) {s : St}
    (hr : run start ([.test t, .mark t, .init t] ++ as) = some s) : Single s := by
  have h0 : run start ([.test t, .mark t, .init t] ++ as) =
      run ⟨true, some 0, 1, fun u => if u = t then .ready else .start, []⟩ as := by
    have hpc : (fun u => if u = t then Pc.ready else if u = t then .marked else if u = t then .claimed else .start) =
        (fun u => if u = t then Pc.ready else .start) := by
      funext u
      by_cases h : u = t <;> simp [h]
    simp only [List.cons_append, List.nil_append, run, step, start, goto_self, if_true, Bool.false_eq_true, if_false]
    simp only [goto_fun, hpc, Nat.zero_add]
  rw [h0] at hr
  have := settled_run (s' := s) ⟨rfl, rfl, rfl, fun u => by
    by_cases h : u = t <;> simp [h], by simp⟩ as hr
  exact ⟨by rw [this.2.2.1]; exact Nat.le_refl 1, this.2.2.2.2⟩

/-- A thread alone, then others. -/
example : (run start [.test 7, .mark 7, .init 7, .test 8, .use 8, .use 7]).map (·.uses) = some [(7, some 0), (8, some 0)] := by
  decide +kernel

/-- **C61 fails: used before it is made.**  A second thread finds the flag set and uses the page map while the first has yet to
make it. -/
theorem used_before_made :
    ∃ as s, run start as = some s ∧ s.made = 0 ∧ (8, none) ∈ s.uses ∧ ¬ Single s := by
  refine ⟨[.test 7, .mark 7, .test 8, .use 8], _, rfl, rfl, by decide, fun h => ?_⟩
  have := h.2 (8, none) (by decide)
  simp at this

/-- **C61 fails: made twice.**  Two threads that both find the flag clear make two page maps; a sandbox created in between
works with the first, which is then replaced. -/
theorem made_twice :
    ∃ as s, run start as = some s ∧ s.made = 2 ∧ s.uses = [(7, some 1), (8, some 1), (7, some 0)] ∧ ¬ Single s := by
  refine ⟨[.test 7, .test 8, .mark 7, .init 7, .use 7, .mark 8, .init 8, .use 8, .use 7], _, rfl, rfl, rfl, fun h => ?_⟩
  have := h.1
  simp at this

/-! ### C61, exactly -/

/-- The threads that test the flag before any has set it. -/
def early : List Act → List Nat
  | [] => []
  | .test t :: as => t :: early as
  | .mark _ :: _ => []
  | _ :: as => early as

/-- Does somebody use the page map before it is first made? -/
def hasty : List Act → Bool
  | [] => false
  | .init _ :: _ => false
  | .use _ :: _ => true
  | _ :: as => hasty as

/-- What the flag and the places of the threads say about the past: `l` are the threads that have found the flag clear. -/
structure Claims (s : St) (l : List Nat) : Prop where
  nodup : l.Nodup
  left : ∀ t ∈ l, s.pc t ≠ .start
  on : ∀ t, s.pc t = .claimed ∨ s.pc t = .marked → t ∈ l
  made : s.made = l.countP (fun t => s.pc t == .ready)

/-- The threads that have found the flag clear, after one more step. -/
def claims (flag : Bool) (l : List Nat) : Act → List Nat
  | .test t => if flag then l else l ++ [t]
  | _ => l

theorem countP_change {l : List Nat} (hn : l.Nodup) {p q : Nat → Bool} {t : Nat} (ht : t ∈ l) (h1 : p t = false)
    (h2 : q t = true) (h3 : ∀ u, u ≠ t → q u = p u) : l.countP q = l.countP p + 1 := by
  induction l with
  | nil => cases ht
  | cons x l ih =>
    rw [List.nodup_cons] at hn
    by_cases hx : x = t
    · subst hx
      have : l.countP q = l.countP p := List.countP_congr fun u hu => by
        rw [h3 u (fun h => hn.1 (h ▸ hu))]
      simp [h1, h2, this]
    · have hm : t ∈ l := by
        rcases List.mem_cons.1 ht with h | h
        · exact absurd h.symm hx
        · exact h
      have := ih hn.2 hm
      simp only [List.countP_cons, this, h3 x hx]
      omega

theorem claims_step {s s' : St} {l : List Nat} (h : Claims s l) (a : Act) (hs : step s a = some s') :
    Claims s' (claims s.flag l a) := by
  unfold claims
  obtain ⟨h1, h2, h3, h4⟩ := h
  cases a with
  | test t =>
    simp only [step] at hs
    split at hs
    · rename_i hp
      have htl : t ∉ l := fun h => h2 t h hp
      cases hs
      have hcount : ∀ p : Pc, l.countP (fun u => s.goto t p u == .ready) = l.countP (fun u => s.pc u == .ready) := by
        intro p
        refine List.countP_congr fun u hu => ?_
        have : u ≠ t := fun h => htl (h ▸ hu)
        simp [St.goto, this]
      cases hf : s.flag
      · simp only [Bool.false_eq_true, if_false]
        refine ⟨?_, ?_, ?_, ?_⟩
        · rw [List.nodup_append]
          refine ⟨h1, by simp, ?_⟩
          intro a ha b hb
          simp at hb
          subst hb
          exact fun h => htl (h ▸ ha)
        · intro u hu
          by_cases hut : u = t
          · simp [St.goto, hut]
          · simp [hut] at hu
            simpa [St.goto, hut] using h2 u hu
        · intro u hu
          by_cases hut : u = t
          · simp [hut]
          · simp only [St.goto, hut, if_false] at hu
            simp [h3 u hu]
        · show s.made = _
          rw [List.countP_append, hcount, h4]
          simp [St.goto]
      · simp only [if_true]
        refine ⟨h1, ?_, ?_, ?_⟩
        · intro u hu
          have : u ≠ t := fun h => htl (h ▸ hu)
          simpa [St.goto, this] using h2 u hu
        · intro u hu
          by_cases hut : u = t
          · simp [St.goto, hut] at hu
          · simp only [St.goto, hut, if_false] at hu
            exact h3 u hu
        · show s.made = _
          rw [hcount, h4]
    · cases hs
  | mark t =>
    simp only [step] at hs
    split at hs
    · rename_i hp
      cases hs
      refine ⟨h1, ?_, ?_, ?_⟩
      · intro u hu
        by_cases hut : u = t
        · simp [St.goto, hut]
        · simpa [St.goto, hut] using h2 u hu
      · intro u hu
        by_cases hut : u = t
        · subst hut; exact h3 u (.inl hp)
        · simp only [St.goto, hut, if_false] at hu
          exact h3 u hu
      · show s.made = _
        rw [h4]
        refine List.countP_congr fun u _ => ?_
        by_cases hut : u = t
        · subst hut; simp [St.goto, hp]
        · simp [St.goto, hut]
    · cases hs
  | init t =>
    simp only [step] at hs
    split at hs
    · rename_i hp
      cases hs
      refine ⟨h1, ?_, ?_, ?_⟩
      · intro u hu
        by_cases hut : u = t
        · simp [St.goto, hut]
        · simpa [St.goto, hut] using h2 u hu
      · intro u hu
        by_cases hut : u = t
        · simp [St.goto, hut] at hu
        · simp only [St.goto, hut, if_false] at hu
          exact h3 u hu
      · show s.made + 1 = _
        rw [h4, ← countP_change h1 (h3 t (.inr hp)) (p := fun u => s.pc u == .ready)
          (q := fun u => s.goto t .ready u == .ready)]
        · simp [hp]
        · simp [St.goto]
        · intro u hu; simp [St.goto, hu]
    · cases hs
  | use t =>
    simp only [step] at hs
    split at hs
    · cases hs; exact ⟨h1, h2, h3, h4⟩
    · cases hs

theorem claims_run : ∀ (as : List Act) {s s' : St} {l : List Nat}, Claims s l → run s as = some s' →
    Claims s' (if s.flag then l else l ++ early as) := by
  intro as
  induction as with
  | nil =>
    intro s s' l h hr
    simp only [run, Option.some.injEq] at hr
    subst hr
    simpa [early] using h
  | cons a as ih =>
    intro s s' l h hr
    rw [run] at hr
    split at hr
    · rename_i s1 h1
      have hc := ih (claims_step h a h1) hr
      cases a with
      | test t =>
        have : s1.flag = s.flag := by
          simp only [step] at h1
          split at h1 <;> cases h1
          rfl
        rw [this] at hc
        cases hf : s.flag <;> simp only [hf, Bool.false_eq_true, if_false, if_true] at hc ⊢
        · simpa [early, claims] using hc
        · exact hc
      | mark t =>
        have : s1.flag = true := by
          simp only [step] at h1
          split at h1 <;> cases h1
          rfl
        rw [this] at hc
        simpa [early, claims] using hc
      | init t =>
        have : s1.flag = s.flag := by
          simp only [step] at h1
          split at h1 <;> cases h1
          rfl
        rw [this] at hc
        exact hc
      | use t =>
        have : s1.flag = s.flag := by
          simp only [step] at h1
          split at h1 <;> cases h1
          rfl
        rw [this] at hc
        exact hc
    · cases hr

/-- **C61, how many are made.**  In every interleaving, when no thread is inside the function, as many page maps have been made
as threads tested the flag before any set it. -/
theorem made_exact (as : List Act) {s : St} (hr : run start as = some s)
    (hq : ∀ t, s.pc t = .start ∨ s.pc t = .ready) : s.made = (early as).length := by
  have h := claims_run as (l := []) ⟨List.nodup_nil, nofun, fun t h => by simp [start] at h, rfl⟩ hr
  simp only [start, Bool.false_eq_true, if_false, List.nil_append] at h
  rw [h.made, List.countP_eq_length]
  intro t ht
  rcases hq t with h' | h'
  · exact absurd h' (h.left t ht)
  · simp [h']

/-- The page map in use is the last that was made. -/
def Latest (s : St) : Prop := s.map = if s.made = 0 then none else some (s.made - 1)

theorem latest_step {s s' : St} (h : Latest s) (a : Act) (hs : step s a = some s') :
    Latest s' ∧ s.made ≤ s'.made := by
  cases a <;> simp only [step] at hs <;> split at hs <;> cases hs <;> try exact ⟨h, Nat.le_refl _⟩
  exact ⟨by simp [Latest], Nat.le_succ _⟩

theorem made_mono : ∀ (as : List Act) {s s' : St}, Latest s → run s as = some s' → s.made ≤ s'.made := by
  intro as
  induction as with
  | nil => intro s s' _ hr; cases hr; exact Nat.le_refl _
  | cons a as ih =>
    intro s s' h hr
    rw [run] at hr
    split at hr
    · rename_i s1 h1
      have := latest_step h a h1
      exact Nat.le_trans this.2 (ih this.1 hr)
    · cases hr

theorem uses_run : ∀ (as : List Act) {s s' : St}, Latest s → run s as = some s' → s'.made ≤ 1 →
    ((∀ u ∈ s'.uses, u.2 = some 0) ↔ (∀ u ∈ s.uses, u.2 = some 0) ∧ (s.made = 0 → hasty as = false)) := by
  intro as
  induction as with
  | nil => intro s s' _ hr _; cases hr; simp [hasty]
  | cons a as ih =>
    intro s s' h hr hm
    have hle := made_mono (a :: as) h hr
    rw [run] at hr
    split at hr
    · rename_i s1 h1
      have hl := (latest_step h a h1).1
      have := ih hl hr hm
      rw [this]
      cases a <;> simp only [step] at h1 <;> split at h1 <;> cases h1
      · exact Iff.rfl
      · exact Iff.rfl
      · simp [hasty]
      · simp only [List.mem_cons, forall_eq_or_imp, hasty]
        by_cases h0 : s.made = 0
        · have hn : s.map = none := by rw [h, if_pos h0]
          simp [hn, h0]
        · have hn : s.map = some 0 := by rw [h, if_neg h0]; congr 1; omega
          simp [hn, h0]
    · cases hr

/-- **C61, exactly when it holds.**  In every interleaving, when no thread is inside the function: one page map at most was made
and everyone used that one, exactly if at most one thread tested the flag before any set it, and nobody used the page map
before it was first made. -/
theorem single_iff (as : List Act) {s : St} (hr : run start as = some s) (hq : ∀ t, s.pc t = .start ∨ s.pc t = .ready) :
    Single s ↔ (early as).length ≤ 1 ∧ hasty as = false := by
  unfold Single
  rw [made_exact as hr hq]
  constructor
  · rintro ⟨h1, h2⟩
    refine ⟨h1, ?_⟩
    exact ((uses_run as (s := start) (by rfl) hr (by rw [made_exact as hr hq]; exact h1)).1 h2).2 rfl
  · rintro ⟨h1, h2⟩
    refine ⟨h1, ?_⟩
    exact (uses_run as (s := start) (by rfl) hr (by rw [made_exact as hr hq]; exact h1)).2 ⟨nofun, fun _ => h2⟩

/-- Thread 8 comes in between without harm; then with harm in either way. -/
example : early [.test 7, .mark 7, .test 8, .init 7, .use 8] = [7] ∧ hasty [.test 7, .mark 7, .test 8, .init 7, .use 8] = false ∧
    hasty [.test 7, .mark 7, .test 8, .use 8, .init 7] = true ∧
    early [.test 7, .test 8, .mark 7, .init 7, .mark 8, .init 8] = [7, 8] ∧
    (run start [.test 7, .mark 7, .test 8, .init 7, .use 8]).isSome ∧
    (run start [.test 7, .mark 7, .test 8, .use 8, .init 7]).isSome ∧
    (run start [.test 7, .test 8, .mark 7, .init 7, .mark 8, .init 8]).isSome := by decide +kernel

end Verif.Init
