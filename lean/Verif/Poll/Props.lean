import Verif.Poll.Model

/-!
# The poller of the memory service (properties C75 and C76)
-/

namespace Verif.Poll

/-! ### Specification -/

/-- How many turns of the service thread there are in a run. -/
def turns : List Act → Nat
  | [] => 0
  | .serve _ :: as => turns as + 1
  | _ :: as => turns as

/-- The events among what the calls give, up to the first error that is not an interruption, and whether there is one. -/
def eventsBeforeError : List Got → List Report × Bool
  | [] => ([], false)
  | .error e :: rest => if e = 4 then eventsBeforeError rest else ([], true)
  | .nothing :: rest => eventsBeforeError rest
  | .event r :: rest => (r :: (eventsBeforeError rest).1, (eventsBeforeError rest).2)

/-! ### Invariant -/

structure Good (s : St) : Prop where
  nodup : s.ready.Nodup
  reg : ∀ f, f ∈ s.ready → s.reg f = true
  here : ∀ f, s.reg f = true → live s f = true → f ∈ s.ready

theorem good_init : Good St.init := ⟨List.nodup_nil, fun _ h => (nomatch h), fun _ h => (nomatch h)⟩

theorem wait_some {s : St} {l l' : List Nat} {f : Nat} (h : wait s l = some (f, l')) :
    ∃ pre post, l = pre ++ f :: post ∧ (∀ g ∈ pre, live s g = false) ∧ live s f = true ∧ l' = post ++ [f] := by
  induction l with
  | nil => cases h
  | cons g rest ih =>
    simp only [wait] at h
    split at h
    · rename_i hg
      cases h
      exact ⟨[], rest, rfl, fun _ h => (nomatch h), hg, rfl⟩
    · rename_i hg
      obtain ⟨pre, post, e1, e2, e3, e4⟩ := ih h
      refine ⟨g :: pre, post, by rw [e1]; rfl, ?_, e3, e4⟩
      intro x hx
      rcases List.mem_cons.1 hx with rfl | hx
      · simpa using hg
      · exact e2 x hx

theorem wait_isSome {s : St} {l : List Nat} {f : Nat} (h : f ∈ l) (hf : live s f = true) : (wait s l).isSome := by
  induction l with
  | nil => cases h
  | cons g rest ih =>
    simp only [wait]
    split
    · rfl
    · rename_i hg
      rcases List.mem_cons.1 h with rfl | h
      · exact absurd hf hg
      · exact ih h

/-- `enqueue` restores the invariant when only `f` may be missing. -/
theorem good_enqueue {s : St} {f : Nat} (h1 : s.ready.Nodup) (h2 : ∀ g, g ∈ s.ready → s.reg g = true)
    (h3 : ∀ g, g ≠ f → s.reg g = true → live s g = true → g ∈ s.ready) : Good (enqueue s f) := by
  unfold enqueue
  split
  · rename_i h
    simp only [Bool.and_eq_true, Bool.not_eq_true', List.contains_eq_mem, decide_eq_false_iff_not] at h
    refine ⟨?_, ?_, ?_⟩
    · show (s.ready ++ [f]).Nodup
      rw [List.nodup_append]
      refine ⟨h1, by simp, ?_⟩
      intro a ha b hb
      simp only [List.mem_singleton] at hb
      subst hb
      rintro rfl
      exact h.2 ha
    · intro g hg
      rcases List.mem_append.1 hg with hg | hg
      · exact h2 g hg
      · simp only [List.mem_singleton] at hg; subst hg; exact h.1
    · intro g hg hl
      show g ∈ s.ready ++ [f]
      by_cases e : g = f
      · simp [e]
      · exact List.mem_append_left _ (h3 g e hg hl)
  · rename_i h
    simp only [Bool.and_eq_true, Bool.not_eq_true', List.contains_eq_mem, decide_eq_false_iff_not, not_and,
      Classical.not_not] at h
    refine ⟨h1, h2, ?_⟩
    intro g hg hl
    by_cases e : g = f
    · subst e; exact h hg
    · exact h3 g e hg hl

theorem good_unregister {s : St} {f : Nat} (h1 : s.ready.Nodup) (h2 : ∀ g, g ∈ s.ready → s.reg g = true)
    (h3 : ∀ g, g ≠ f → s.reg g = true → live s g = true → g ∈ s.ready) : Good (unregister s f) := by
  refine ⟨h1.filter _, ?_, ?_⟩
  · intro g hg
    simp only [unregister, List.mem_filter, bne_iff_ne] at hg
    simp only [unregister, upd]
    rw [if_neg hg.2]
    exact h2 g hg.1
  · intro g hg hl
    simp only [unregister, upd] at hg
    have e : g ≠ f := by rintro rfl; simp at hg
    rw [if_neg e] at hg
    simp only [live, unregister, upd, if_neg e] at hl
    simp only [unregister, List.mem_filter, bne_iff_ne]
    exact ⟨h3 g e hg hl, e⟩

/-- After a message of `f` has been received. -/
def received (s : St) (post : List Nat) (f : Nat) : St :=
  { s with ready := post ++ [f]
           log := s.log ++ [⟨f, s.hup f⟩]
           pending := upd s.pending f (s.pending f - 1) }

/-- What one turn of the service thread does. -/
theorem serve_some {s s' : St} {keep : Bool} (h : serve s keep = some s') :
    ∃ pre f post, s.ready = pre ++ f :: post ∧ (∀ g ∈ pre, live s g = false) ∧ live s f = true ∧
      s'.log = s.log ++ [⟨f, s.hup f⟩] ∧
      ((s' = unregister { s with ready := post ++ [f], log := s.log ++ [⟨f, s.hup f⟩] } f) ∨
       (s.hup f = false ∧ ∃ b : Bool, s' = (if b = true then unregister (received s post f) f else received s post f))) := by
  unfold serve at h
  split at h
  · cases h
  · rename_i f l hw
    obtain ⟨pre, post, e1, e2, e3, rfl⟩ := wait_some hw
    refine ⟨pre, f, post, e1, e2, e3, ?_⟩
    dsimp only at h
    split at h
    · cases h; exact ⟨rfl, .inl rfl⟩
    · rename_i hh
      cases keep
      · cases h; exact ⟨rfl, .inr ⟨by simpa using hh, true, rfl⟩⟩
      · cases h; exact ⟨rfl, .inr ⟨by simpa using hh, false, rfl⟩⟩

theorem good_serve {s s' : St} {keep : Bool} (g : Good s) (h : serve s keep = some s') : Good s' := by
  obtain ⟨pre, f, post, e1, e2, e3, -, hs⟩ := serve_some h
  have hnd : (post ++ [f]).Nodup := by
    have := g.nodup
    rw [e1] at this
    grind
  have hreg : ∀ x, x ∈ post ++ [f] → s.reg x = true := by
    intro x hx
    refine g.reg x ?_
    rw [e1]
    grind
  have hmem : ∀ x, s.reg x = true → live s x = true → x ∈ post ++ [f] := by
    intro x h1 h2
    have := g.here x h1 h2
    rw [e1] at this
    rcases List.mem_append.1 this with hp | hp
    · rw [e2 x hp] at h2; cases h2
    · grind
  have hmem' : ∀ x, x ≠ f → s.reg x = true →
      live (received s post f) x = true → x ∈ post ++ [f] := by
    intro x hx h1 h2
    refine hmem x h1 ?_
    simpa only [live, received, upd, if_neg hx] using h2
  rcases hs with rfl | ⟨-, b, rfl⟩
  · exact good_unregister hnd hreg (fun x _ h1 h2 => hmem x h1 h2)
  · cases b
    · refine ⟨hnd, hreg, ?_⟩
      intro x h1 h2
      by_cases hx : x = f
      · subst hx; exact List.mem_append_right _ (by simp)
      · exact hmem' x hx h1 h2
    · exact good_unregister hnd hreg hmem'

theorem good_step {s s' : St} {a : Act} (g : Good s) (h : step s a = some s') : Good s' := by
  cases a with
  | add f =>
    simp only [step, add] at h
    split at h
    · cases h
    · rename_i hf
      have hr : ∀ x, x ∈ s.ready → upd s.reg f true x = true := by
        intro x hx
        simp only [upd]
        split
        · rfl
        · exact g.reg x hx
      have hh : ∀ x, x ≠ f → upd s.reg f true x = true → live s x = true → x ∈ s.ready := by
        intro x hx h1 h2
        simp only [upd, if_neg hx] at h1
        exact g.here x h1 h2
      split at h
      · cases h; exact good_enqueue g.nodup hr hh
      · rename_i hl
        cases h
        refine ⟨g.nodup, hr, ?_⟩
        intro x h1 h2
        by_cases hx : x = f
        · subst hx; exact absurd h2 hl
        · exact hh x hx h1 h2
  | arrive f =>
    cases h
    refine good_enqueue g.nodup g.reg ?_
    intro x hx h1 h2
    simp only [live, upd, if_neg hx] at h2
    exact g.here x h1 h2
  | hangup f =>
    cases h
    refine good_enqueue g.nodup g.reg ?_
    intro x hx h1 h2
    simp only [live, upd, if_neg hx] at h2
    exact g.here x h1 h2
  | serve keep => exact good_serve g h

theorem good_run {s s' : St} {as : List Act} (g : Good s) (h : run s as = some s') : Good s' := by
  induction as generalizing s with
  | nil => cases h; exact g
  | cons a as ih =>
    simp only [run] at h
    cases hs : step s a with
    | none => rw [hs] at h; cases h
    | some s1 => rw [hs] at h; exact ih (good_step g hs) h

theorem run_log {s s' : St} {as : List Act} (h : run s as = some s') :
    ∃ new, s'.log = s.log ++ new ∧ new.length = turns as := by
  have henq : ∀ (t : St) f, (enqueue t f).log = t.log := by
    intro t f; unfold enqueue; split <;> rfl
  induction as generalizing s with
  | nil => cases h; exact ⟨[], by simp, rfl⟩
  | cons a as ih =>
    simp only [run] at h
    cases hs : step s a with
    | none => rw [hs] at h; cases h
    | some s1 =>
      rw [hs] at h
      obtain ⟨new, h1, h2⟩ := ih h
      cases a with
      | serve keep =>
        obtain ⟨-, f, -, -, -, -, hl, -⟩ := serve_some (s' := s1) hs
        exact ⟨⟨f, s.hup f⟩ :: new, by rw [h1, hl]; simp, by simp [turns, h2]⟩
      | add f =>
        refine ⟨new, ?_, h2⟩
        simp only [step, add] at hs
        split at hs
        · cases hs
        · split at hs <;> cases hs
          · rw [h1, henq]
          · rw [h1]
      | arrive f => cases hs; exact ⟨new, by rw [h1, henq], h2⟩
      | hangup f => cases hs; exact ⟨new, by rw [h1, henq], h2⟩

/-- `f` waits and at most `k` descriptors are before it. -/
def Waits (s : St) (f k : Nat) : Prop :=
  s.reg f = true ∧ live s f = true ∧ ∃ l1 l2, s.ready = l1 ++ f :: l2 ∧ l1.length ≤ k

theorem waits_enqueue {s : St} {f g k : Nat} (h : Waits s f k) : Waits (enqueue s g) f k := by
  obtain ⟨h1, h2, l1, l2, h3, h4⟩ := h
  unfold enqueue
  split
  · exact ⟨h1, h2, l1, l2 ++ [g], by simp [h3], h4⟩
  · exact ⟨h1, h2, l1, l2, h3, h4⟩

theorem waits_quiet {s s' : St} {f k : Nat} {a : Act} (h : Waits s f k) (ha : ∀ b, a ≠ .serve b)
    (hs : step s a = some s') : Waits s' f k := by
  obtain ⟨h1, h2, l1, l2, h3, h4⟩ := h
  cases a with
  | serve b => exact absurd rfl (ha b)
  | add g =>
    simp only [step, add] at hs
    split at hs
    · cases hs
    · have hw : Waits { s with reg := upd s.reg g true } f k := by
        refine ⟨?_, h2, l1, l2, h3, h4⟩
        simp only [upd]; split
        · rfl
        · exact h1
      split at hs <;> cases hs
      · exact waits_enqueue hw
      · exact hw
  | arrive g =>
    cases hs
    refine waits_enqueue ⟨h1, ?_, l1, l2, h3, h4⟩
    simp only [live, upd] at h2 ⊢
    split
    · simp
    · exact h2
  | hangup g =>
    cases hs
    refine waits_enqueue ⟨h1, ?_, l1, l2, h3, h4⟩
    simp only [live, upd] at h2 ⊢
    split
    · simp
    · exact h2

theorem waits_serve {s s' : St} {f k : Nat} {keep : Bool} (h : Waits s f k) (hs : serve s keep = some s') :
    (∃ r : Report, s'.log = s.log ++ [r] ∧ r.fd = f) ∨ (0 < k ∧ Waits s' f (k - 1)) := by
  obtain ⟨h1, h2, l1, l2, h3, h4⟩ := h
  obtain ⟨pre, g, post, e1, e2, e3, e4, e5⟩ := serve_some hs
  by_cases hg : g = f
  · exact .inl ⟨_, e4, hg⟩
  · right
    rw [h3] at e1
    obtain ⟨m, hm, hlen⟩ : ∃ m, post = m ++ f :: l2 ∧ m.length < l1.length := by
      rcases List.append_eq_append_iff.1 e1 with ⟨bs, hb1, hb2⟩ | ⟨as, ha1, ha2⟩
      · cases bs with
        | nil =>
          simp only [List.nil_append, List.cons.injEq] at hb2
          exact absurd hb2.1.symm hg
        | cons b bs =>
          simp only [List.cons_append, List.cons.injEq] at hb2
          have : f ∈ pre := by rw [hb1, hb2.1]; simp
          rw [e2 f this] at h2; cases h2
      · cases as with
        | nil =>
          simp only [List.nil_append, List.cons.injEq] at ha2
          exact absurd ha2.1 hg
        | cons a as =>
          simp only [List.cons_append, List.cons.injEq] at ha2
          exact ⟨as, ha2.2, by rw [ha1]; simp; omega⟩
    refine ⟨by omega, ?_⟩
    have hfg : f ≠ g := fun e => hg e.symm
    have hun : ∀ t : St, t.ready = post ++ [g] → t.reg f = true → live t f = true → Waits (unregister t g) f (k - 1) := by
      intro t t1 t2 t3
      refine ⟨?_, ?_, m.filter (· != g), (l2 ++ [g]).filter (· != g), ?_, ?_⟩
      · simp only [unregister, upd, if_neg hfg]; exact t2
      · simp only [live, unregister, upd, if_neg hfg]; exact t3
      · simp only [unregister, t1, hm]
        simp [List.filter_append, hfg]
      · have := List.length_filter_le (· != g) m
        omega
    rcases e5 with rfl | ⟨-, b, rfl⟩
    · exact hun _ rfl h1 h2
    · have hl : live (received s post g) f = true := by
        simp only [live, received, upd, if_neg hfg]; exact h2
      cases b
      · exact ⟨h1, hl, m, l2 ++ [g], by simp [received, hm], by omega⟩
      · exact hun _ rfl h1 hl

theorem waits_run {s s' : St} {as : List Act} {f k : Nat} (h : Waits s f k) (hr : run s as = some s')
    (hk : k < turns as) : ∃ new, s'.log = s.log ++ new ∧ ∃ r ∈ new, r.fd = f := by
  induction as generalizing s k with
  | nil => cases hk
  | cons a as ih =>
    simp only [run] at hr
    cases hs : step s a with
    | none => rw [hs] at hr; cases hr
    | some s1 =>
      rw [hs] at hr
      have hlog1 : ∃ n1, s1.log = s.log ++ n1 := by
        have h1 : run s [a] = some s1 := by simp [run, hs]
        obtain ⟨n1, h2, -⟩ := run_log h1
        exact ⟨n1, h2⟩
      by_cases ha : ∃ b, a = .serve b
      · obtain ⟨b, rfl⟩ := ha
        rcases waits_serve h hs with ⟨r, hl, hf⟩ | ⟨hpos, hw⟩
        · obtain ⟨new, hn, -⟩ := run_log hr
          exact ⟨r :: new, by rw [hn, hl]; simp, r, by simp, hf⟩
        · simp only [turns] at hk
          obtain ⟨new, hn, r, hr1, hr2⟩ := ih hw hr (by omega)
          obtain ⟨n1, h1⟩ := hlog1
          exact ⟨n1 ++ new, by rw [hn, h1]; simp, r, List.mem_append_right _ hr1, hr2⟩
      · have hw := waits_quiet h (fun b e => ha ⟨b, e⟩) hs
        have ht : turns (a :: as) = turns as := by
          cases a <;> first | rfl | exact absurd ⟨_, rfl⟩ ha
        obtain ⟨new, hn, r, hr1, hr2⟩ := ih hw hr (by omega)
        obtain ⟨n1, h1⟩ := hlog1
        exact ⟨n1 ++ new, by rw [hn, h1]; simp, r, List.mem_append_right _ hr1, hr2⟩

theorem nodup_length_le {l l' : List Nat} (h : l.Nodup) (hs : ∀ x ∈ l, x ∈ l') : l.length ≤ l'.length := by
  induction l generalizing l' with
  | nil => exact Nat.zero_le _
  | cons a l ih =>
    have hn := List.nodup_cons.1 h
    have h1 := ih (l' := l'.erase a) hn.2 (by
      intro x hx
      have : x ≠ a := by rintro rfl; exact hn.1 hx
      exact (List.mem_erase_of_ne this).2 (hs x (List.mem_cons_of_mem _ hx)))
    have h2 := hs a (List.mem_cons_self ..)
    have h3 := List.length_erase_of_mem h2
    have h4 := List.length_pos_of_mem h2
    simp only [List.length_cons]
    omega

/-! ### Properties -/

/-- **C75, everyone's turn comes.**  A registered descriptor with a message, or whose other end was closed, is reported
within as many turns of the service thread as there are registered descriptors, whatever arrives for the others
meanwhile. -/
theorem fair {s s' : St} {as0 as : List Act} {f : Nat} {l : List Nat} (h0 : run St.init as0 = some s)
    (hf : s.reg f = true) (hw : s.hup f = true ∨ 0 < s.pending f) (hl : ∀ g, s.reg g = true → g ∈ l)
    (hr : run s as = some s') (ht : l.length ≤ turns as) :
    ∃ new, s'.log = s.log ++ new ∧ ∃ r ∈ new, r.fd = f := by
  have g := good_run good_init h0
  have hlive : live s f = true := by
    simp only [live, Bool.or_eq_true, decide_eq_true_eq]; exact hw
  have hm := g.here f hf hlive
  obtain ⟨l1, l2, hs⟩ := List.append_of_mem hm
  have hlen := nodup_length_le g.nodup (fun x hx => hl x (g.reg x hx))
  rw [hs] at hlen
  simp only [List.length_append, List.length_cons] at hlen
  exact waits_run ⟨hf, hlive, l1, l2, hs, Nat.le_refl _⟩ hr (by omega)

/-- **C75, the thread does not sleep.**  While a registered descriptor has something, the next turn is possible. -/
theorem awake {s : St} {as0 : List Act} {f : Nat} (h0 : run St.init as0 = some s) (hf : s.reg f = true)
    (hw : s.hup f = true ∨ 0 < s.pending f) (keep : Bool) : (serve s keep).isSome := by
  have g := good_run good_init h0
  have hlive : live s f = true := by
    simp only [live, Bool.or_eq_true, decide_eq_true_eq]; exact hw
  have := wait_isSome (g.here f hf hlive) hlive
  unfold serve
  split
  · rename_i hn; rw [hn] at this; cases this
  · dsimp only; split <;> rfl

/-- **C75, reports are true.**  A report is of a registered descriptor that has a message, or whose other end was
closed; the latter exactly if the report says so. -/
theorem truthful {s s' : St} {as0 : List Act} {keep : Bool} (h0 : run St.init as0 = some s)
    (h : serve s keep = some s') :
    ∃ r, s'.log = s.log ++ [r] ∧ s.reg r.fd = true ∧ r.eof = s.hup r.fd ∧ (r.eof = false → 0 < s.pending r.fd) ∧
      (r.eof = true → s'.reg r.fd = false) := by
  have g := good_run good_init h0
  obtain ⟨pre, f, post, e1, e2, e3, e4, e5⟩ := serve_some h
  refine ⟨_, e4, g.reg f (by rw [e1]; simp), rfl, ?_, ?_⟩
  · intro he
    simp only at he
    simpa [live, he] using e3
  · intro he
    simp only at he
    rcases e5 with rfl | ⟨h1, -⟩
    · simp [unregister, upd]
    · rw [he] at h1; cases h1

/-- **C75, the end is reported once.**  A descriptor that is not registered, as after a report of its end, is not
reported unless it is registered again. -/
theorem end_once {s s' : St} {as0 as : List Act} {f : Nat} (h0 : run St.init as0 = some s) (hf : s.reg f = false)
    (hr : run s as = some s') (ha : Act.add f ∉ as) :
    ∃ new, s'.log = s.log ++ new ∧ ∀ r ∈ new, r.fd ≠ f := by
  have g := good_run good_init h0
  clear h0
  have henq : ∀ (t : St) x, (enqueue t x).log = t.log ∧ (enqueue t x).reg = t.reg := by
    intro t x; unfold enqueue; split <;> exact ⟨rfl, rfl⟩
  induction as generalizing s with
  | nil => cases hr; exact ⟨[], by simp, by simp⟩
  | cons a as ih =>
    simp only [run] at hr
    cases hs : step s a with
    | none => rw [hs] at hr; cases hr
    | some s1 =>
      rw [hs] at hr
      have hnot : Act.add f ∉ as := fun h => ha (List.mem_cons_of_mem _ h)
      have g1 := good_step g hs
      cases a with
      | serve keep =>
        obtain ⟨pre, x, post, e1, e2, e3, e4, e5⟩ := serve_some (s' := s1) hs
        have hx : x ≠ f := by
          rintro rfl
          have := g.reg x (by rw [e1]; simp)
          rw [hf] at this; cases this
        have hreg : s1.reg f = false := by
          rcases e5 with rfl | ⟨-, b, rfl⟩
          · simp [unregister, upd, Ne.symm hx, hf]
          · cases b <;> simp [unregister, received, upd, hf]
        obtain ⟨new, h1, h2⟩ := ih hreg hr hnot g1
        refine ⟨⟨x, s.hup x⟩ :: new, by rw [h1, e4]; simp, ?_⟩
        intro r hr
        rcases List.mem_cons.1 hr with rfl | hr
        · exact hx
        · exact h2 r hr
      | add x =>
        have hx : x ≠ f := by rintro rfl; exact ha (List.mem_cons_self ..)
        simp only [step, add] at hs
        split at hs
        · cases hs
        · split at hs <;> cases hs
          · obtain ⟨new, h1, h2⟩ := ih (by rw [(henq _ _).2]; simp [upd, Ne.symm hx, hf]) hr hnot g1
            exact ⟨new, by rw [h1, (henq _ _).1], h2⟩
          · obtain ⟨new, h1, h2⟩ := ih (by simp [upd, Ne.symm hx, hf]) hr hnot g1
            exact ⟨new, by rw [h1], h2⟩
      | arrive x =>
        cases hs
        obtain ⟨new, h1, h2⟩ := ih (by rw [(henq _ _).2]; exact hf) hr hnot g1
        exact ⟨new, by rw [h1, (henq _ _).1], h2⟩
      | hangup x =>
        cases hs
        obtain ⟨new, h1, h2⟩ := ih (by rw [(henq _ _).2]; exact hf) hr hnot g1
        exact ⟨new, by rw [h1, (henq _ _).1], h2⟩

/-! ## C76 -/

/-- **C76 on Linux.**  Interrupted waits are not noticed: the loop handles the events in order, and the host ends only
with an error of another kind. -/
theorem interrupts_unnoticed_partial (gs : List Got) (fuel : Nat) (h : gs.length < fuel) :
    loop epollPoll fuel gs = eventsBeforeError gs := by
  have key : ∀ gs : List Got, (∀ r rest, epollPoll gs = some (some r, rest) →
        rest.length < gs.length ∧ eventsBeforeError gs = (r :: (eventsBeforeError rest).1, (eventsBeforeError rest).2)) ∧
      (∀ rest, epollPoll gs = some (none, rest) → eventsBeforeError gs = ([], true)) ∧
      (epollPoll gs = none → eventsBeforeError gs = ([], false)) := by
    intro gs
    induction gs with
    | nil => exact ⟨fun _ _ h => (nomatch h), fun _ h => (nomatch h), fun _ => rfl⟩
    | cons x gs ih =>
      obtain ⟨i1, i2, i3⟩ := ih
      cases x with
      | error e =>
        simp only [epollPoll, eventsBeforeError, eintr]
        by_cases he : e = 4
        · simp only [he, if_true]
          exact ⟨fun r rest h => ⟨Nat.lt_succ_of_lt (i1 r rest h).1, (i1 r rest h).2⟩, i2, i3⟩
        · simp [he]
      | nothing =>
        simp only [epollPoll, eventsBeforeError]
        exact ⟨fun r rest h => ⟨Nat.lt_succ_of_lt (i1 r rest h).1, (i1 r rest h).2⟩, i2, i3⟩
      | event r =>
        simp only [epollPoll, eventsBeforeError]
        refine ⟨?_, ?_, ?_⟩
        · intro r' rest h; cases h; exact ⟨Nat.lt_succ_self _, rfl⟩
        · intro rest h; cases h
        · intro h; cases h
  induction fuel generalizing gs with
  | zero => omega
  | succ f ih =>
    simp only [loop]
    obtain ⟨k1, k2, k3⟩ := key gs
    cases hp : epollPoll gs with
    | none => simp only [k3 hp]
    | some x =>
      obtain ⟨o, rest⟩ := x
      cases o with
      | none => simp only [k2 rest hp]
      | some r =>
        obtain ⟨h1, h2⟩ := k1 r rest hp
        simp only [h2, ih rest (by omega)]

/-- **C76 is violated with `kqueue`.**  A signal that interrupts the wait ends the host, whatever events would follow. -/
theorem interrupt_ends_host (before : List Report) (after : List Got) (fuel : Nat) (h : before.length < fuel) :
    loop kqueuePoll fuel (before.map Got.event ++ Got.error 4 :: after) = (before, true) ∧
      (eventsBeforeError (before.map Got.event ++ Got.error 4 :: after)).1 = before ++ (eventsBeforeError after).1 := by
  induction before generalizing fuel with
  | nil =>
    cases fuel with
    | zero => cases h
    | succ f => exact ⟨rfl, rfl⟩
  | cons r rs ih =>
    cases fuel with
    | zero => cases h
    | succ f =>
      obtain ⟨h1, h2⟩ := ih f (by simpa using h)
      exact ⟨by simp [loop, kqueuePoll, h1], by simp [eventsBeforeError, h2]⟩

/-- The events up to the first call that gives none. -/
def eventsBeforeOther : List Got → List Report × Bool
  | .event r :: rest => (r :: (eventsBeforeOther rest).1, (eventsBeforeOther rest).2)
  | [] => ([], false)
  | _ => ([], true)

/-- A wait was interrupted, or gave nothing, before any other error. -/
def interrupted : List Got → Bool
  | [] => false
  | .error e :: _ => e == 4
  | .nothing :: _ => true
  | .event _ :: rest => interrupted rest

/-- **C76 with `kqueue`, exactly.**  The loop handles the events up to the first call that gives none, and that call ends the host. -/
theorem kqueue_loop (gs : List Got) (fuel : Nat) (h : gs.length < fuel) : loop kqueuePoll fuel gs = eventsBeforeOther gs := by
  induction gs generalizing fuel with
  | nil => cases fuel with
    | zero => cases h
    | succ f => rfl
  | cons g gs ih =>
    cases fuel with
    | zero => cases h
    | succ f =>
      cases g with
      | error e => rfl
      | nothing => rfl
      | event r => simp only [loop, kqueuePoll, eventsBeforeOther, ih f (by simpa using h)]

/-- **C76 with `kqueue`, exactly when it holds.**  The thread of the memory service does as it should exactly if no wait was
interrupted before another error, or what came after the first interruption was further interruptions and then another error. -/
theorem kqueue_iff (gs : List Got) (fuel : Nat) (h : gs.length < fuel) : loop kqueuePoll fuel gs = eventsBeforeError gs ↔
    (interrupted gs = true → ∃ (before : List Report) (after : List Got), gs = before.map Got.event ++ after ∧
      eventsBeforeError after = ([], true)) := by
  rw [kqueue_loop gs fuel h]
  clear h
  induction gs with
  | nil => simp [eventsBeforeOther, eventsBeforeError, interrupted]
  | cons g gs ih =>
    cases g with
    | event r =>
      simp only [eventsBeforeOther, eventsBeforeError, interrupted]
      have : ((r :: (eventsBeforeOther gs).1, (eventsBeforeOther gs).2) = (r :: (eventsBeforeError gs).1, (eventsBeforeError gs).2)) ↔
          eventsBeforeOther gs = eventsBeforeError gs := by
        simp [Prod.ext_iff]
      rw [this, ih]
      refine imp_congr_right fun _ => ⟨?_, ?_⟩
      · rintro ⟨b, a, rfl, h⟩
        exact ⟨r :: b, a, rfl, h⟩
      · rintro ⟨b, a, e, h⟩
        cases b with
        | nil =>
          cases e
          simp only [eventsBeforeError] at h
          cases h
        | cons r' b => cases e; exact ⟨b, a, rfl, h⟩
    | nothing =>
      simp only [eventsBeforeOther, interrupted, forall_const]
      constructor
      · intro h; exact ⟨[], _, rfl, h.symm⟩
      · rintro ⟨b, a, e, h⟩
        cases b with
        | nil => cases e; exact h.symm
        | cons => cases e
    | error e =>
      simp only [eventsBeforeOther, interrupted, beq_iff_eq]
      constructor
      · intro h _; exact ⟨[], _, rfl, h.symm⟩
      · intro h
        by_cases h4 : e = 4
        · obtain ⟨b, a, e', h⟩ := h h4
          cases b with
          | nil => cases e'; exact h.symm
          | cons => cases e'
        · simp [eventsBeforeError, h4]

/-- An event, an interruption and another event: the second event is lost with `kqueue`. -/
example : loop kqueuePoll 4 [.event ⟨3, false⟩, .error 4, .event ⟨5, false⟩] = ([⟨3, false⟩], true) ∧
    loop epollPoll 4 [.event ⟨3, false⟩, .error 4, .event ⟨5, false⟩] = ([⟨3, false⟩, ⟨5, false⟩], false) :=
  ⟨kqueue_loop _ _ (by decide), interrupts_unnoticed_partial _ _ (by decide)⟩

/-! ### The hypotheses can be met -/

/-- Two sandboxes; the first floods the service while the second has one message. -/
def exActs : List Act := [.add 3, .add 5, .arrive 3, .arrive 3, .arrive 3, .arrive 5]

example : (run St.init exActs).map (fun s => (s.ready, s.reg 5, s.pending 5, s.reg 4)) = some ([3, 5], true, 1, false) := by
  decide

example : (run St.init (exActs ++ [.serve true, .arrive 3, .arrive 3, .serve true, .hangup 5, .serve true, .serve true,
    .arrive 5, .serve true])).map (·.log) =
    some [⟨3, false⟩, ⟨5, false⟩, ⟨3, false⟩, ⟨5, true⟩, ⟨3, false⟩] := by decide

example : ∃ s', ((run St.init exActs).bind (run · [.serve true, .arrive 3, .serve true])) = some s' ∧
    ∃ r ∈ s'.log, r.fd = 5 := by
  cases h : run St.init exActs with
  | none => exact absurd (congrArg Option.isSome h) (by decide)
  | some s =>
    cases h' : run s [.serve true, .arrive 3, .serve true] with
    | none =>
      have : ((run St.init exActs).bind (run · [.serve true, .arrive 3, .serve true])).isSome := by decide
      rw [h] at this
      simp [h'] at this
    | some s' =>
      refine ⟨s', h', ?_⟩
      have e : (run St.init exActs).map (fun s => (s.reg 5, s.pending 5)) = some (true, 1) := by decide
      rw [h] at e
      simp only [Option.map_some, Option.some.injEq, Prod.mk.injEq] at e
      have hreg : ∀ g, s.reg g = true → g ∈ [3, 5] := by
        intro g hg
        have : (run St.init exActs).map (fun s => s.reg g) = some (g == 5 || g == 3) := by
          simp [run, exActs, step, add, live, upd, St.init, enqueue]
          grind
        rw [h] at this
        simp [hg] at this
        simp
        omega
      obtain ⟨new, h1, r, h2, h3⟩ := fair h e.1 (.inr (by omega)) hreg h' (by decide)
      exact ⟨r, by rw [h1]; exact List.mem_append_right _ h2, h3⟩

example : loop epollPoll 5 [.error 4, .event ⟨3, false⟩, .nothing, .event ⟨5, true⟩] = ([⟨3, false⟩, ⟨5, true⟩], false) := by
  decide

example : loop kqueuePoll 5 [.event ⟨3, false⟩, .error 4, .event ⟨5, true⟩] = ([⟨3, false⟩], true) := by decide

end Verif.Poll
