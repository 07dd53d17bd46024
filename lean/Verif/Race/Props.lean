import Verif.Race.Model

/-!
# The heap of a sandbox under concurrent use (property C77)
-/

namespace Verif.Race

/-! ### Specification -/

/-- Who has a chunk. -/
inductive Who where
  | nobody
  | host
  | box
  deriving Repr, DecidableEq

/-- Who has the chunk after the events. -/
def user (l : List Ev) (c : Nat) : Who :=
  l.foldl (fun w e =>
    match e with
    | .hostGets p n => if inBlock p n c then .host else w
    | .boxGets p n => if inBlock p n c then .box else w
    | .hostGives p n => if inBlock p n c then .nobody else w
    | .boxGives p n => if inBlock p n c then .nobody else w) .nobody

/-- An event is right after the events `l`: blocks are given out only if nobody has any of it, and given back only by
those who have all of it. -/
def Right (l : List Ev) : Ev → Prop
  | .hostGets p n | .boxGets p n => ∀ c, inBlock p n c = true → user l c = .nobody
  | .hostGives p n => ∀ c, inBlock p n c = true → user l c = .host
  | .boxGives p n => ∀ c, inBlock p n c = true → user l c = .box

/-- Every event is right after the ones before it. -/
def Legal (l : List Ev) : Prop := ∀ l1 e l2, l = l1 ++ e :: l2 → Right l1 e

/-- The host gives back only blocks that it has: a condition on the actions of a run. -/
def HostRight (s : St) : List Act → Prop
  | [] => True
  | a :: as =>
    (∀ t p n, a = .hostFree t p n → ∀ c, inBlock p n c = true → user s.log c = .host) ∧
      ∀ s', step s a = some s' → HostRight s' as

/-! ### Invariant -/

theorem user_snoc (l : List Ev) (e : Ev) (c : Nat) :
    user (l ++ [e]) c = match e with
      | .hostGets p n => if inBlock p n c then .host else user l c
      | .boxGets p n => if inBlock p n c then .box else user l c
      | .hostGives p n => if inBlock p n c then .nobody else user l c
      | .boxGives p n => if inBlock p n c then .nobody else user l c := by
  simp only [user, List.foldl_append, List.foldl_cons, List.foldl_nil]

theorem legal_snoc {l : List Ev} {e : Ev} (h : Legal l) (he : Right l e) : Legal (l ++ [e]) := by
  intro l1 e' l2 hl
  rcases List.append_eq_append_iff.1 hl with ⟨bs, h1, h2⟩ | ⟨as, h1, h2⟩
  · cases bs with
    | nil =>
      simp only [List.nil_append, List.cons.injEq] at h2
      rw [h1, List.append_nil, ← h2.1]
      exact he
    | cons b bs => simp at h2
  · cases as with
    | nil =>
      simp only [List.nil_append, List.cons.injEq] at h2
      rw [h1] at he
      simp only [List.append_nil] at he
      rw [h2.1]; exact he
    | cons a as =>
      simp only [List.cons_append, List.cons.injEq] at h2
      exact h l1 a as (by rw [h1]) |> (h2.1 ▸ ·)

/-- Where a chunk is. -/
inductive Loc where
  /-- not part of the heap -/
  | out
  | free
  /-- a host thread is giving or taking it -/
  | thread (t : Nat)
  /-- the service thread is giving or taking it -/
  | svc
  | host
  | box
  deriving DecidableEq

/-- The block a host thread works on. -/
def HPc.block : HPc → Option (Nat × Nat)
  | .write p n _ | .clear p n _ => some (p, n)
  | _ => none

/-- The block the service thread works on. -/
def SPc.block : SPc → Option (Nat × Nat)
  | .write p n _ | .clear p n _ => some (p, n)
  | _ => none

def within (b : Option (Nat × Nat)) (c : Nat) : Bool :=
  match b with
  | some (p, n) => inBlock p n c
  | none => false

/-- What the page map and the events say about a chunk, depending on where it is. -/
def Fits (s : St) (c : Nat) : Loc → Prop
  | .out => s.free c = false ∧ s.owner c = .backend ∧ user s.log c = .nobody
  | .free => s.free c = true ∧ s.owner c = .backend ∧ user s.log c = .nobody
  | .thread _ => s.free c = false ∧ s.owner c ≠ .box ∧ user s.log c = .nobody
  | .svc => s.free c = false ∧ user s.log c = .nobody
  | .host => s.free c = false ∧ s.owner c = .host ∧ user s.log c = .host
  | .box => s.free c = false ∧ s.owner c = .box ∧ user s.log c = .box

/-- How far a host thread has come. -/
def HPc.Done (s : St) : HPc → Prop
  | .write p n i => i ≤ n ∧ ∀ c, inBlock p i c = true → s.owner c = .host
  | .clear p n i => i ≤ n ∧ ∀ c, inBlock p i c = true → s.owner c = .backend
  | _ => True

/-- How far the service thread has come. -/
def SPc.Done (s : St) : SPc → Prop
  | .write p n i => i ≤ n ∧ ∀ c, inBlock p i c = true → s.owner c = .box
  | .clear p n i => i ≤ n ∧ ∀ c, inBlock p i c = true → s.owner c = .backend
  | .check p n i => i ≤ n ∧ ∀ c, inBlock p i c = true → s.owner c = .box
  | _ => True

structure Good (s : St) (loc : Nat → Loc) : Prop where
  fits : ∀ c, Fits s c (loc c)
  thread : ∀ c (t : Nat), loc c = .thread t ↔ ∃ p : HPc, s.hosts[t]? = some p ∧ within p.block c = true
  svc : ∀ c, loc c = .svc ↔ within s.svc.block c = true
  hdone : ∀ (t : Nat) (p : HPc), s.hosts[t]? = some p → HPc.Done s p
  sdone : SPc.Done s s.svc
  legal : Legal s.log

theorem at_get {s : St} {t : Nat} {p q : HPc} (h : s.hosts[t]? = some q) (u : Nat) :
    (s.at t p).hosts[u]? = if u = t then some p else s.hosts[u]? := by
  have hl : t < s.hosts.length := (List.getElem?_eq_some_iff.1 h).1
  simp only [St.at, List.getElem?_set]
  by_cases e : t = u
  · subst e; simp [hl]
  · rw [if_neg e, if_neg (fun h => e h.symm)]

theorem mayTake_iff (s : St) (p n : Nat) : s.mayTake p n = true ↔ ∀ c, inBlock p n c = true → s.free c = true := by
  simp only [St.mayTake, List.all_eq_true, List.mem_range, inBlock, Bool.and_eq_true, decide_eq_true_eq]
  constructor
  · intro h c hc
    have := h (c - p) (by omega)
    rwa [show p + (c - p) = c by omega] at this
  · intro h i hi
    exact h (p + i) (by omega)

theorem inBlock_iff (p n c : Nat) : inBlock p n c = true ↔ p ≤ c ∧ c < p + n := by
  simp [inBlock]

/-- A chunk that a host thread works on is not in the block of another. -/
theorem Good.loc_thread {s : St} {loc : Nat → Loc} (g : Good s loc) {t : Nat} {p : HPc} (h : s.hosts[t]? = some p)
    {c : Nat} (hc : within p.block c = true) : loc c = .thread t := (g.thread c t).2 ⟨p, h, hc⟩

/-- Host thread `t` moves on without touching anything. -/
theorem good_quiet {s : St} {loc : Nat → Loc} {t : Nat} {p q : HPc} (g : Good s loc) (h : s.hosts[t]? = some p)
    (hb : q.block = p.block) (hd : HPc.Done s q) : Good (s.at t q) loc := by
  refine ⟨g.fits, ?_, g.svc, ?_, g.sdone, g.legal⟩
  · intro c u
    rw [g.thread c u]
    constructor
    · rintro ⟨r, h1, h2⟩
      by_cases e : u = t
      · subst e
        rw [h] at h1; cases h1
        exact ⟨q, by rw [at_get h]; simp, by rw [hb]; exact h2⟩
      · exact ⟨r, by rw [at_get h, if_neg e]; exact h1, h2⟩
    · rintro ⟨r, h1, h2⟩
      rw [at_get h] at h1
      by_cases e : u = t
      · subst e
        simp only [if_true, Option.some.injEq] at h1
        subst h1
        exact ⟨p, h, by rw [← hb]; exact h2⟩
      · rw [if_neg e] at h1; exact ⟨r, h1, h2⟩
  · intro u r h1
    rw [at_get h] at h1
    by_cases e : u = t
    · subst e
      simp only [if_true, Option.some.injEq] at h1
      subst h1; exact hd
    · rw [if_neg e] at h1; exact g.hdone u r h1

/-- The service thread moves on without touching anything. -/
theorem good_svcQuiet {s : St} {loc : Nat → Loc} {q : SPc} (g : Good s loc) (hb : q.block = s.svc.block)
    (hd : SPc.Done s q) : Good { s with svc := q } loc :=
  ⟨g.fits, g.thread, fun c => by rw [g.svc c, ← hb], g.hdone, hd, g.legal⟩

/-- An entry of a block that is being worked on is written: nothing else depends on it. -/
theorem good_entry {s : St} {loc : Nat → Loc} {c0 : Nat} {o : Owner} (g : Good s loc)
    (hl : (∃ t, loc c0 = .thread t ∧ o ≠ .box) ∨ loc c0 = .svc)
    (hh : ∀ (t : Nat) (p : HPc), s.hosts[t]? = some p → within p.block c0 = true → HPc.Done (s.entry c0 o) p)
    (hs : within s.svc.block c0 = true → SPc.Done (s.entry c0 o) s.svc) : Good (s.entry c0 o) loc := by
  refine ⟨?_, g.thread, g.svc, ?_, ?_, g.legal⟩
  · intro c
    have := g.fits c
    by_cases e : c = c0
    · subst e
      rcases hl with ⟨t, h1, h2⟩ | h1
      · rw [h1] at this ⊢
        refine ⟨this.1, ?_, this.2.2⟩
        simpa [St.entry] using h2
      · rw [h1] at this ⊢
        exact this
    · cases hc : loc c <;> rw [hc] at this <;> simp only [Fits, St.entry, if_neg e] at this ⊢ <;> exact this
  · intro t p h
    by_cases e : within p.block c0 = true
    · exact hh t p h e
    · have := g.hdone t p h
      cases p with
      | write p n i =>
        refine ⟨this.1, fun c hc => ?_⟩
        have : c ≠ c0 := by
          rintro rfl
          refine e ?_
          simp only [HPc.block, within, inBlock_iff] at hc ⊢
          have := this.1
          omega
        simp only [St.entry, if_neg this]
        exact (‹HPc.Done s (.write p n i)›).2 c hc
      | clear p n i =>
        refine ⟨this.1, fun c hc => ?_⟩
        have : c ≠ c0 := by
          rintro rfl
          refine e ?_
          simp only [HPc.block, within, inBlock_iff] at hc ⊢
          have := this.1
          omega
        simp only [St.entry, if_neg this]
        exact (‹HPc.Done s (.clear p n i)›).2 c hc
      | _ => exact this
  · by_cases e : within s.svc.block c0 = true
    · exact hs e
    · have := g.sdone
      have hbox : s.owner c0 ≠ .box ∨ loc c0 = .svc := by
        rcases hl with ⟨t, h1, -⟩ | h1
        · have := g.fits c0
          rw [h1] at this
          exact .inl this.2.1
        · exact .inr h1
      have hb : s.owner c0 ≠ .box := by
        rcases hbox with h | h
        · exact h
        · exact absurd ((g.svc c0).1 h) e
      show SPc.Done (s.entry c0 o) s.svc
      cases hv : s.svc with
      | write p n i =>
        rw [hv] at this
        refine ⟨this.1, fun c hc => ?_⟩
        have h1 := this.2 c hc
        have : c ≠ c0 := by rintro rfl; exact hb h1
        simp only [St.entry, if_neg this]
        exact h1
      | check p n i =>
        rw [hv] at this
        refine ⟨this.1, fun c hc => ?_⟩
        have h1 := this.2 c hc
        have : c ≠ c0 := by rintro rfl; exact hb h1
        simp only [St.entry, if_neg this]
        exact h1
      | clear p n i =>
        rw [hv] at this e
        refine ⟨this.1, fun c hc => ?_⟩
        have h1 := this.2 c hc
        have : c ≠ c0 := by
          rintro rfl
          refine e ?_
          simp only [SPc.block, within, inBlock_iff] at hc ⊢
          have := this.1
          omega
        simp only [St.entry, if_neg this]
        exact h1
      | idle => trivial
      | take n => trivial

/-- Host thread `t` moves on, and blocks change places. -/
theorem good_moveHost {s s1 : St} {loc loc' : Nat → Loc} {t : Nat} {p q : HPc} (g : Good s loc)
    (h : s.hosts[t]? = some p) (e1 : s1.hosts = s.hosts) (e2 : s1.svc = s.svc) (e3 : s1.owner = s.owner)
    (hf : ∀ c, Fits s1 c (loc' c)) (ht : ∀ c, loc' c = .thread t ↔ within q.block c = true)
    (ho : ∀ c u, u ≠ t → (loc' c = .thread u ↔ loc c = .thread u)) (hs : ∀ c, loc' c = .svc ↔ loc c = .svc)
    (hd : HPc.Done s1 q) (hl : Legal s1.log) : Good (s1.at t q) loc' := by
  have h' : s1.hosts[t]? = some p := by rw [e1]; exact h
  refine ⟨hf, ?_, ?_, ?_, ?_, hl⟩
  · intro c u
    by_cases e : u = t
    · subst e
      rw [ht c]
      constructor
      · intro hw; exact ⟨q, by rw [at_get h']; simp, hw⟩
      · rintro ⟨r, h1, h2⟩
        rw [at_get h'] at h1
        simp only [if_true, Option.some.injEq] at h1
        subst h1; exact h2
    · rw [ho c u e, g.thread c u]
      rw [at_get h', if_neg e, e1]
  · intro c
    rw [hs c, g.svc c]
    show _ ↔ within s1.svc.block c = true
    rw [e2]
  · intro u r h1
    rw [at_get h'] at h1
    by_cases e : u = t
    · subst e
      simp only [if_true, Option.some.injEq] at h1
      subst h1; exact hd
    · rw [if_neg e, e1] at h1
      have := g.hdone u r h1
      cases r with
      | write a n i => exact ⟨this.1, fun c hc => by show s1.owner c = _; rw [e3]; exact this.2 c hc⟩
      | clear a n i => exact ⟨this.1, fun c hc => by show s1.owner c = _; rw [e3]; exact this.2 c hc⟩
      | _ => exact this
  · have := g.sdone
    show SPc.Done s1 s1.svc
    rw [e2]
    cases hv : s.svc with
    | write a n i =>
      rw [hv] at this
      exact ⟨this.1, fun c hc => by rw [e3]; exact this.2 c hc⟩
    | check a n i =>
      rw [hv] at this
      exact ⟨this.1, fun c hc => by rw [e3]; exact this.2 c hc⟩
    | clear a n i =>
      rw [hv] at this
      exact ⟨this.1, fun c hc => by rw [e3]; exact this.2 c hc⟩
    | idle => trivial
    | take n => trivial

/-- The service thread moves on, and blocks change places. -/
theorem good_moveSvc {s s1 : St} {loc loc' : Nat → Loc} {q : SPc} (g : Good s loc)
    (e1 : s1.hosts = s.hosts) (e3 : s1.owner = s.owner)
    (hf : ∀ c, Fits s1 c (loc' c)) (ht : ∀ c, loc' c = .svc ↔ within q.block c = true)
    (ho : ∀ c u, loc' c = .thread u ↔ loc c = .thread u)
    (hd : SPc.Done s1 q) (hl : Legal s1.log) : Good { s1 with svc := q } loc' := by
  refine ⟨hf, ?_, ht, ?_, hd, hl⟩
  · intro c u
    rw [ho c u, g.thread c u]
    show _ ↔ ∃ p, s1.hosts[u]? = some p ∧ _
    rw [e1]
  · intro u r h1
    have h1' : s.hosts[u]? = some r := by rw [← e1]; exact h1
    have := g.hdone u r h1'
    cases r with
    | write a n i => exact ⟨this.1, fun c hc => by show s1.owner c = _; rw [e3]; exact this.2 c hc⟩
    | clear a n i => exact ⟨this.1, fun c hc => by show s1.owner c = _; rw [e3]; exact this.2 c hc⟩
    | _ => exact this

/-- Put a block somewhere. -/
def put (loc : Nat → Loc) (p n : Nat) (l : Loc) : Nat → Loc := fun c => if inBlock p n c then l else loc c

theorem put_in {loc : Nat → Loc} {p n c : Nat} {l : Loc} (h : inBlock p n c = true) : put loc p n l c = l := by
  simp [put, h]

theorem put_out {loc : Nat → Loc} {p n c : Nat} {l : Loc} (h : inBlock p n c = false) : put loc p n l c = loc c := by
  simp [put, h]

/-- Chunks outside the block are as before. -/
theorem fits_put {s s1 : St} {loc : Nat → Loc} {p n : Nat} {l : Loc} (hf : ∀ c, Fits s c (loc c))
    (ho : s1.owner = s.owner) (hfree : ∀ c, inBlock p n c = false → s1.free c = s.free c)
    (hlog : ∀ c, inBlock p n c = false → user s1.log c = user s.log c)
    (hin : ∀ c, inBlock p n c = true → Fits s1 c l) (c : Nat) : Fits s1 c (put loc p n l c) := by
  cases hc : inBlock p n c with
  | true => rw [put_in hc]; exact hin c hc
  | false =>
    rw [put_out hc]
    have := hf c
    cases hl : loc c <;> rw [hl] at this <;> simp only [Fits, ho, hfree c hc, hlog c hc] at this ⊢ <;> exact this

theorem put_noout {loc : Nat → Loc} {p n : Nat} {l : Loc} (h : l ≠ .out) (hb : ∀ c, inBlock p n c = true → loc c ≠ .out)
    (c : Nat) : put loc p n l c = .out ↔ loc c = .out := by
  cases hc : inBlock p n c with
  | true => rw [put_in hc]; exact ⟨fun h' => absurd h' h, fun h' => absurd h' (hb c hc)⟩
  | false => rw [put_out hc]

theorem good_host {s s' : St} {loc : Nat → Loc} {t : Nat} {o : Option Nat} (g : Good s loc)
    (h : hostStep s t o = some s') : ∃ loc', Good s' loc' ∧ ∀ c, loc' c = .out ↔ loc c = .out := by
  unfold hostStep at h
  split at h
  · rename_i n hp
    split at h
    · cases h; exact ⟨loc, good_quiet g hp rfl trivial, fun _ => Iff.rfl⟩
    · rename_i p
      split at h
      · rename_i hm
        cases h
        rw [mayTake_iff] at hm
        have hfree : ∀ c, inBlock p n c = true → loc c = .free := by
          intro c hc
          have h1 := hm c hc
          have h2 := g.fits c
          cases hl : loc c <;> rw [hl] at h2 <;> simp only [Fits, h1] at h2 <;> first | rfl | (exact absurd h2.1 (by decide))
        have hnot : ∀ c, loc c ≠ .thread t := by
          intro c hc
          obtain ⟨q, h1, h2⟩ := (g.thread c t).1 hc
          rw [hp] at h1; cases h1; cases h2
        refine ⟨put loc p n (.thread t), good_moveHost (s1 := s.range p n false) g hp rfl rfl rfl ?_ ?_ ?_ ?_ ⟨Nat.zero_le _, ?_⟩ g.legal, put_noout (by simp) (fun c hc => by rw [hfree c hc]; simp)⟩
        · refine fits_put g.fits rfl ?_ (fun _ _ => rfl) ?_
          · intro c hc; simp [St.range, hc]
          · intro c hc
            have h1 := g.fits c
            rw [hfree c hc] at h1
            exact ⟨by simp [St.range, hc], by show s.owner c ≠ .box; rw [h1.2.1]; decide, h1.2.2⟩
        · intro c
          simp only [HPc.block, within]
          cases hc : inBlock p n c with
          | true => simp [put_in hc]
          | false => rw [put_out hc]; simp [hnot c]
        · intro c u hu
          cases hc : inBlock p n c with
          | true => rw [put_in hc, hfree c hc]; simp [Ne.symm hu]
          | false => rw [put_out hc]
        · intro c
          cases hc : inBlock p n c with
          | true => rw [put_in hc, hfree c hc]; simp
          | false => rw [put_out hc]
        · intro c hc
          rw [inBlock_iff] at hc
          omega
      · cases h
  · rename_i p n i hp
    have hloc : ∀ c, inBlock p n c = true → loc c = .thread t := fun c hc => g.loc_thread hp hc
    have hdone := g.hdone t _ hp
    split at h
    · rename_i hi
      cases h
      have hc0 : inBlock p n (p + i) = true := by rw [inBlock_iff]; omega
      have hnew : HPc.Done (s.entry (p + i) .host) (.write p n (i + 1)) := by
        refine ⟨by omega, fun c hc => ?_⟩
        simp only [St.entry]
        by_cases e : c = p + i
        · rw [if_pos e]
        · rw [if_neg e]
          refine hdone.2 c ?_
          rw [inBlock_iff] at hc ⊢
          omega
      have hold : ∀ (u : Nat) (q : HPc), s.hosts[u]? = some q → within q.block (p + i) = true →
          HPc.Done (s.entry (p + i) .host) q := by
        intro u q h1 h2
        have h3 := g.loc_thread h1 h2
        rw [hloc _ hc0] at h3
        cases h3
        rw [hp] at h1
        cases h1
        exact ⟨hdone.1, fun c hc => hnew.2 c (by rw [inBlock_iff] at hc ⊢; omega)⟩
      refine ⟨loc, good_quiet (p := .write p n i) (good_entry g (.inl ⟨t, hloc _ hc0, by decide⟩) hold ?_) hp rfl hnew, fun _ => Iff.rfl⟩
      intro h1
      have := (g.svc _).2 h1
      rw [hloc _ hc0] at this
      cases this
    · rename_i hi
      cases h
      have hin : i = n := by have := hdone.1; omega
      subst hin
      refine ⟨put loc p i .host, good_moveHost (s1 := s.say (.hostGets p i)) g hp rfl rfl rfl ?_ ?_ ?_ ?_ trivial ?_, put_noout (by simp) (fun c hc => by rw [hloc c hc]; simp)⟩
      · refine fits_put g.fits rfl (fun _ _ => rfl) ?_ ?_
        · intro c hc; simp only [St.say, user_snoc, hc]; simp
        · intro c hc
          have h1 := g.fits c
          rw [hloc c hc] at h1
          exact ⟨h1.1, hdone.2 c hc, by simp only [St.say, user_snoc, hc]; simp⟩
      · intro c
        simp only [HPc.block, within]
        cases hc : inBlock p i c with
        | true => simp [put_in hc]
        | false =>
          rw [put_out hc]
          simp only [Bool.false_eq_true, iff_false]
          intro h1
          obtain ⟨q, h2, h3⟩ := (g.thread c t).1 h1
          rw [hp] at h2; cases h2
          rw [show within (HPc.write p i i).block c = inBlock p i c from rfl, hc] at h3
          cases h3
      · intro c u hu
        cases hc : inBlock p i c with
        | true => rw [put_in hc, hloc c hc]; simp [Ne.symm hu]
        | false => rw [put_out hc]
      · intro c
        cases hc : inBlock p i c with
        | true => rw [put_in hc, hloc c hc]; simp
        | false => rw [put_out hc]
      · refine legal_snoc g.legal ?_
        intro c hc
        have h1 := g.fits c
        rw [hloc c hc] at h1
        exact h1.2.2
  · rename_i p n i hp
    have hloc : ∀ c, inBlock p n c = true → loc c = .thread t := fun c hc => g.loc_thread hp hc
    have hdone := g.hdone t _ hp
    split at h
    · rename_i hi
      cases h
      have hc0 : inBlock p n (p + i) = true := by rw [inBlock_iff]; omega
      have hnew : HPc.Done (s.entry (p + i) .backend) (.clear p n (i + 1)) := by
        refine ⟨by omega, fun c hc => ?_⟩
        simp only [St.entry]
        by_cases e : c = p + i
        · rw [if_pos e]
        · rw [if_neg e]
          refine hdone.2 c ?_
          rw [inBlock_iff] at hc ⊢
          omega
      have hold : ∀ (u : Nat) (q : HPc), s.hosts[u]? = some q → within q.block (p + i) = true →
          HPc.Done (s.entry (p + i) .backend) q := by
        intro u q h1 h2
        have h3 := g.loc_thread h1 h2
        rw [hloc _ hc0] at h3
        cases h3
        rw [hp] at h1
        cases h1
        exact ⟨hdone.1, fun c hc => hnew.2 c (by rw [inBlock_iff] at hc ⊢; omega)⟩
      refine ⟨loc, good_quiet (p := .clear p n i) (good_entry g (.inl ⟨t, hloc _ hc0, by decide⟩) hold ?_) hp rfl ?_, fun _ => Iff.rfl⟩
      · intro h1
        have := (g.svc _).2 h1
        rw [hloc _ hc0] at this
        cases this
      · exact hnew
    · rename_i hi
      cases h
      refine ⟨put loc p n .free, good_moveHost (s1 := s.range p n true) g hp rfl rfl rfl ?_ ?_ ?_ ?_ trivial g.legal, put_noout (by simp) (fun c hc => by rw [hloc c hc]; simp)⟩
      · refine fits_put g.fits rfl ?_ (fun _ _ => rfl) ?_
        · intro c hc; simp [St.range, hc]
        · intro c hc
          have h1 := g.fits c
          rw [hloc c hc] at h1
          have hin : i = n := by have := hdone.1; omega
          subst hin
          exact ⟨by simp [St.range, hc], hdone.2 c hc, h1.2.2⟩
      · intro c
        simp only [HPc.block, within]
        cases hc : inBlock p n c with
        | true => simp [put_in hc]
        | false =>
          rw [put_out hc]
          simp only [Bool.false_eq_true, iff_false]
          intro h1
          obtain ⟨q, h2, h3⟩ := (g.thread c t).1 h1
          rw [hp] at h2; cases h2
          rw [show within (HPc.clear p n i).block c = inBlock p n c from rfl, hc] at h3
          cases h3
      · intro c u hu
        cases hc : inBlock p n c with
        | true => rw [put_in hc, hloc c hc]; simp [Ne.symm hu]
        | false => rw [put_out hc]
      · intro c
        cases hc : inBlock p n c with
        | true => rw [put_in hc, hloc c hc]; simp
        | false => rw [put_out hc]
  · cases h

theorem good_svc {s s' : St} {loc : Nat → Loc} {o : Option Nat} (g : Good s loc) (h : svcStep s o = some s') :
    ∃ loc', Good s' loc' ∧ ∀ c, loc' c = .out ↔ loc c = .out := by
  unfold svcStep at h
  have hthread : ∀ {p n c}, loc c = .svc → put loc p n .svc c = .svc := by
    intro p n c hc
    cases hb : inBlock p n c with
    | true => exact put_in hb
    | false => rw [put_out hb]; exact hc
  split at h
  · cases h
  · rename_i n hv
    have hnot : ∀ c, loc c ≠ .svc := by
      intro c hc
      have := (g.svc c).1 hc
      rw [hv] at this; cases this
    split at h
    · cases h; exact ⟨loc, good_svcQuiet g (by rw [hv]; rfl) trivial, fun _ => Iff.rfl⟩
    · rename_i p
      split at h
      · rename_i hm
        cases h
        rw [mayTake_iff] at hm
        have hfree : ∀ c, inBlock p n c = true → loc c = .free := by
          intro c hc
          have h1 := hm c hc
          have h2 := g.fits c
          cases hl : loc c <;> rw [hl] at h2 <;> simp only [Fits, h1] at h2 <;> first | rfl | (exact absurd h2.1 (by decide))
        refine ⟨put loc p n .svc, good_moveSvc (s1 := s.range p n false) g rfl rfl ?_ ?_ ?_ ⟨Nat.zero_le _, ?_⟩ g.legal, put_noout (by simp) (fun c hc => by rw [hfree c hc]; simp)⟩
        · refine fits_put g.fits rfl ?_ (fun _ _ => rfl) ?_
          · intro c hc; simp [St.range, hc]
          · intro c hc
            have h1 := g.fits c
            rw [hfree c hc] at h1
            exact ⟨by simp [St.range, hc], h1.2.2⟩
        · intro c
          simp only [SPc.block, within]
          cases hc : inBlock p n c with
          | true => simp [put_in hc]
          | false => rw [put_out hc]; simp [hnot c]
        · intro c u
          cases hc : inBlock p n c with
          | true => rw [put_in hc, hfree c hc]; simp
          | false => rw [put_out hc]
        · intro c hc
          rw [inBlock_iff] at hc
          omega
      · cases h
  · rename_i p n i hv
    have hloc : ∀ c, inBlock p n c = true → loc c = .svc := fun c hc => (g.svc c).2 (by rw [hv]; exact hc)
    have hdone := g.sdone
    rw [hv] at hdone
    split at h
    · rename_i hi
      cases h
      have hc0 : inBlock p n (p + i) = true := by rw [inBlock_iff]; omega
      have hnew : SPc.Done (s.entry (p + i) .box) (.write p n (i + 1)) := by
        refine ⟨by omega, fun c hc => ?_⟩
        simp only [St.entry]
        by_cases e : c = p + i
        · rw [if_pos e]
        · rw [if_neg e]
          refine hdone.2 c ?_
          rw [inBlock_iff] at hc ⊢
          omega
      refine ⟨loc, good_svcQuiet (good_entry g (.inr (hloc _ hc0)) ?_ ?_) (by show _ = s.svc.block; rw [hv]; rfl) hnew, fun _ => Iff.rfl⟩
      · intro u q h1 h2
        have h3 := g.loc_thread h1 h2
        rw [hloc _ hc0] at h3
        cases h3
      · intro _
        rw [hv]
        exact ⟨hdone.1, fun c hc => hnew.2 c (by rw [inBlock_iff] at hc ⊢; omega)⟩
    · rename_i hi
      cases h
      have hin : i = n := by have := hdone.1; omega
      subst hin
      refine ⟨put loc p i .box, good_moveSvc (s1 := s.say (.boxGets p i)) g rfl rfl ?_ ?_ ?_ trivial ?_, put_noout (by simp) (fun c hc => by rw [hloc c hc]; simp)⟩
      · refine fits_put g.fits rfl (fun _ _ => rfl) ?_ ?_
        · intro c hc; simp only [St.say, user_snoc, hc]; simp
        · intro c hc
          have h1 := g.fits c
          rw [hloc c hc] at h1
          exact ⟨h1.1, hdone.2 c hc, by simp only [St.say, user_snoc, hc]; simp⟩
      · intro c
        simp only [SPc.block, within]
        cases hc : inBlock p i c with
        | true => simp [put_in hc]
        | false =>
          rw [put_out hc]
          simp only [Bool.false_eq_true, iff_false]
          intro h1
          have h3 := (g.svc c).1 h1
          rw [hv, show within (SPc.write p i i).block c = inBlock p i c from rfl, hc] at h3
          cases h3
      · intro c u
        cases hc : inBlock p i c with
        | true => rw [put_in hc, hloc c hc]; simp
        | false => rw [put_out hc]
      · refine legal_snoc g.legal ?_
        intro c hc
        have h1 := g.fits c
        rw [hloc c hc] at h1
        exact h1.2
  · rename_i p n i hv
    have hnot : ∀ c, loc c ≠ .svc := by
      intro c hc
      have := (g.svc c).1 hc
      rw [hv] at this; cases this
    have hdone := g.sdone
    rw [hv] at hdone
    split at h
    · rename_i hi
      split at h
      · rename_i ho
        cases h
        refine ⟨loc, good_svcQuiet g (by rw [hv]; rfl) ⟨by omega, fun c hc => ?_⟩, fun _ => Iff.rfl⟩
        by_cases e : c = p + i
        · rw [e]; exact ho
        · exact hdone.2 c (by rw [inBlock_iff] at hc ⊢; omega)
      · cases h
        exact ⟨loc, good_svcQuiet g (by rw [hv]; rfl) trivial, fun _ => Iff.rfl⟩
    · rename_i hi
      cases h
      have hin : i = n := by have := hdone.1; omega
      subst hin
      have hbox : ∀ c, inBlock p i c = true → loc c = .box := by
        intro c hc
        have h1 := hdone.2 c hc
        have h2 := g.fits c
        have h3 := hnot c
        cases hl : loc c <;> rw [hl] at h2 h3 <;> simp only [Fits, h1] at h2 <;>
          first
          | rfl
          | exact absurd rfl h3
          | exact absurd rfl h2.2.1
          | (have := h2.2.1; cases this)
      refine ⟨put loc p i .svc, good_moveSvc (s1 := s.say (.boxGives p i)) g rfl rfl ?_ ?_ ?_ ⟨Nat.zero_le _, ?_⟩ ?_, put_noout (by simp) (fun c hc => by rw [hbox c hc]; simp)⟩
      · refine fits_put g.fits rfl (fun _ _ => rfl) ?_ ?_
        · intro c hc; simp only [St.say, user_snoc, hc]; simp
        · intro c hc
          have h1 := g.fits c
          rw [hbox c hc] at h1
          exact ⟨h1.1, by simp only [St.say, user_snoc, hc]; simp⟩
      · intro c
        simp only [SPc.block, within]
        cases hc : inBlock p i c with
        | true => simp [put_in hc]
        | false => rw [put_out hc]; simp [hnot c]
      · intro c u
        cases hc : inBlock p i c with
        | true => rw [put_in hc, hbox c hc]; simp
        | false => rw [put_out hc]
      · intro c hc
        rw [inBlock_iff] at hc
        omega
      · refine legal_snoc g.legal ?_
        intro c hc
        have h1 := g.fits c
        rw [hbox c hc] at h1
        exact h1.2.2
  · rename_i p n i hv
    have hloc : ∀ c, inBlock p n c = true → loc c = .svc := fun c hc => (g.svc c).2 (by rw [hv]; exact hc)
    have hdone := g.sdone
    rw [hv] at hdone
    split at h
    · rename_i hi
      cases h
      have hc0 : inBlock p n (p + i) = true := by rw [inBlock_iff]; omega
      have hnew : SPc.Done (s.entry (p + i) .backend) (.clear p n (i + 1)) := by
        refine ⟨by omega, fun c hc => ?_⟩
        simp only [St.entry]
        by_cases e : c = p + i
        · rw [if_pos e]
        · rw [if_neg e]
          refine hdone.2 c ?_
          rw [inBlock_iff] at hc ⊢
          omega
      refine ⟨loc, good_svcQuiet (good_entry g (.inr (hloc _ hc0)) ?_ ?_) (by show _ = s.svc.block; rw [hv]; rfl) hnew, fun _ => Iff.rfl⟩
      · intro u q h1 h2
        have h3 := g.loc_thread h1 h2
        rw [hloc _ hc0] at h3
        cases h3
      · intro _
        rw [hv]
        exact ⟨hdone.1, fun c hc => hnew.2 c (by rw [inBlock_iff] at hc ⊢; omega)⟩
    · rename_i hi
      cases h
      have hin : i = n := by have := hdone.1; omega
      subst hin
      refine ⟨put loc p i .free, good_moveSvc (s1 := s.range p i true) g rfl rfl ?_ ?_ ?_ trivial g.legal, put_noout (by simp) (fun c hc => by rw [hloc c hc]; simp)⟩
      · refine fits_put g.fits rfl ?_ (fun _ _ => rfl) ?_
        · intro c hc; simp [St.range, hc]
        · intro c hc
          have h1 := g.fits c
          rw [hloc c hc] at h1
          exact ⟨by simp [St.range, hc], hdone.2 c hc, h1.2⟩
      · intro c
        simp only [SPc.block, within]
        cases hc : inBlock p i c with
        | true => simp [put_in hc]
        | false =>
          rw [put_out hc]
          simp only [Bool.false_eq_true, iff_false]
          intro h1
          have h3 := (g.svc c).1 h1
          rw [hv, show within (SPc.clear p i i).block c = inBlock p i c from rfl, hc] at h3
          cases h3
      · intro c u
        cases hc : inBlock p i c with
        | true => rw [put_in hc, hloc c hc]; simp
        | false => rw [put_out hc]

theorem good_step {s s' : St} {loc : Nat → Loc} {a : Act} (g : Good s loc)
    (ha : ∀ t p n, a = .hostFree t p n → ∀ c, inBlock p n c = true → user s.log c = .host)
    (h : step s a = some s') : ∃ loc', Good s' loc' ∧ ∀ c, loc' c = .out ↔ loc c = .out := by
  cases a with
  | hostAlloc t n =>
    simp only [step] at h
    split at h
    · rename_i hp; cases h; exact ⟨loc, good_quiet g hp rfl trivial, fun _ => Iff.rfl⟩
    · cases h
  | hostFree t p n =>
    simp only [step] at h
    split at h
    · rename_i hp
      cases h
      have hu := ha t p n rfl
      have hloc : ∀ c, inBlock p n c = true → loc c = .host := by
        intro c hc
        have h1 := hu c hc
        have h2 := g.fits c
        cases hl : loc c <;> rw [hl] at h2 <;> simp only [Fits, h1] at h2 <;>
          first
          | rfl
          | (have := h2.2.2; cases this)
          | (have := h2.2; cases this)
      have hnot : ∀ c, loc c ≠ .thread t := by
        intro c hc
        obtain ⟨q, h1, h2⟩ := (g.thread c t).1 hc
        rw [hp] at h1; cases h1; cases h2
      refine ⟨put loc p n (.thread t), good_moveHost (s1 := s.say (.hostGives p n)) g hp rfl rfl rfl ?_ ?_ ?_ ?_ ⟨Nat.zero_le _, fun c hc => by rw [inBlock_iff] at hc; omega⟩ ?_, put_noout (by simp) (fun c hc => by rw [hloc c hc]; simp)⟩
      · refine fits_put g.fits rfl (fun _ _ => rfl) ?_ ?_
        · intro c hc; simp only [St.say, user_snoc, hc]; simp
        · intro c hc
          have h1 := g.fits c
          rw [hloc c hc] at h1
          refine ⟨h1.1, ?_, by simp only [St.say, user_snoc, hc]; simp⟩
          show s.owner c ≠ .box
          rw [h1.2.1]; decide
      · intro c
        simp only [HPc.block, within]
        cases hc : inBlock p n c with
        | true => simp [put_in hc]
        | false => rw [put_out hc]; simp [hnot c]
      · intro c u hu
        cases hc : inBlock p n c with
        | true => rw [put_in hc, hloc c hc]; simp [Ne.symm hu]
        | false => rw [put_out hc]
      · intro c
        cases hc : inBlock p n c with
        | true => rw [put_in hc, hloc c hc]; simp
        | false => rw [put_out hc]
      · exact legal_snoc g.legal hu
    · cases h
  | boxAlloc n =>
    simp only [step] at h
    split at h
    · rename_i hv; cases h; exact ⟨loc, good_svcQuiet g (by rw [hv]; rfl) trivial, fun _ => Iff.rfl⟩
    · cases h
  | boxFree p n =>
    simp only [step] at h
    split at h
    · rename_i hv
      cases h
      exact ⟨loc, good_svcQuiet g (by rw [hv]; rfl) ⟨Nat.zero_le _, fun c hc => by rw [inBlock_iff] at hc; omega⟩, fun _ => Iff.rfl⟩
    · cases h
  | host t p => exact good_host g h
  | svc p => exact good_svc g h

theorem good_init (heap : Nat → Bool) (k : Nat) :
    Good (St.init heap k) (fun c => if heap c then .free else .out) := by
  refine ⟨?_, ?_, ?_, ?_, trivial, ?_⟩
  · intro c
    cases hc : heap c
    · exact ⟨hc, by simp [St.init], rfl⟩
    · exact ⟨hc, by simp [St.init], rfl⟩
  · intro c t
    constructor
    · intro h; split at h <;> cases h
    · rintro ⟨p, h1, h2⟩
      simp only [St.init, List.getElem?_replicate] at h1
      split at h1 <;> cases h1
      cases h2
  · intro c
    constructor
    · intro h; split at h <;> cases h
    · intro h; cases h
  · intro t p h
    simp only [St.init, List.getElem?_replicate] at h
    split at h <;> cases h
    trivial
  · intro l1 e l2 h
    simp [St.init] at h

theorem good_run {s s' : St} {as : List Act} {loc : Nat → Loc} (g : Good s loc) (ha : HostRight s as)
    (h : run s as = some s') : ∃ loc', Good s' loc' ∧ ∀ c, loc' c = .out ↔ loc c = .out := by
  induction as generalizing s loc with
  | nil => cases h; exact ⟨loc, g, fun _ => Iff.rfl⟩
  | cons a as ih =>
    simp only [run] at h
    cases hs : step s a with
    | none => rw [hs] at h; cases h
    | some s1 =>
      rw [hs] at h
      obtain ⟨loc1, g1, h1⟩ := good_step g ha.1 hs
      obtain ⟨loc2, g2, h2⟩ := ih g1 (ha.2 s1 hs) h
      exact ⟨loc2, g2, fun c => (h2 c).trans (h1 c)⟩

/-! ### Properties -/

/-- **C77, no chunk is given out twice.**  Whatever the sandbox asks for and releases, and however the service thread
and the host's threads interleave: a block is given out only when nobody has any part of it, and a release by the sandbox
is accepted only for chunks that the sandbox has. -/
theorem history_legal {heap : Nat → Bool} {k : Nat} {as : List Act} {s : St}
    (h : run (St.init heap k) as = some s) (ha : HostRight (St.init heap k) as) : Legal s.log := by
  obtain ⟨_, g, -⟩ := good_run (good_init heap k) ha h
  exact g.legal

/-- **C77, the page map is right.**  At every moment, chunks that the host has are marked as the host's, chunks that the
sandbox has are marked as the sandbox's, and neither are in the range allocator; the chunks in it are marked as its own, and so
are those that are no part of the heap. -/
theorem map_right {heap : Nat → Bool} {k : Nat} {as : List Act} {s : St}
    (h : run (St.init heap k) as = some s) (ha : HostRight (St.init heap k) as) (c : Nat) :
    (user s.log c = .host → s.owner c = .host ∧ s.free c = false) ∧
      (user s.log c = .box → s.owner c = .box ∧ s.free c = false) ∧ (s.free c = true → s.owner c = .backend) ∧
      (heap c = false → s.owner c = .backend ∧ s.free c = false) := by
  obtain ⟨loc, g, hn⟩ := good_run (good_init heap k) ha h
  have h2 := g.fits c
  refine ⟨?_, ?_, ?_, ?_⟩
  rotate_left 2
  · intro h1
    cases hl : loc c <;> rw [hl] at h2 <;> simp only [Fits, h1] at h2 <;> first | exact h2.2.1 | (have := h2.1; cases this)
  · intro h1
    have := (hn c).2 (by simp [h1])
    rw [this] at h2
    exact ⟨h2.2.1, h2.1⟩
  all_goals intro h1 <;> cases hl : loc c <;> rw [hl] at h2 <;> simp only [Fits, h1] at h2 <;>
    first
    | exact ⟨h2.2.1, h2.1⟩
    | (have := h2.2.2; cases this)
    | (have := h2.2; cases this)

/-- **C77, nothing is lost.**  When no operation is in progress, every chunk of the heap is in the range allocator or
someone has it. -/
theorem nothing_lost {heap : Nat → Bool} {k : Nat} {as : List Act} {s : St}
    (h : run (St.init heap k) as = some s) (ha : HostRight (St.init heap k) as)
    (hi : ∀ t : Nat, s.hosts[t]? = some .idle ∨ s.hosts[t]? = none) (hv : s.svc = .idle) (c : Nat) (hc : heap c = true) :
    (s.free c = true ↔ user s.log c = .nobody) := by
  obtain ⟨loc, g, hn⟩ := good_run (good_init heap k) ha h
  have hout : loc c ≠ .out := by
    intro h1
    have := (hn c).1 h1
    simp [hc] at this
  have h2 := g.fits c
  cases hl : loc c with
  | out => exact absurd hl hout
  | thread t =>
    obtain ⟨p, h3, h4⟩ := (g.thread c t).1 hl
    rcases hi t with h5 | h5 <;> rw [h5] at h3 <;> cases h3
    cases h4
  | svc =>
    have := (g.svc c).1 hl
    rw [hv] at this; cases this
  | free => rw [hl] at h2; simp [h2.1, h2.2.2]
  | host => rw [hl] at h2; simp [h2.1, h2.2.2]
  | box => rw [hl] at h2; simp [h2.1, h2.2.2]

/-! ### The hypotheses can be met -/

/-- A heap of eight chunks.  A host thread allocates two chunks while the service thread serves the sandbox; the sandbox
tries to release one of the host's chunks and a chunk that the host has only half taken, then releases its own twice. -/
def exActs : List Act :=
  [.hostAlloc 0 2, .boxAlloc 2, .host 0 (some 0), .svc (some 4), .host 0 none, .svc none, .svc none, .svc none,
   .boxFree 1 1, .svc none, .host 0 none, .host 0 none, .boxFree 0 1, .svc none,
   .boxFree 4 2, .svc none, .svc none, .svc none, .svc none, .hostFree 0 0 2, .host 0 none, .svc none, .svc none,
   .boxFree 4 2, .svc none, .host 0 none, .host 0 none]

example : (run (St.init (fun c => decide (c < 8)) 2) exActs).map
    (fun s => (s.log, (List.range 9).map s.free, s.hosts, s.svc)) =
    some ([.boxGets 4 2, .hostGets 0 2, .boxGives 4 2, .hostGives 0 2],
      [true, true, true, true, true, true, true, true, false], [.idle, .idle], .idle) := by decide

example : ∃ s, run (St.init (fun c => decide (c < 8)) 2) exActs = some s ∧ Legal s.log := by
  cases h : run (St.init (fun c => decide (c < 8)) 2) exActs with
  | none => exact absurd (congrArg Option.isSome h) (by decide)
  | some s =>
    refine ⟨s, rfl, history_legal h ?_⟩
    simp only [exActs, HostRight, St.init]
    simp [step, hostStep, svcStep, St.at, St.range, St.entry, St.say, St.mayTake, inBlock, user]
    grind

end Verif.Race
