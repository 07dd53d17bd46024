import Verif.Records.Spec

/-!
# Slab records of several threads of the sandbox (properties)
-/

namespace Verif.Records

/-- The chunk a thread is freeing. -/
def Pc.chunk {σ} : Pc σ → Option Word
  | .freeIn c _ _ | .freeReq c => some c
  | _ => none

/-- The state of the range that a thread inside an operation has read. -/
def Pc.seen {σ} : Pc σ → Option σ
  | .allocIn s | .backIn _ s | .freeIn _ _ s => some s
  | _ => none

/-- A record is out: a chunk in use has it, or a thread. -/
def RecOut {σ τ} (s : St σ τ) (ms : Word) : Prop := (∃ c, s.used c = some ms) ∨ ∃ t, (s.pc t).record = some ms

/-- A chunk is out: it is in use, or a thread frees it. -/
def Out {σ τ} (s : St σ τ) (c : Word) : Prop := (∃ ms, s.used c = some ms) ∨ ∃ t, (s.pc t).chunk = some c

structure Inv {σ τ} (I : σ → (Word → Prop) → Prop) (J : τ → (Word → Prop) → Prop) (s : St σ τ) (cur : Option Nat) : Prop where
  rng : I s.rng (RecOut s)
  host : J s.host (Out s)
  uu : ∀ {c c' ms}, s.used c = some ms → s.used c' = some ms → c = c'
  ut : ∀ {c t ms}, s.used c = some ms → (s.pc t).record ≠ some ms
  tt : ∀ {t t' ms}, (s.pc t).record = some ms → (s.pc t').record = some ms → t = t'
  cu : ∀ {t c}, (s.pc t).chunk = some c → s.used c = none
  ct : ∀ {t t' c}, (s.pc t).chunk = some c → (s.pc t').chunk = some c → t = t'
  mu : ∀ {c ms}, s.used c = some ms → s.map c = some ms
  mf : ∀ {t c ms r}, s.pc t = .freeIn c ms r → s.map c = some ms
  mo : ∀ {c ms}, s.map c = some ms → Out s c
  inside : ∀ {t r}, (s.pc t).seen = some r → cur = some t ∧ r = s.rng

/-- The thread that is inside after an action. -/
def after (cur : Option Nat) (a : Act) : Option Nat :=
  match a.rangeOp with
  | none => cur
  | some (.enter t) => some t
  | some (.leave _) => none

theorem same {σ : Type} {I : σ → (Word → Prop) → Prop} {s : σ} {L L' : Word → Prop} (h : I s L) (e : ∀ x, L x ↔ L' x) :
    I s L' := by
  have : L = L' := funext fun x => propext (e x)
  exact this ▸ h

macro "rec_rest" : tactic => `(tactic| (
  first
  | assumption
  | (intros; simp only [upd, Out] at *; grind [Pc.record, Pc.chunk, Pc.seen, after, Act.rangeOp])))

theorem inv_step {σ τ : Type} {R : Rng σ} {H : Rng τ} {I : σ → (Word → Prop) → Prop} {J : τ → (Word → Prop) → Prop}
    (hR : Sound R I) (hH : Sound H J) {s s' : St σ τ} {cur : Option Nat}
    {a : Act} (g : Inv I J s cur) (hs : step R H s a = some s')
    (ho : ∀ t, a.rangeOp = some (.enter t) → cur = none) : Inv I J s' (after cur a) := by
  obtain ⟨rng, host, uu, ut, tt, cu, ct, mu, mf, mo, inside⟩ := g
  cases a with
  | allocEnter t =>
    simp only [step] at hs
    split at hs
    case h_2 => contradiction
    rename_i hp
    cases hs
    have hc := ho t rfl
    refine ⟨same rng fun x => ?_, same host fun x => ?_, ?_, ?_, ?_, ?_, ?_, ?_, ?_, ?_, ?_⟩
    · simp only [RecOut, upd]; grind [Pc.record]
    · simp only [Out, upd]; grind [Pc.chunk]
    all_goals rec_rest
  | allocLeave t =>
    simp only [step] at hs
    split at hs
    case h_2 => contradiction
    rename_i r hp
    have hin := inside (t := t) (r := r) (by rw [hp]; rfl)
    split at hs <;> rename_i hq <;> cases hs
    · have hal := hR.some rng (hin.2 ▸ hq)
      have hno := hal.1
      simp only [RecOut] at hno
      refine ⟨same hal.2 fun x => ?_, same host fun x => ?_, ?_, ?_, ?_, ?_, ?_, ?_, ?_, ?_, ?_⟩
      · simp only [RecOut, upd]; grind [Pc.record]
      · simp only [Out, upd]; grind [Pc.chunk]
      all_goals rec_rest
    · refine ⟨same (hR.none rng (hin.2 ▸ hq)) fun x => ?_, same host fun x => ?_, ?_, ?_, ?_, ?_, ?_, ?_, ?_, ?_, ?_⟩
      · simp only [RecOut, upd]; grind [Pc.record]
      · simp only [Out, upd]; grind [Pc.chunk]
      all_goals rec_rest
  | allocReq t =>
    simp only [step] at hs
    split at hs
    case h_2 => contradiction
    rename_i ms hp
    split at hs <;> rename_i hq <;> cases hs
    · have hal := hH.some host hq
      have hno := hal.1
      simp only [Out] at hno
      refine ⟨same rng fun x => ?_, same hal.2 fun x => ?_, ?_, ?_, ?_, ?_, ?_, ?_, ?_, ?_, ?_⟩
      · simp only [RecOut, upd]; grind [Pc.record]
      · simp only [Out, upd]; grind [Pc.chunk]
      all_goals rec_rest
    · refine ⟨same rng fun x => ?_, same (hH.none host hq) fun x => ?_, ?_, ?_, ?_, ?_, ?_, ?_, ?_, ?_, ?_⟩
      · simp only [RecOut, upd]; grind [Pc.record]
      · simp only [Out, upd]; grind [Pc.chunk]
      all_goals rec_rest
  | backEnter t =>
    simp only [step] at hs
    split at hs
    case h_2 => contradiction
    rename_i ms hp
    cases hs
    have hc := ho t rfl
    refine ⟨same rng fun x => ?_, same host fun x => ?_, ?_, ?_, ?_, ?_, ?_, ?_, ?_, ?_, ?_⟩
    · simp only [RecOut, upd]; grind [Pc.record]
    · simp only [Out, upd]; grind [Pc.chunk]
    all_goals rec_rest
  | backLeave t =>
    simp only [step] at hs
    split at hs
    case h_2 => contradiction
    rename_i ms r hp
    have hin := inside (t := t) (r := r) (by rw [hp]; rfl)
    cases hs
    refine ⟨same (hin.2 ▸ hR.free rng (a := ms) (.inr ⟨t, by rw [hp]; rfl⟩)) fun x => ?_, same host fun x => ?_,
      ?_, ?_, ?_, ?_, ?_, ?_, ?_, ?_, ?_⟩
    · simp only [RecOut, upd]; grind [Pc.record]
    · simp only [Out, upd]; grind [Pc.chunk]
    all_goals rec_rest
  | freeEnter t c =>
    simp only [step] at hs
    split at hs
    case h_2 => contradiction
    rename_i ms hp hu
    cases hs
    have hc := ho t rfl
    refine ⟨same rng fun x => ?_, same host fun x => ?_, ?_, ?_, ?_, ?_, ?_, ?_, ?_, ?_, ?_⟩
    · simp only [RecOut, upd]; grind [Pc.record]
    · simp only [Out, upd]; grind [Pc.chunk]
    all_goals rec_rest
  | freeLeave t =>
    simp only [step] at hs
    split at hs
    case h_2 => contradiction
    rename_i c ms r hp
    have hin := inside (t := t) (r := r) (by rw [hp]; rfl)
    cases hs
    refine ⟨same (hin.2 ▸ hR.free rng (a := ms) (.inr ⟨t, by rw [hp]; rfl⟩)) fun x => ?_, same host fun x => ?_,
      ?_, ?_, ?_, ?_, ?_, ?_, ?_, ?_, ?_⟩
    · simp only [RecOut, upd]; grind [Pc.record]
    · simp only [Out, upd]; grind [Pc.chunk]
    all_goals rec_rest
  | freeReq t =>
    simp only [step] at hs
    split at hs
    case h_2 => contradiction
    rename_i c hp
    cases hs
    refine ⟨same rng fun x => ?_, same (hH.free host (a := c) (.inr ⟨t, by rw [hp]; rfl⟩)) fun x => ?_,
      ?_, ?_, ?_, ?_, ?_, ?_, ?_, ?_, ?_⟩
    · simp only [RecOut, upd]; grind [Pc.record]
    · simp only [Out, upd]; grind [Pc.chunk]
    all_goals rec_rest

theorem inv_run {σ τ : Type} {R : Rng σ} {H : Rng τ} {I : σ → (Word → Prop) → Prop} {J : τ → (Word → Prop) → Prop}
    (hR : Sound R I) (hH : Sound H J) {as : List Act} {s s' : St σ τ} {cur : Option Nat} (g : Inv I J s cur)
    (hs : run R H s as = some s') (ho : Serial cur as) : ∃ cur', Inv I J s' cur' := by
  induction as generalizing s cur with
  | nil => cases hs; exact ⟨cur, g⟩
  | cons a as ih =>
    simp only [run] at hs
    cases ha : step R H s a with
    | none => rw [ha] at hs; contradiction
    | some s1 =>
      rw [ha] at hs
      refine ih (cur := after cur a) (inv_step hR hH g ha ?_) hs ?_
      · intro t ht
        simp only [Serial, ht] at ho
        exact ho.1
      · simp only [Serial] at ho
        simp only [after]
        split at ho <;> rename_i h <;> rw [h]
        · exact ho
        · exact ho.2
        · exact ho.2

theorem inv_start {σ τ : Type} {I : σ → (Word → Prop) → Prop} {J : τ → (Word → Prop) → Prop} {r : σ} {h : τ}
    (hr : I r fun _ => False) (hh : J h fun _ => False) : Inv I J (start r h) none := by
  refine ⟨same hr fun x => ?_, same hh fun x => ?_, ?_, ?_, ?_, ?_, ?_, ?_, ?_, ?_, ?_⟩ <;>
    simp [RecOut, Out, start, Pc.record, Pc.chunk, Pc.seen]

/-- **C101** (partial: only for runs in which the operations on `metadata_range` do not overlap).  Two chunks in use have
different records; no thread works with the record of a chunk in use; two threads work with different records; and the page
map gives every chunk in use its own record.  For every correct allocator of records and of chunks, every number of threads
and every interleaving.  The full claim, without `Serial`, is false: `shared_record`, `shared_later`. -/
theorem records_distinct_partial {σ τ : Type} {R : Rng σ} {H : Rng τ} {I : σ → (Word → Prop) → Prop}
    {J : τ → (Word → Prop) → Prop} (hR : Sound R I) (hH : Sound H J) {r : σ} {h : τ} (hr : I r fun _ => False)
    (hh : J h fun _ => False) {as : List Act} {s : St σ τ} (hs : run R H (start r h) as = some s) (ho : Serial none as) :
    (∀ c c' ms, s.used c = some ms → s.used c' = some ms → c = c') ∧
    (∀ c t ms, s.used c = some ms → (s.pc t).record ≠ some ms) ∧
    (∀ t t' ms, (s.pc t).record = some ms → (s.pc t').record = some ms → t = t') ∧
    (∀ c ms, s.used c = some ms → s.map c = some ms) := by
  obtain ⟨cur, g⟩ := inv_run hR hH (inv_start hr hh) hs ho
  exact ⟨fun _ _ _ => g.uu, fun _ _ _ => g.ut, fun _ _ _ => g.tt, fun _ _ => g.mu⟩

/-- **C101.** Between the two halves of `dealloc_chunk` the page map still has the old entry.  If two chunks have the same
record in the page map, one of them is in this state: its record was given back, and the host has yet to be asked to take
it.  (Runs without overlap; see `records_distinct_partial`.) -/
theorem stale_only_while_freeing {σ τ : Type} {R : Rng σ} {H : Rng τ} {I : σ → (Word → Prop) → Prop}
    {J : τ → (Word → Prop) → Prop} (hR : Sound R I) (hH : Sound H J) {r : σ} {h : τ} (hr : I r fun _ => False)
    (hh : J h fun _ => False) {as : List Act} {s : St σ τ} (hs : run R H (start r h) as = some s) (ho : Serial none as)
    {c c' ms : Word} (hne : c ≠ c') (hc : s.map c = some ms) (hc' : s.map c' = some ms) :
    ∃ t, s.pc t = .freeReq c ∨ s.pc t = .freeReq c' := by
  obtain ⟨cur, g⟩ := inv_run hR hH (inv_start hr hh) hs ho
  have key : ∀ {c}, s.map c = some ms →
      s.used c = some ms ∨ (∃ t, (s.pc t).record = some ms ∧ (s.pc t).chunk = some c) ∨ ∃ t, s.pc t = .freeReq c := by
    intro c hc
    rcases g.mo hc with ⟨m, hm⟩ | ⟨t, ht⟩
    · exact .inl (by rw [hm, ← g.mu hm, hc])
    · right
      cases hp : s.pc t with
      | freeReq d => rw [hp] at ht; cases ht; exact .inr ⟨t, hp⟩
      | freeIn d m q =>
        rw [hp] at ht; cases ht
        have := g.mf hp
        rw [hc] at this
        cases this
        exact .inl ⟨t, by rw [hp]; rfl, by rw [hp]; rfl⟩
      | _ => rw [hp] at ht; cases ht
  rcases key hc with h1 | ⟨t, h1, h2⟩ | ⟨t, h1⟩
  · rcases key hc' with h3 | ⟨t', h3, _⟩ | ⟨t', h3⟩
    · exact absurd (g.uu h1 h3) hne
    · exact absurd h3 (g.ut h1)
    · exact ⟨t', .inr h3⟩
  · rcases key hc' with h3 | ⟨t', h3, h4⟩ | ⟨t', h3⟩
    · exact absurd h1 (g.ut h3)
    · have := g.tt h1 h3
      subst this
      rw [h2] at h4
      cases h4
      exact absurd rfl hne
    · exact ⟨t', .inr h3⟩
  · exact ⟨t, .inl h1⟩

/-- **C101.** Nothing is lost: when no thread is in `alloc_chunk` or `dealloc_chunk`, the blocks that the range of the
records counts as given out are those of the chunks in use, and the host counts exactly those chunks.  (Runs without
overlap; see `records_distinct_partial`.) -/
theorem records_none_lost {σ τ : Type} {R : Rng σ} {H : Rng τ} {I : σ → (Word → Prop) → Prop}
    {J : τ → (Word → Prop) → Prop} (hR : Sound R I) (hH : Sound H J) {r : σ} {h : τ} (hr : I r fun _ => False)
    (hh : J h fun _ => False) {as : List Act} {s : St σ τ} (hs : run R H (start r h) as = some s) (ho : Serial none as)
    (hi : ∀ t, s.pc t = .idle) : I s.rng (fun ms => ∃ c, s.used c = some ms) ∧ J s.host (fun c => ∃ ms, s.used c = some ms) := by
  obtain ⟨cur, g⟩ := inv_run hR hH (inv_start hr hh) hs ho
  refine ⟨same g.rng fun x => ?_, same g.host fun x => ?_⟩ <;> simp [RecOut, Out, hi, Pc.record, Pc.chunk]

/-- **C101.** A sandbox with one thread never overlaps itself, so for it the claim holds in full. -/
theorem one_thread_serial {σ τ : Type} {R : Rng σ} {H : Rng τ} {r : σ} {h : τ} {as : List Act} {s : St σ τ}
    (hs : run R H (start r h) as = some s) {t : Nat} (ht : ∀ a ∈ as, a.thread = t) : Serial none as := by
  have key : ∀ (as : List Act) (s0 : St σ τ), run R H s0 as = some s → (∀ a ∈ as, a.thread = t) →
      Serial (if (s0.pc t).seen.isSome then some t else none) as := by
    intro as
    induction as with
    | nil => intros; trivial
    | cons a as ih =>
      intro s0 hs hta
      simp only [run] at hs
      cases ha : step R H s0 a with
      | none => rw [ha] at hs; contradiction
      | some s1 =>
        rw [ha] at hs
        have hi := ih s1 hs fun a h => hta a (List.mem_cons_of_mem _ h)
        have h0 := hta a List.mem_cons_self
        cases a <;> simp only [Act.thread] at h0 <;> subst h0 <;> simp only [step] at ha <;>
          (repeat' split at ha) <;> (try contradiction) <;> cases ha <;>
          simp_all [Serial, Act.rangeOp, Pc.seen, upd]
  have := key as (start r h) hs ht
  simpa [start, Pc.seen] using this

/-- The records of a sandbox with one thread are distinct, whatever it does. -/
theorem records_distinct_one_thread {σ τ : Type} {R : Rng σ} {H : Rng τ} {I : σ → (Word → Prop) → Prop}
    {J : τ → (Word → Prop) → Prop} (hR : Sound R I) (hH : Sound H J) {r : σ} {h : τ} (hr : I r fun _ => False)
    (hh : J h fun _ => False) {as : List Act} {s : St σ τ} (hs : run R H (start r h) as = some s) {t : Nat}
    (ht : ∀ a ∈ as, a.thread = t) {c c' ms : Word} (hc : s.used c = some ms) (hc' : s.used c' = some ms) : c = c' :=
  (records_distinct_partial hR hH hr hh hs (one_thread_serial hs ht)).1 c c' ms hc hc'

/-- **C101**, the negation.  Whatever the allocator of the records does, two threads that are in `alloc_range` at the same
time both get the record that it gives first, and two chunks are in use with one record. -/
theorem shared_record {σ τ : Type} (R : Rng σ) (H : Rng τ) {r r' : σ} {h h' h'' : τ} {ms c c' : Word}
    (hr : R.alloc r = (some ms, r')) (h1 : H.alloc h = (some c, h')) (h2 : H.alloc h' = (some c', h'')) (hne : c ≠ c') :
    ∃ s, run R H (start r h) [.allocEnter 0, .allocEnter 1, .allocLeave 0, .allocLeave 1, .allocReq 0, .allocReq 1] = some s ∧
      s.used c = some ms ∧ s.used c' = some ms := by
  simp [run, step, start, upd, hr, h1, h2, hne]

/-- **C101**, the negation, with overlap in the past only.  Thread 1 gives a record back while thread 0 is in
`alloc_range`; the range forgets that thread 0 has taken record 2.  Later allocations, one after the other, give record 2
a second time. -/
theorem shared_later :
    ∃ s, run stack stack (start [1, 2] [100, 200, 300, 400])
      ([.allocEnter 0, .allocLeave 0, .allocReq 0] ++
       [.allocEnter 0, .freeEnter 1 100, .allocLeave 0, .freeLeave 1, .allocReq 0, .freeReq 1] ++
       [.allocEnter 2, .allocLeave 2, .allocReq 2, .allocEnter 2, .allocLeave 2, .allocReq 2]) = some s ∧
      s.used 200 = some 2 ∧ s.used 300 = some 2 := by
  refine ⟨_, rfl, by decide, by decide⟩

/-- **C101.** Entries of chunks that are being freed can be stale, even if nothing overlaps: with an allocator that hands a
returned record out again, a second thread gets the record while the page map still has it for the first chunk. -/
theorem stale_reachable {σ τ : Type} (R : Rng σ) (H : Rng τ) {r r' r'' : σ} {h h' h'' : τ} {ms c c' : Word}
    (hr : R.alloc r = (some ms, r')) (hf : R.alloc (R.free r' ms) = (some ms, r'')) (h1 : H.alloc h = (some c, h'))
    (h2 : H.alloc h' = (some c', h'')) (hne : c ≠ c') :
    ∃ as s, Serial none as ∧ run R H (start r h) as = some s ∧ s.used c' = some ms ∧ s.map c' = some ms ∧
      s.map c = some ms ∧ s.used c = none := by
  refine ⟨[.allocEnter 0, .allocLeave 0, .allocReq 0, .freeEnter 0 c, .freeLeave 0, .allocEnter 1, .allocLeave 1,
    .allocReq 1], ?_⟩
  simp [Serial, Act.rangeOp, run, step, start, upd, hr, hf, h1, h2, hne]

/-- Two threads, three chunks, one freed, without overlap: the hypotheses of the theorems above can be met. -/
example : ∃ s, run stack stack (start [1, 2, 3] [100, 200, 300])
      [.allocEnter 0, .allocLeave 0, .allocEnter 1, .allocLeave 1, .allocReq 1, .allocReq 0, .freeEnter 1 200,
       .freeLeave 1, .allocEnter 0, .allocLeave 0] = some s ∧
      Serial none [.allocEnter 0, .allocLeave 0, .allocEnter 1, .allocLeave 1, .allocReq 1, .allocReq 0, .freeEnter 1 200,
       .freeLeave 1, .allocEnter 0, .allocLeave 0] ∧
      stackInv [1, 2, 3] (fun _ => False) ∧ stackInv [100, 200, 300] (fun _ => False) ∧
      s.used 100 = some 2 ∧ (s.pc 0).record = some 1 ∧ s.pc 1 = .freeReq 200 ∧ s.map 200 = some 1 := by
  refine ⟨_, rfl, by simp [Serial, Act.rangeOp], ⟨by decide, by simp⟩, ⟨by decide, by simp⟩, by decide, by decide, by decide, by decide⟩

/-- The page map during the run of `stale_reachable`, for `stale_only_while_freeing`. -/
example : ∃ s, run stack stack (start [1, 2] [100, 200])
      [.allocEnter 0, .allocLeave 0, .allocReq 0, .freeEnter 0 100, .freeLeave 0, .allocEnter 1, .allocLeave 1,
       .allocReq 1] = some s ∧ s.map 100 = some 1 ∧ s.map 200 = some 1 ∧ s.pc 0 = .freeReq 100 :=
  ⟨_, rfl, by decide, by decide, by decide⟩

/-- One thread: allocates twice, runs out of chunks and gives the record back. -/
example : ∃ s, run stack stack (start [1, 2] [100])
      [.allocEnter 5, .allocLeave 5, .allocReq 5, .allocEnter 5, .allocLeave 5, .allocReq 5, .backEnter 5, .backLeave 5] =
        some s ∧ s.used 100 = some 1 ∧ s.rng = [2] ∧ ∀ t, s.pc t = .idle := by
  refine ⟨_, rfl, by decide, by decide, fun t => ?_⟩
  simp only [upd, start]
  repeat' split
  all_goals first | rfl | contradiction

/-- The hypotheses of `shared_record` and `stale_reachable` for the simple allocator. -/
example : stack.alloc [1, 2] = (some 1, [2]) ∧ stack.alloc (stack.free [2] 1) = (some 1, [2]) ∧
    stack.alloc [100, 200] = (some 100, [200]) ∧ stack.alloc [200] = (some 200, []) := ⟨rfl, rfl, rfl, rfl⟩

end Verif.Records
