import Verif.ChildHeap.Lemmas

/-!
# The sandbox's side of the memory service: properties C55 and C56
-/

namespace Verif.ChildHeap

open Verif.Rpc Verif.Rpc.Spec Verif.Bounds

theorem own_owned {C : Nat} {pm : Pm} {ch : Chunk} (h : Truthful C pm ch) {j : Nat} (hj : Covers C ch.p ch.n j) :
    Owned pm j := by
  unfold Owned
  rw [(h j hj).1, BitVec.getLsbD_or]
  have : (8 : Word).getLsbD 3 = true := by decide
  rw [this, Bool.or_true]

theorem filterMap_erase {ch : Chunk} {l : List Chunk} (h : ch ∈ l) :
    (l.filterMap Chunk.own).Perm ((match ch.own with | some ms => [ms] | none => []) ++
      (l.erase ch).filterMap Chunk.own) := by
  have := (List.perm_cons_erase h).filterMap Chunk.own
  refine this.trans ?_
  rw [List.filterMap_cons]
  cases ch.own <;> exact List.Perm.refl _

/-- One proper event: the child goes on, unless the heap is exhausted, and the invariant is kept. -/
theorem step_inv {σ} {c : Cfg} {R : Range σ} {m : Mapping} {Good : σ → (Nat → Prop) → Prop} (h : Setting c R m Good)
    {w : World σ} {F : Nat → Prop} (hi : Inv c m Good w F) (e : Ev) (he : Proper c m w e) :
    (∃ w' F', step c R (m.region c) w e = some w' ∧ Inv c m Good w' F') ∨
    (step c R (m.region c) w e = none ∧ ∃ size ras : Word, (R.alloc w.st.rng w.st.pm size.toNat).1 = none ∧
      ((∃ slot, e = .alloc slot size ras) ∨ e = .shared size)) := by
  cases e with
  | alloc slot size ras =>
    obtain ⟨⟨ms, rfl⟩, hn, hq, ho⟩ := he
    rcases request_alloc h (w := { w.st with records := ms :: w.st.records }) (ms := ms) hi.good hn hq ho with
      ⟨h1, h2⟩ | ⟨p, h1, h2, h3, h4⟩
    · right
      refine ⟨?_, size, ras, h1, Or.inl ⟨_, rfl⟩⟩
      simp only [step, allocChunk, h2]
    · left
      have hne : BitVec.ofNat 64 p ≠ 0 := by
        intro e0
        have := congrArg BitVec.toNat e0
        rw [BitVec.toNat_ofNat, Nat.mod_eq_of_lt h3] at this
        exact h2 (by simpa using this)
      have hstep : step c R (m.region c) w (.alloc (some ms) size ras) = some
          { st := ⟨(R.alloc w.st.rng w.st.pm size.toNat).2.1,
              setMeta c (R.alloc w.st.rng w.st.pm size.toNat).2.2 p (p + size.toNat) ⟨ms ||| 8, ras⟩,
              ms :: w.st.records⟩
            held := ⟨p, size.toNat, some ms, ras⟩ :: w.held
            live := w.live } := by
        simp only [step, allocChunk, h4]
        rw [if_neg hne]
        simp [Nat.mod_eq_of_lt h3]
      refine ⟨_, fun j => F j ∧ ¬ Covers (2 ^ c.bits) p size.toNat j, hstep, ?_⟩
      apply inv_grant h hi ⟨ms ||| 8, ras⟩ hn h1
      · rfl
      · rfl
      · exact List.Perm.refl _
      · intro ch hch
        rcases List.mem_cons.1 hch with rfl | hch
        · exact Or.inr ⟨rfl, rfl, rfl⟩
        · exact Or.inl hch
      · exact List.Perm.cons _ hi.records
  | shared size =>
    obtain ⟨hn, hq, ho⟩ := he
    rcases request_alloc h (w := w.st) (ms := 0) hi.good hn hq ho with ⟨h1, h2⟩ | ⟨p, h1, h2, h3, h4⟩
    · right
      refine ⟨?_, size, 0, h1, Or.inr rfl⟩
      simp only [step, sharedAlloc, h2]
    · left
      have hstep : step c R (m.region c) w (.shared size) = some
          { st := ⟨(R.alloc w.st.rng w.st.pm size.toNat).2.1,
              setMeta c (R.alloc w.st.rng w.st.pm size.toNat).2.2 p (p + size.toNat) ⟨0 ||| 8, 0⟩,
              w.st.records⟩
            held := ⟨p, size.toNat, none, 0⟩ :: w.held
            live := w.live } := by
        simp only [step, sharedAlloc, h4]
        simp [Nat.mod_eq_of_lt h3]
      refine ⟨_, fun j => F j ∧ ¬ Covers (2 ^ c.bits) p size.toNat j, hstep, ?_⟩
      apply inv_grant h hi ⟨0 ||| 8, 0⟩ hn h1
      · rfl
      · rfl
      · exact List.Perm.refl _
      · intro ch hch
        rcases List.mem_cons.1 hch with rfl | hch
        · exact Or.inr ⟨rfl, rfl, rfl⟩
        · exact Or.inl hch
      · exact hi.records
  | free ch =>
    left
    have hm : ch ∈ w.held := he
    have hb := hi.block (ch.p, ch.n) (List.mem_append_left _ (List.mem_map.2 ⟨ch, hm, rfl⟩))
    have hown : ∀ j, Covers (2 ^ c.bits) ch.p ch.n j → Owned w.st.pm j := fun j hj => own_owned (hi.truth ch hm) hj
    have hperm := filterMap_erase hm
    have huse : (inUse w).Perm ((ch.p, ch.n) :: inUse { w with held := w.held.erase ch }) := by
      have := ((List.perm_cons_erase hm).map (fun ch => (ch.p, ch.n))).append_right w.live
      simpa [inUse] using this
    cases hoc : ch.own with
    | some ms =>
      rw [hoc] at hperm
      have hr := request_free h (w := { w.st with records := w.st.records.erase ms }) hb.1 hb.2.2 hown
      have hstep : step c R (m.region c) w (.free ch) = some
          { st := ⟨(deallocRange c R w.st.rng w.st.pm ch.p ch.n).1, (deallocRange c R w.st.rng w.st.pm ch.p ch.n).2,
              w.st.records.erase ms⟩
            held := w.held.erase ch
            live := w.live } := by
        simp only [step, hoc, deallocChunk, hr]
      refine ⟨_, fun j => F j ∨ Covers (2 ^ c.bits) ch.p ch.n j, hstep, ?_⟩
      apply inv_return h hi (n := ch.n) (p := ch.p)
      · rfl
      · rfl
      · exact huse
      · intro x hx; exact List.mem_of_mem_erase hx
      · have := (hi.records.trans hperm).erase ms
        simpa using this
    | none =>
      rw [hoc] at hperm
      have hr := request_free h (w := w.st) hb.1 hb.2.2 hown
      have hstep : step c R (m.region c) w (.free ch) = some
          { st := ⟨(deallocRange c R w.st.rng w.st.pm ch.p ch.n).1, (deallocRange c R w.st.rng w.st.pm ch.p ch.n).2,
              w.st.records⟩
            held := w.held.erase ch
            live := w.live } := by
        simp only [step, hoc, sharedDealloc, hr]
      refine ⟨_, fun j => F j ∨ Covers (2 ^ c.bits) ch.p ch.n j, hstep, ?_⟩
      apply inv_return h hi (n := ch.n) (p := ch.p)
      · rfl
      · rfl
      · exact huse
      · intro x hx; exact List.mem_of_mem_erase hx
      · exact hi.records.trans (by simpa using hperm)
  | hostAlloc size slab ras =>
    left
    obtain ⟨hn, hbit⟩ := he
    have hno := h.exact.alloc_none _ F w.st.pm size hi.good hn
    rcases hr : R.alloc w.st.rng w.st.pm size with ⟨_ | p, s', pm'⟩
    · rw [hr] at hno
      have hno := hno rfl
      simp only [Prod.mk.injEq] at hno
      refine ⟨w, F, ?_, hi⟩
      simp only [step, hostAlloc, hr, hno.1, hno.2]
    · refine ⟨{ w with
        st := { w.st with rng := s', pm := setMeta c pm' p (p + size) ⟨slab, ras⟩ }
        live := (p, size) :: w.live }, fun j => F j ∧ ¬ Covers (2 ^ c.bits) p size j, ?_, ?_⟩
      · simp only [step, hostAlloc, hr]
      · apply inv_grant h hi ⟨slab, ras⟩ hn (p := p)
        · rw [hr]
        · rw [hr]
        · rw [hr]
        · simp only [inUse]
          exact List.perm_middle
        · intro ch hch; exact Or.inl hch
        · exact hi.records
  | hostFree p n =>
    left
    have hm : (p, n) ∈ w.live := he
    refine ⟨_, fun j => F j ∨ Covers (2 ^ c.bits) p n j, rfl, ?_⟩
    apply inv_return h hi (n := n) (p := p)
    · rfl
    · rfl
    · simp only [inUse]
      exact ((List.perm_cons_erase hm).append_left _).trans List.perm_middle
    · intro ch hch; exact hch
    · exact hi.records
  | other pm =>
    left
    refine ⟨_, F, rfl, hi.good, hi.above, hi.block, hi.notFree, hi.apart, ?_, hi.records⟩
    intro ch hch j hj
    have hb := hi.block (ch.p, ch.n) (List.mem_append_left _ (List.mem_map.2 ⟨ch, hch, rfl⟩))
    have := he j (covers_inMap hb.1 hj)
    simp only [this]
    exact hi.truth ch hch j hj

theorem run_inv {σ} {c : Cfg} {R : Range σ} {m : Mapping} {Good : σ → (Nat → Prop) → Prop} (h : Setting c R m Good) :
    ∀ (es : List Ev) {w w' : World σ} {F : Nat → Prop}, Inv c m Good w F → AllProper c R m w es →
      run c R (m.region c) w es = some w' → ∃ F', Inv c m Good w' F' := by
  intro es
  induction es with
  | nil =>
    intro w w' F hi _ hr
    simp only [run, Option.some.injEq] at hr
    exact ⟨F, hr ▸ hi⟩
  | cons e es ih =>
    intro w w' F hi hp hr
    rcases step_inv h hi e hp.1 with ⟨w1, F1, h1, h2⟩ | ⟨h1, -⟩
    · rw [run, h1] at hr
      exact ih h2 (hp.2 w1 h1) hr
    · rw [run, h1] at hr
      exact absurd hr (by simp)

/-- The start: nothing is in use, and only chunks of the heap proper are free. -/
structure Fresh {σ} (c : Cfg) (m : Mapping) (Good : σ → (Nat → Prop) → Prop) (w : World σ) (F : Nat → Prop) :
    Prop where
  good : Good w.st.rng F
  above : ∀ j, F j → m.base.toNat + 2 * c.hdr.toNat ≤ j * 2 ^ c.bits
  held : w.held = []
  live : w.live = []
  records : w.st.records = []

theorem fresh_inv {σ} {c : Cfg} {m : Mapping} {Good : σ → (Nat → Prop) → Prop} {w : World σ} {F : Nat → Prop}
    (h : Fresh c m Good w F) : Inv c m Good w F := by
  have hu : inUse w = [] := by simp [inUse, h.held, h.live]
  refine ⟨h.good, h.above, ?_, ?_, ?_, ?_, ?_⟩
  · simp [hu]
  · simp [hu]
  · simp [hu]
  · simp [h.held]
  · simp [h.held, h.records]

/-- **C55, the page map tells the truth.**  After any history of a sandbox that uses its allocator properly, of the
host's allocator in the same heap, and of anything that happens for other sandboxes: every block the sandbox holds is
described truthfully by the page map, all blocks in use are in the heap and apart from each other, and there is one
slab record for each block that has one. -/
theorem heap_truthful {σ} {c : Cfg} {R : Range σ} {m : Mapping} {Good : σ → (Nat → Prop) → Prop}
    (h : Setting c R m Good) {w w' : World σ} {F : Nat → Prop} (hf : Fresh c m Good w F) (es : List Ev)
    (hp : AllProper c R m w es) (hr : run c R (m.region c) w es = some w') :
    (∀ ch ∈ w'.held, Truthful (2 ^ c.bits) w'.st.pm ch) ∧ (inUse w').Pairwise (Apart (2 ^ c.bits)) ∧
    (∀ b ∈ inUse w', m.base.toNat + 2 * c.hdr.toNat ≤ b.1 ∧ b.1 + b.2 ≤ m.base.toNat + m.size.toNat) ∧
    w'.st.records.Perm (w'.held.filterMap Chunk.own) := by
  obtain ⟨F', hi⟩ := run_inv h es (fresh_inv hf) hp hr
  exact ⟨hi.truth, hi.apart, fun b hb => ⟨(hi.block b hb).2.2, (hi.block b hb).1.2.2.2⟩, hi.records⟩

/-- **C55, proper requests are not refused.**  After any such history, the only thing that can end the child in a
proper call of its allocator is that the host has no block of the size wanted. -/
theorem proper_not_refused {σ} {c : Cfg} {R : Range σ} {m : Mapping} {Good : σ → (Nat → Prop) → Prop}
    (h : Setting c R m Good) {w w' : World σ} {F : Nat → Prop} (hf : Fresh c m Good w F) (es : List Ev)
    (hp : AllProper c R m w es) (hr : run c R (m.region c) w es = some w') (e : Ev) (he : Proper c m w' e)
    (hdead : step c R (m.region c) w' e = none) :
    ∃ size ras : Word, (R.alloc w'.st.rng w'.st.pm size.toNat).1 = none ∧
      ((∃ slot, e = .alloc slot size ras) ∨ e = .shared size) := by
  obtain ⟨F', hi⟩ := run_inv h es (fresh_inv hf) hp hr
  rcases step_inv h hi e he with ⟨w1, F1, h1, -⟩ | ⟨-, h2⟩
  · rw [h1] at hdead; exact absurd hdead (by simp)
  · exact h2

/-- What other sandboxes and the host's allocators for them do is among the events `other` that are proper: it leaves
the entries of this mapping alone. -/
theorem others_proper {σ} (c : Cfg) (R : Range σ) (maps : Nat → Mapping) (I : Nat → σ → Prop)
    (hw : Rpc.World c R maps I) (i : Nat) (st : Sys σ) (hs : ∀ k, I k (st.ranges k)) (op : Op)
    (hop : HostSane (2 ^ c.bits) maps op)
    (hd : ∀ j, InMap (2 ^ c.bits) (maps i) j → ¬ InMap (2 ^ c.bits) (maps (sandboxOf op)) j)
    (w : World σ) (hpm : w.st.pm = st.pm) :
    Proper c (maps i) w (.other (Rpc.step c R maps st op).2.pm) := by
  intro j hj
  rw [hpm]
  by_cases he : (Rpc.step c R maps st op).2.pm j = st.pm j
  · exact he
  · exact absurd ((step_frame c R maps I hw st op hs hop).2.1 j he) (hd j hj)

/-! ## C56 -/

/-- **C56 fails.**  When the host has no block of the size wanted, a proper allocation ends the child: the test for
a null result at `src/library_runner.cc:249` comes too late. -/
theorem exhaustion_ends_child {σ} {c : Cfg} {R : Range σ} {m : Mapping} {Good : σ → (Nat → Prop) → Prop}
    (h : Setting c R m Good) {w : St σ} {F : Nat → Prop} (hg : Good w.rng F) {ms size ras : Word}
    (hn : ChunkSize (2 ^ c.bits) size.toNat) (hq : QueueOk c m (c.remoteOf ras).toNat)
    (ho : c.objSize ras ≤ size.toNat) (hfull : (R.alloc w.rng w.pm size.toNat).1 = none) :
    (allocChunk c R (m.region c) .up w (some ms) size ras).1 = .fatal := by
  rcases request_alloc h (w := { w with records := ms :: w.records }) (ms := ms) hg hn hq ho with
    ⟨-, h2⟩ | ⟨p, h1, -⟩
  · simp only [allocChunk, h2]
  · simp only [hfull] at h1
    exact absurd h1 (by simp)

/-- **C56 fails always.**  Whatever is asked for, and whatever the state of the heap and the sockets, the function
never reports that there is no memory. -/
theorem failure_never_reported {σ} {c : Cfg} {R : Range σ} {m : Mapping} {Good : σ → (Nat → Prop) → Prop}
    (h : Setting c R m Good) {w : St σ} {F : Nat → Prop} (hg : Good w.rng F) (l : Link) (slot : Option Word)
    (size ras : Word) : (allocChunk c R (m.region c) l w slot size ras).1 ≠ .ok none := by
  cases slot with
  | none => simp [allocChunk]
  | some ms =>
    have key : ∀ p w', request c R (m.region c) l { w with records := ms :: w.records } 0 size ms ras = (.ok p, w') →
        p ≠ 0 := by
      intro p w' hreq
      simp only [request] at hreq
      split at hreq
      · simp at hreq
      split at hreq
      · simp at hreq
      split at hreq
      · simp at hreq
      rename_i herr
      simp only [Decidable.not_not] at herr
      rcases exact_alloc_decided c R m h.exact h.map_ok w.rng w.pm ⟨0, size, ms, ras, 0⟩ hg rfl with
        ⟨h1, -⟩ | ⟨p', h1, h2, h3, h4⟩
      · exact absurd herr h1
      · simp only [Prod.mk.injEq, Out.ok.injEq] at hreq
        have h7 := (h.exact.alloc_some _ _ _ _ _ hg h1 h2).1.2.2.1
        have h9 := h.nonnull
        rw [h4] at hreq
        intro e0
        rw [e0] at hreq
        have := congrArg BitVec.toNat hreq.1
        rw [BitVec.toNat_ofNat, Nat.mod_eq_of_lt h3] at this
        simp at this
        omega
    simp only [allocChunk]
    split
    · simp
    · simp
    · rename_i p w' hreq
      rw [if_neg (key p w' hreq)]
      simp

/-- **C56**, the other way memory can run out: without room for the slab record the behaviour is undefined. -/
theorem no_record_undefined {σ} (c : Cfg) (R : Range σ) (r : Region) (l : Link) (w : St σ) (size ras : Word) :
    (allocChunk c R r l w none size ras).1 = .ub := rfl

/-- What the host answers to a request (`src/libsandbox.cc:238-330`), seen from the child: an error, or a link that
does not carry the whole request and the whole response. -/
def Fails {σ} (c : Cfg) (R : Range σ) (r : Region) (l : Link) (w : St σ) (kind a0 a1 a2 : Word) : Prop :=
  l.wrote ≠ 40 ∨ l.got ≠ 16 ∨ (serve c R r w.rng w.pm ⟨kind, a0, a1, a2, 0⟩).1.error ≠ 0

/-- **C56 fails** for every request, not only for a lack of memory: an error of the host, and a socket that is closed
or cuts a message short, end the child in each of the functions, giving memory back included, and nothing else
does. -/
theorem failure_ends_child {σ} (c : Cfg) (R : Range σ) (r : Region) (l : Link) (w : St σ) :
    (∀ size, (sharedAlloc c R r l w size).1 = .fatal ↔ Fails c R r l w 0 size 0 0) ∧
    (∀ base size, (sharedDealloc c R r l w base size).1 = .fatal ↔ Fails c R r l w 1 base size 0) ∧
    (∀ ms size ras, (allocChunk c R r l w (some ms) size ras).1 = .fatal ↔ Fails c R r l w 0 size ms ras) ∧
    (∀ ms start size, (deallocChunk c R r l w ms start size).1 = .fatal ↔ Fails c R r l w 1 start size 0) := by
  have key : ∀ (w' : St σ) (k a0 a1 a2 : Word), w'.rng = w.rng → w'.pm = w.pm →
      (Fails c R r l w k a0 a1 a2 ∧ ∃ v, request c R r l w' k a0 a1 a2 = (.fatal, v)) ∨
      (¬ Fails c R r l w k a0 a1 a2 ∧ ∃ p v, request c R r l w' k a0 a1 a2 = (.ok p, v)) := by
    intro w' k a0 a1 a2 e1 e2
    simp only [request, Fails, e1, e2]
    generalize serve c R r w.rng w.pm ⟨k, a0, a1, a2, 0⟩ = o
    by_cases h1 : l.wrote = 40
    · by_cases h2 : l.got = 16
      · by_cases h3 : o.1.error = 0
        · exact Or.inr ⟨by rintro (h | h | h) <;> contradiction,
            o.1.ret, _, by rw [if_neg (by simp [h1]), if_neg (by simp [h2]), if_neg (fun h => h h3)]⟩
        · exact Or.inl ⟨Or.inr (Or.inr h3), _, by rw [if_neg (by simp [h1]), if_neg (by simp [h2]), if_pos h3]⟩
      · exact Or.inl ⟨Or.inr (Or.inl h2), _, by rw [if_neg (by simp [h1]), if_pos h2]⟩
    · exact Or.inl ⟨Or.inl h1, _, by rw [if_pos h1]⟩
  refine ⟨?_, ?_, ?_, ?_⟩
  · intro size
    rcases key w 0 size 0 0 rfl rfl with ⟨h, v, e⟩ | ⟨h, p, v, e⟩ <;> rw [sharedAlloc, e]
    · exact ⟨fun _ => h, fun _ => rfl⟩
    · exact ⟨fun h' => (nomatch h'), fun h' => absurd h' h⟩
  · intro base size
    rcases key w 1 base size 0 rfl rfl with ⟨h, v, e⟩ | ⟨h, p, v, e⟩ <;> rw [sharedDealloc, e]
    · exact ⟨fun _ => h, fun _ => rfl⟩
    · exact ⟨fun h' => (nomatch h'), fun h' => absurd h' h⟩
  · intro ms size ras
    rcases key { w with records := ms :: w.records } 0 size ms ras rfl rfl with ⟨h, v, e⟩ | ⟨h, p, v, e⟩ <;>
      simp only [allocChunk, e]
    · exact ⟨fun _ => h, fun _ => trivial⟩
    · refine ⟨fun h' => ?_, fun h' => absurd h' h⟩
      split at h' <;> exact (nomatch h')
  · intro ms start size
    rcases key { w with records := w.records.erase ms } 1 start size 0 rfl rfl with ⟨h, v, e⟩ | ⟨h, p, v, e⟩ <;>
      rw [deallocChunk, e]
    · exact ⟨fun _ => h, fun _ => rfl⟩
    · exact ⟨fun h' => (nomatch h'), fun h' => absurd h' h⟩

/-- **C56**, the part that holds: when the host has a block, the function returns that block with the record it was
given for it.  Missing: that the lack of a block is reported (`failure_never_reported`). -/
theorem success_reported_partial {σ} {c : Cfg} {R : Range σ} {m : Mapping} {Good : σ → (Nat → Prop) → Prop}
    (h : Setting c R m Good) {w : St σ} {F : Nat → Prop} (hg : Good w.rng F) {ms size ras : Word} {p : Nat}
    (hn : ChunkSize (2 ^ c.bits) size.toNat) (hq : QueueOk c m (c.remoteOf ras).toNat)
    (ho : c.objSize ras ≤ size.toNat) (hsome : (R.alloc w.rng w.pm size.toNat).1 = some p) :
    (allocChunk c R (m.region c) .up w (some ms) size ras).1 = .ok (some (BitVec.ofNat 64 p, ms)) ∧
    (BitVec.ofNat 64 p).toNat = p ∧ p ≠ 0 := by
  rcases request_alloc h (w := { w with records := ms :: w.records }) (ms := ms) hg hn hq ho with
    ⟨h1, -⟩ | ⟨q, h1, h2, h3, h4⟩
  · simp only [hsome] at h1
    exact absurd h1 (by simp)
  · simp only [hsome, Option.some.injEq] at h1
    subst h1
    have hp : (BitVec.ofNat 64 p).toNat = p := by rw [BitVec.toNat_ofNat]; exact Nat.mod_eq_of_lt h3
    have hne : BitVec.ofNat 64 p ≠ 0 := by
      intro hc
      rw [hc] at hp
      exact h2 hp.symm
    refine ⟨?_, hp, h2⟩
    simp only [allocChunk, h4, if_neg hne]

/-! ### A concrete sandbox

The stand-in allocator of `Verif.Rpc` with sixteen chunks. -/

theorem exSetting : Setting exCfg (buddyRange exCfg) (exMap 0) (Repr (exLo 0) (2 ^ 4)) :=
  ⟨exMap_ok 0, by decide +kernel, exWorld2.exact 0 (by decide), exWorld2.backend⟩

/-- The sandbox before its first request (`src/libsandbox.cc:55-67`). -/
def exWorld0 : World Free := ⟨⟨exSys.ranges 0, exSys.pm, []⟩, [], []⟩

theorem exFresh : Fresh exCfg (exMap 0) (Repr (exLo 0) (2 ^ 4)) exWorld0
    (fun j => exLo 0 + 1 ≤ j ∧ j < exLo 0 + 16) := by
  refine ⟨exSys_free 0, ?_, rfl, rfl, rfl⟩
  intro j hj
  have h1 : (exMap 0).base.toNat + 2 * exCfg.hdr.toNat ≤ (exLo 0 + 1) * 2 ^ exCfg.bits := by decide +kernel
  exact Nat.le_trans h1 (Nat.mul_le_mul_right _ hj.1)

theorem allProper_cons {σ} {c : Cfg} {R : Range σ} {m : Mapping} {w : World σ} {e : Ev} {es : List Ev}
    (h : Proper c m w e) (h1 : AllProper c R m ((step c R (m.region c) w e).getD w) es) :
    AllProper c R m w (e :: es) := by
  refine ⟨h, fun w' hw' => ?_⟩
  rw [hw'] at h1
  exact h1

/-- A slab with its record, memory of `SharedMemoryRange`, a block of the host, and the slab given back: a proper
history, after which the child is alive. -/
def exEvents : List Ev :=
  [.alloc (some 0x5000) 0x8000 0x7f0000004020, .shared 0x4000, .hostAlloc 0x4000 0x1000 0x40,
    .free ⟨0x7f0000008000, 0x8000, some 0x5000, 0x7f0000004020⟩]

example : AllProper exCfg (buddyRange exCfg) (exMap 0) exWorld0 exEvents ∧
    (run exCfg (buddyRange exCfg) ((exMap 0).region exCfg) exWorld0 exEvents).isSome = true := by
  refine ⟨?_, by decide +kernel⟩
  refine allProper_cons ⟨⟨_, rfl⟩, exSize 15 (by decide), Or.inr (by decide +kernel), by decide +kernel⟩ ?_
  refine allProper_cons ⟨exSize 14 (by decide), Or.inl (by decide +kernel), by decide +kernel⟩ ?_
  refine allProper_cons ⟨exSize 14 (by decide), by decide⟩ ?_
  refine allProper_cons ?_ trivial
  show _ ∈ World.held (Option.getD _ _)
  decide +kernel

/-- The heap has no block of sixteen chunks: the child ends. -/
example : ((buddyRange exCfg).alloc exWorld0.st.rng exWorld0.st.pm (0x40000 : Word).toNat).1 = none ∧
    QueueOk exCfg (exMap 0) (exCfg.remoteOf 0).toNat ∧ exCfg.objSize 0 ≤ (0x40000 : Word).toNat ∧
    step exCfg (buddyRange exCfg) ((exMap 0).region exCfg) exWorld0 (.alloc (some 0x5000) 0x40000 0) = none :=
  ⟨by decide +kernel, Or.inl (by decide +kernel), by decide +kernel, by decide +kernel⟩

/-- A block given back over a closed socket, and one given back over a working one. -/
example :
    (deallocChunk exCfg (buddyRange exCfg) ((exMap 0).region exCfg) ⟨-1, 0⟩ exWorld0.st 0x5000 0x7f0000008000
      0x8000).1 = .fatal ∧
    (sharedAlloc exCfg (buddyRange exCfg) ((exMap 0).region exCfg) .up exWorld0.st 0x4000).1 ≠ .fatal :=
  ⟨((failure_ends_child _ _ _ _ _).2.2.2 _ _ _).2 (Or.inl (by decide)), by decide +kernel⟩

end Verif.ChildHeap
