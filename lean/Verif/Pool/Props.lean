import Verif.Pool.Spec

/-!
# The allocators of several threads of the sandbox (property C119)
-/

namespace Verif.Pool
open Verif.Records (upd)

variable {σ τ : Type}

/-- What holds between the steps of a run without overlap. -/
structure Inv (R : Rng σ) (good : Word → Prop) (I : σ → (Word → Prop) → (Word → Prop) → Prop) (J : τ → (Word → Prop) → Prop)
    (C : Word → Prop) (s : St σ τ) : Prop where
  rng : ∃ L, I s.rng C L ∧ ∀ x, L x ↔ (∃ t, s.pc t = .has x) ∨ x ∈ s.pool
  host : ∃ G, J s.host G ∧ ∀ x, G x ↔ C x ∨ s.others x = true ∨ ∃ t r, s.pc t = .asked r x
  sep : ∀ x, C x → s.others x = false
  seq : ∀ t r x, s.pc t = .asked r x → good x ∧ ¬ C x ∧ s.others x = false
  one : ∀ t u, (s.pc t).busy → (s.pc u).busy → t = u
  cur : ∀ t r, s.pc t = .inside r → r = s.rng
  cua : ∀ t r x, s.pc t = .asked r x → r = s.rng ∧ R.take r = none
  own : ∀ t u x, s.pc t = .has x → s.pc u = .has x → t = u
  off : ∀ t x, s.pc t = .has x → x ∉ s.pool
  nodup : s.pool.Nodup

theorem upd_get {α β : Type} [DecidableEq α] (f : α → β) (a : α) (b : β) (x : α) :
    upd f a b x = if x = a then b else f x := rfl

theorem inv_start {R : Rng σ} {good : Word → Prop} {I : σ → (Word → Prop) → (Word → Prop) → Prop} {J : τ → (Word → Prop) → Prop} {r : σ} {h : τ}
    (hr : I r (fun _ => False) (fun _ => False)) (hh : J h fun _ => False) :
    Inv R good I J (fun _ => False) (start r h) := by
  refine ⟨⟨_, hr, by simp [start]⟩, ⟨_, hh, by simp [start]⟩, ?_, ?_, ?_, ?_, ?_, ?_, ?_, ?_⟩ <;>
    simp [start, Pc.busy]

theorem same1 {I : σ → (Word → Prop) → (Word → Prop) → Prop} {s : σ} {C L L' : Word → Prop} (h : I s C L)
    (e : ∀ x, L x ↔ L' x) : I s C L' := by
  have : L = L' := funext fun x => propext (e x)
  exact this ▸ h

theorem inv_step {R : Rng σ} {H : Records.Rng τ} {good : Word → Prop} {inC : Word → Word → Prop}
    {I : σ → (Word → Prop) → (Word → Prop) → Prop} {J : τ → (Word → Prop) → Prop} (hR : Sound R good inC I)
    (hH : GoodHost H good J) {C : Word → Prop} {s s' : St σ τ} {a : Act} (g : Inv R good I J C s)
    (ho : ∀ t, a = .acquire t → s.pool = [] → ∀ u, ¬ (s.pc u).busy) (h : step R H s a = some s') :
    ∃ C', (∀ x, C x → C' x) ∧ Inv R good I J C' s' := by
  obtain ⟨L, g1, g1'⟩ := g.rng
  obtain ⟨G, g2, g2'⟩ := g.host
  unfold step at h
  split at h
  · cases h
  obtain ⟨-, -, sep, seq, one, cur, cua, own, off, nodup⟩ := g
  cases a with
  | acquire t =>
    have ho := ho t rfl
    simp only at h
    split at h
    · rename_i x xs hp hl
      cases h
      refine ⟨C, fun _ h => h, ⟨L, g1, ?_⟩, ⟨G, g2, ?_⟩, sep, ?_, ?_, ?_, ?_, ?_, ?_, ?_⟩
      all_goals simp only [upd_get]
      all_goals grind [Pc.busy]
    · rename_i hp hl
      cases h
      refine ⟨C, fun _ h => h, ⟨L, g1, ?_⟩, ⟨G, g2, ?_⟩, sep, ?_, ?_, ?_, ?_, ?_, ?_, ?_⟩
      all_goals simp only [upd_get]
      all_goals grind [Pc.busy]
    · cases h
  | go t =>
    clear ho
    simp only at h
    split at h
    · rename_i r hp
      split at h
      · rename_i x r' ht
        cases h
        obtain rfl := cur t r hp
        obtain ⟨n1, n2⟩ := hR.take g1 ht
        refine ⟨C, fun _ h => h, ⟨_, n2, ?_⟩, ⟨G, g2, ?_⟩, sep, ?_, ?_, ?_, ?_, ?_, ?_, ?_⟩
        all_goals simp only [upd_get]
        all_goals grind [Pc.busy]
      · rename_i ht
        split at h
        · rename_i c h' hc
          cases h
          obtain ⟨n1, n2⟩ := hH.sound.some g2 hc
          have n3 := hH.good g2 hc
          have n4 : ¬ C c ∧ s.others c = false := by grind
          refine ⟨C, fun _ h => h, ⟨L, g1, ?_⟩, ⟨_, n2, ?_⟩, sep, ?_, ?_, ?_, ?_, ?_, ?_, ?_⟩
          all_goals simp only [upd_get]
          · grind
          · intro x
            have := g2' x
            constructor
            · rintro (hG | rfl)
              · rcases this.1 hG with k | k | ⟨v, q, hv⟩
                · exact .inl k
                · exact .inr (.inl k)
                · refine .inr (.inr ⟨v, q, ?_⟩)
                  grind
              · exact .inr (.inr ⟨t, r, by simp⟩)
            · rintro (k | k | ⟨v, q, hv⟩)
              · exact .inl (this.2 (.inl k))
              · exact .inl (this.2 (.inr (.inl k)))
              · grind
          all_goals grind [Pc.busy]
        · rename_i h' hc
          cases h
          exact ⟨C, fun _ h => h, ⟨L, g1, g1'⟩, ⟨_, hH.sound.none g2 hc, g2'⟩, sep, seq, one, cur, cua, own, off, nodup⟩
    · rename_i r c hp
      cases h
      obtain ⟨rfl, ht⟩ := cua t r c hp
      obtain ⟨n1, n2⟩ := hR.fill g1 ht (seq t _ c hp).1 (seq t _ c hp).2.1
      refine ⟨_, fun _ h => Or.inl h, ⟨_, n2, ?_⟩, ⟨G, g2, ?_⟩, ?_, ?_, ?_, ?_, ?_, ?_, ?_, ?_⟩
      all_goals simp only [upd_get]
      all_goals grind [Pc.busy]
    · cases h
  | release t =>
    clear ho
    simp only at h
    split at h
    · rename_i x hp
      cases h
      refine ⟨C, fun _ h => h, ⟨L, g1, ?_⟩, ⟨G, g2, ?_⟩, sep, ?_, ?_, ?_, ?_, ?_, ?_, ?_⟩
      all_goals simp only [upd_get]
      all_goals grind [Pc.busy]
    · cases h
  | chunk =>
    clear ho
    simp only at h
    split at h
    · rename_i c h' hc
      cases h
      obtain ⟨n1, n2⟩ := hH.sound.some g2 hc
      have n3 := hH.good g2 hc
      refine ⟨C, fun _ h => h, ⟨L, g1, g1'⟩, ⟨_, n2, ?_⟩, ?_, ?_, one, cur, cua, own, off, nodup⟩
      all_goals simp only [upd_get]
      all_goals grind
    · rename_i h' hc
      cases h
      exact ⟨C, fun _ h => h, ⟨L, g1, g1'⟩, ⟨_, hH.sound.none g2 hc, g2'⟩, sep, seq, one, cur, cua, own, off, nodup⟩
  | unchunk c =>
    clear ho
    simp only at h
    split at h
    · rename_i hc
      cases h
      refine ⟨C, fun _ h => h, ⟨L, g1, g1'⟩, ⟨_, hH.sound.free g2 ((g2' c).2 (Or.inr (Or.inl hc))), ?_⟩, ?_, ?_, one, cur, cua, own, off, nodup⟩
      all_goals simp only [upd_get]
      all_goals grind
    · cases h

theorem inv_run {R : Rng σ} {H : Records.Rng τ} {good : Word → Prop} {inC : Word → Word → Prop}
    {I : σ → (Word → Prop) → (Word → Prop) → Prop} {J : τ → (Word → Prop) → Prop} (hR : Sound R good inC I)
    (hH : GoodHost H good J) : ∀ (as : List Act) {C : Word → Prop} {s s' : St σ τ}, Inv R good I J C s →
    SerialRun R H s as → run R H s as = some s' → ∃ C', (∀ x, C x → C' x) ∧ Inv R good I J C' s' := by
  intro as
  induction as with
  | nil => intro C s s' g _ h; cases h; exact ⟨C, fun _ h => h, g⟩
  | cons a as ih =>
    intro C s s' g ho h
    simp only [run] at h
    split at h
    · rename_i s1 h1
      obtain ⟨o1, o2⟩ := ho s1 h1
      obtain ⟨C1, k1, g1⟩ := inv_step hR hH g o1 h1
      obtain ⟨C2, k2, g2⟩ := ih g1 o2 h
      exact ⟨C2, fun x hx => k2 x (k1 x hx), g2⟩
    · cases h

/-- If no thread enters `allocator_range` while another is in it, every thread has an allocator of its own, which is not in
the pool, and none is in the pool twice: for every correct range, every host, every number of threads, and whatever the
threads do besides.  Missing: threads that enter at the same time (`shared_allocator`, `chunk_lost`). -/
theorem own_allocator_partial {R : Rng σ} {H : Records.Rng τ} {good : Word → Prop} {inC : Word → Word → Prop}
    {I : σ → (Word → Prop) → (Word → Prop) → Prop} {J : τ → (Word → Prop) → Prop} (hR : Sound R good inC I)
    (hH : GoodHost H good J) {r : σ} {h : τ} (hr : I r (fun _ => False) (fun _ => False)) (hh : J h fun _ => False)
    {as : List Act} {s : St σ τ} (ho : SerialRun R H (start r h) as) (hs : run R H (start r h) as = some s) :
    (∀ t u x, s.pc t = .has x → s.pc u = .has x → t = u) ∧ (∀ t x, s.pc t = .has x → x ∉ s.pool) ∧ s.pool.Nodup := by
  obtain ⟨C, -, g⟩ := inv_run hR hH as (inv_start hr hh) ho hs
  exact ⟨g.own, g.off, g.nodup⟩

/-- In such a run every allocator, used or in the pool, lies in a chunk that the host gave and that is used for nothing
else. -/
theorem allocator_in_chunk_partial {R : Rng σ} {H : Records.Rng τ} {good : Word → Prop} {inC : Word → Word → Prop}
    {I : σ → (Word → Prop) → (Word → Prop) → Prop} {J : τ → (Word → Prop) → Prop} (hR : Sound R good inC I)
    (hH : GoodHost H good J) {r : σ} {h : τ} (hr : I r (fun _ => False) (fun _ => False)) (hh : J h fun _ => False)
    {as : List Act} {s : St σ τ} (ho : SerialRun R H (start r h) as) (hs : run R H (start r h) as = some s) :
    ∃ G, J s.host G ∧ ∀ x, (∃ t, s.pc t = .has x) ∨ x ∈ s.pool → ∃ c, inC c x ∧ G c ∧ s.others c = false ∧
      ∀ t q, s.pc t ≠ .asked q c := by
  obtain ⟨C, -, g⟩ := inv_run hR hH as (inv_start hr hh) ho hs
  obtain ⟨L, g1, g1'⟩ := g.rng
  obtain ⟨G, g2, g2'⟩ := g.host
  refine ⟨G, g2, fun x hx => ?_⟩
  obtain ⟨c, c1, c2⟩ := hR.within g1 ((g1' x).2 hx)
  exact ⟨c, c2, (g2' c).2 (.inl c1), g.sep c c1, fun t q hq => (g.seq t q c hq).2.1 c1⟩

/-- Two threads that enter while the pool is empty and the range has a block left get the same allocator: from every state,
for every range and every host. -/
theorem shared_allocator (R : Rng σ) (H : Records.Rng τ) (s : St σ τ) {t u : Nat} (htu : t ≠ u) {x : Word} {r' : σ}
    (he : s.ended = false) (hp : s.pool = []) (ht : s.pc t = .bare) (hu : s.pc u = .bare)
    (hx : R.take s.rng = some (x, r')) :
    ∃ s', run R H s [.acquire t, .acquire u, .go t, .go u] = some s' ∧ s'.pc t = .has x ∧ s'.pc u = .has x ∧
      s'.ended = false := by
  have hut : u ≠ t := Ne.symm htu
  simp [run, step, he, hp, ht, hu, hx, upd_get, htu, hut]

/-- Two threads that enter while the range is empty and the host has two chunks left each get an allocator in a chunk of its
own, but the range forgets the first chunk: it is as if only the second had come, while the host still counts both as
given. -/
theorem chunk_lost {R : Rng σ} {H : Records.Rng τ} {good : Word → Prop} {inC : Word → Word → Prop}
    {I : σ → (Word → Prop) → (Word → Prop) → Prop} {J : τ → (Word → Prop) → Prop} (hR : Sound R good inC I)
    (hH : GoodHost H good J) {C : Word → Prop} {s : St σ τ} (g : Inv R good I J C s) {t u : Nat} (htu : t ≠ u)
    (he : s.ended = false) (hp : s.pool = []) (ht : s.pc t = .bare) (hu : s.pc u = .bare) (hx : R.take s.rng = none)
    {c d : Word} {h1 h2 : τ} (hc : H.alloc s.host = (some c, h1)) (hd : H.alloc h1 = (some d, h2)) :
    ∃ s' C' L' G, run R H s [.acquire t, .acquire u, .go t, .go u, .go t, .go u] = some s' ∧
      I s'.rng C' L' ∧ ¬ C' c ∧ J s'.host G ∧ G c ∧ s'.others c = false ∧ ∀ v q, s'.pc v ≠ .asked q c := by
  have hut : u ≠ t := Ne.symm htu
  obtain ⟨L, g1, g1'⟩ := g.rng
  obtain ⟨G, g2, g2'⟩ := g.host
  obtain ⟨n1, n2⟩ := hH.sound.some g2 hc
  obtain ⟨n3, n4⟩ := hH.sound.some n2 hd
  have nC : ¬ C c := fun h => n1 ((g2' c).2 (.inl h))
  have nD : ¬ C d := fun h => n3 (.inl ((g2' d).2 (.inl h)))
  obtain ⟨k1, k2⟩ := hR.fill g1 hx (hH.good n2 hd) nD
  have hcd : c ≠ d := fun h => n3 (.inr h.symm)
  refine ⟨_, _, _, _, by simp [run, step, he, hp, ht, hu, hx, hc, hd, upd_get, htu, hut]; rfl, k2, ?_, n4, ?_, ?_, ?_⟩
  · grind
  · simp
  · have := mt (fun h => (g2' c).2 (.inr (.inl h))) n1
    simpa using this
  · intro v q hq
    refine n1 ((g2' c).2 (.inr (.inr ⟨v, q, ?_⟩)))
    simp only [upd_get] at hq
    grind

/-- If only one thread ever wants an allocator, no other is ever in `allocator_range`. -/
theorem one_thread_serial (R : Rng σ) (H : Records.Rng τ) (t : Nat) : ∀ (as : List Act) (s : St σ τ),
    (∀ u, u ≠ t → s.pc u = .bare) → (∀ a ∈ as, ∀ u, a.wants = some u → u = t) → SerialRun R H s as := by
  intro as
  induction as with
  | nil => intro s _ _; trivial
  | cons a as ih =>
    intro s hs ha s' h
    have h0 := h
    unfold step at h
    split at h
    · cases h
    refine ⟨?_, ih s' ?_ fun b hb => ha b (List.mem_cons_of_mem _ hb)⟩
    · rintro v rfl hp u hu
      have hv := ha _ List.mem_cons_self v rfl
      subst hv
      have : s.pc v = .bare := by
        simp only at h
        split at h
        · assumption
        · assumption
        · cases h
      by_cases huv : u = v
      · subst huv; rw [this] at hu; exact hu
      · rw [hs u huv] at hu; exact hu
    · intro u hu
      have := hs u hu
      cases a with
      | acquire v =>
        have hv := ha _ List.mem_cons_self v rfl
        subst hv
        simp only at h
        split at h <;> cases h <;> simp [upd_get, hu, this]
      | go v =>
        by_cases hv : u = v
        · subst hv; simp [this] at h
        · simp only at h
          (repeat' split at h) <;> cases h <;> simp [upd_get, hv, this]
      | release v =>
        by_cases hv : u = v
        · subst hv; simp [this] at h
        · simp only at h
          split at h <;> cases h <;> simp [upd_get, hv, this]
      | chunk =>
        simp only at h
        split at h <;> cases h <;> exact this
      | unchunk c =>
        simp only at h
        split at h <;> cases h
        exact this

/-- So in a sandbox in which one thread allocates, that thread's allocator is never in the pool, for every run. -/
theorem one_thread_owns {R : Rng σ} {H : Records.Rng τ} {good : Word → Prop} {inC : Word → Word → Prop}
    {I : σ → (Word → Prop) → (Word → Prop) → Prop} {J : τ → (Word → Prop) → Prop} (hR : Sound R good inC I)
    (hH : GoodHost H good J) {r : σ} {h : τ} (hr : I r (fun _ => False) (fun _ => False)) (hh : J h fun _ => False)
    {as : List Act} {s : St σ τ} {t : Nat} (ha : ∀ a ∈ as, ∀ u, a.wants = some u → u = t)
    (hs : run R H (start r h) as = some s) : (∀ x, s.pc t = .has x → x ∉ s.pool) ∧ s.pool.Nodup :=
  have k := own_allocator_partial hR hH hr hh (one_thread_serial R H t as _ (fun _ _ => rfl) ha) hs
  ⟨k.2.1 t, k.2.2⟩

/-! ## Examples -/

/-- Two threads one after the other: each has its own, and one comes from the pool the second time. -/
example : ∃ s, run pairs Records.stack (start [] [100, 200])
      [.acquire 1, .go 1, .chunk, .go 1, .acquire 2, .go 2, .release 1, .acquire 3] = some s ∧
    SerialRun pairs Records.stack (start [] [100, 200])
      [.acquire 1, .go 1, .chunk, .go 1, .acquire 2, .go 2, .release 1, .acquire 3] ∧
    s.pc 1 = .bare ∧ s.pc 2 = .has 101 ∧ s.pc 3 = .has 100 ∧ s.others 200 = true ∧
    pairsInv [] (fun _ => False) (fun _ => False) ∧ evenInv [100, 200] (fun _ => False) := by
  refine ⟨_, rfl, ?_, rfl, rfl, rfl, rfl, ?_, ?_⟩
  · iterate 8
      intro s' h
      cases Option.some.inj h
      refine ⟨?_, ?_⟩
      · intro t ht hp u
        cases ht <;> by_cases h1 : u = 1 <;> by_cases h2 : u = 2 <;> simp_all [start, upd_get, Pc.busy]
    trivial
  · simp [pairsInv]
  · simp [evenInv, Records.stackInv, even]

/-- Two threads that enter at the same time while a block is left share it. -/
example : ∃ s, run pairs Records.stack (start [] [100, 200])
      [.acquire 1, .go 1, .go 1, .acquire 2, .acquire 3, .go 2, .go 3] = some s ∧
    s.pc 1 = .has 100 ∧ s.pc 2 = .has 101 ∧ s.pc 3 = .has 101 := ⟨_, rfl, rfl, rfl, rfl⟩

/-- Two that enter while nothing is left each get one, and the other half of the first chunk is lost. -/
example : ∃ s, run pairs Records.stack (start [] [100, 200])
      [.acquire 1, .acquire 2, .go 1, .go 2, .go 1, .go 2] = some s ∧
    s.pc 1 = .has 100 ∧ s.pc 2 = .has 200 ∧ s.rng = [201] := ⟨_, rfl, rfl, rfl, rfl⟩

/-- One thread. -/
example : ∃ s, run pairs Records.stack (start [] [100, 200]) [.acquire 1, .go 1, .go 1, .release 1, .acquire 1, .chunk, .chunk]
      = some s ∧ s.pc 1 = .has 100 ∧ s.ended = true := ⟨_, rfl, rfl, rfl⟩

end Verif.Pool
