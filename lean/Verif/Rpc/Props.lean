import Verif.Rpc.BuddyLemmas

/-!
# The memory service (properties C22 to C26)
-/

namespace Verif.Rpc

open Verif.Bounds Spec

/-! ## Validation of requests -/

/-- **C22.** A chunk allocation request is granted exactly if its size is a power of two of at least
a chunk, the message queue it names is null or an object inside the heap (never the host's own
queue, which is in the header), the object size it names is at most the chunk size, and the range
allocator has memory; if it is not granted, nothing changes. -/
theorem alloc_decided {σ} (c : Cfg) (R : Range σ) (m : Mapping) (hm : MapOk c m) {Inv : σ → Prop}
    (hR : Contained c R m.base.toNat (m.base.toNat + m.size.toNat) Inv) (s : σ) (pm : Pm) (q : Req)
    (hs : Inv s) (hk : q.kind = 0) :
    ((serve c R (m.region c) s pm q).1.error = 0 ↔
      ChunkSize (2 ^ c.bits) q.a0.toNat ∧
      (c.remoteOf q.a2 = 0 ∨
        m.base.toNat + 2 * c.hdr.toNat ≤ (c.remoteOf q.a2).toNat ∧
        (c.remoteOf q.a2).toNat < m.base.toNat + m.size.toNat ∧
        (c.remoteOf q.a2).toNat + c.remoteSize.toNat ≤ m.base.toNat + m.size.toNat) ∧
      c.objSize q.a2 ≤ q.a0.toNat ∧ (R.alloc s pm q.a0.toNat).1 ≠ none) ∧
    ((serve c R (m.region c) s pm q).1.error ≠ 0 →
      (serve c R (m.region c) s pm q).1.ret = 0 ∧ (serve c R (m.region c) s pm q).2 = (s, pm)) := by
  have hv : metaValid c (m.region c) q.a0 ⟨q.a1, q.a2⟩ = true ↔
      (c.remoteOf q.a2 = 0 ∨
        m.base.toNat + 2 * c.hdr.toNat ≤ (c.remoteOf q.a2).toNat ∧
        (c.remoteOf q.a2).toNat < m.base.toNat + m.size.toNat ∧
        (c.remoteOf q.a2).toNat + c.remoteSize.toNat ≤ m.base.toNat + m.size.toNat) ∧
      c.objSize q.a2 ≤ q.a0.toNat := by
    simp only [metaValid, Bool.and_eq_true, Bool.or_eq_true, decide_eq_true_eq,
      region_contains c m hm]
  have h3 : (3 : Word) ≠ 0 := by decide
  have h1 : (1 : Word) ≠ 0 := by decide
  have h2 : (2 : Word) ≠ 0 := by decide
  rw [serve, if_pos hk, serveAlloc]
  split
  · rename_i hbad
    have : ¬ ChunkSize (2 ^ c.bits) q.a0.toNat := fun h => (chunkSize_iff c q.a0).2 h hbad
    refine ⟨⟨fun h => absurd h h3, fun h => absurd h.1 this⟩, fun _ => ⟨rfl, rfl⟩⟩
  · rename_i hok
    have hsz := (chunkSize_iff c q.a0).1 hok
    split
    · rename_i hbad
      rw [← Bool.not_eq_true, hv] at hbad
      refine ⟨⟨fun h => absurd h h1, fun h => absurd ⟨h.2.1, h.2.2.1⟩ hbad⟩, fun _ => ⟨rfl, rfl⟩⟩
    · rename_i hgood
      rw [Bool.not_eq_false, hv] at hgood
      have hn := hR.alloc_none s pm q.a0.toNat hs hsz
      rcases hr : R.alloc s pm q.a0.toNat with ⟨_ | p, s', pm'⟩
      · rw [hr] at hn
        have hn := hn rfl
        refine ⟨⟨fun h => absurd h h2, fun h => absurd rfl h.2.2.2⟩, fun _ => ⟨rfl, hn⟩⟩
      · refine ⟨⟨fun _ => ⟨hsz, hgood.1, hgood.2, by simp⟩, fun _ => rfl⟩, fun h => absurd rfl h⟩

/-- **C22.** When a chunk allocation request is granted, the block returned is chunk aligned and
inside the sandbox's mapping; exactly its page-map entries hold the requested words with the sandbox
bit set; and any other entry is unchanged, or lies in the same mapping and is not sandbox-owned. -/
theorem alloc_claims {σ} (c : Cfg) (R : Range σ) (m : Mapping) (hm : MapOk c m) {Inv : σ → Prop}
    (hR : Contained c R m.base.toNat (m.base.toNat + m.size.toNat) Inv) (s : σ) (pm : Pm) (q : Req)
    (hs : Inv s) (hk : q.kind = 0) (hok : (serve c R (m.region c) s pm q).1.error = 0) :
    let o := serve c R (m.region c) s pm q
    BlockIn (2 ^ c.bits) m.base.toNat (m.base.toNat + m.size.toNat) o.1.ret.toNat q.a0.toNat ∧
    Inv o.2.1 ∧
    (∀ j, Covers (2 ^ c.bits) o.1.ret.toNat q.a0.toNat j →
      o.2.2 j = ⟨q.a1 ||| 8, q.a2⟩ ∧ Owned o.2.2 j) ∧
    (∀ j, ¬ Covers (2 ^ c.bits) o.1.ret.toNat q.a0.toNat j →
      o.2.2 j = (R.alloc s pm q.a0.toNat).2.2 j ∧
      (o.2.2 j = pm j ∨ (InMap (2 ^ c.bits) m j ∧ ¬ Owned o.2.2 j))) ∧
    (R.alloc s pm q.a0.toNat).1 = some o.1.ret.toNat ∧ o.2.1 = (R.alloc s pm q.a0.toNat).2.1 := by
  have hd := (alloc_decided c R m hm hR s pm q hs hk).1.1 hok
  obtain ⟨hsz, h2, h3, h4⟩ := hd
  rcases hr : R.alloc s pm q.a0.toNat with ⟨_ | p, s', pm'⟩
  · rw [hr] at h4; exact absurd rfl h4
  · have hin := hR.alloc_in s pm q.a0.toNat p hs hsz (by rw [hr])
    have hfr := fun j => hR.alloc_frame s pm q.a0.toNat j hs hsz
    have hinv := hR.alloc_inv s pm q.a0.toNat hs hsz
    rw [hr] at hinv
    have he : serve c R (m.region c) s pm q = (⟨0, BitVec.ofNat 64 p⟩, s',
        setMeta c pm' p (p + q.a0.toNat) (Entry.claimForSandbox ⟨q.a1, q.a2⟩)) := by
      rw [serve, if_pos hk, serveAlloc, if_neg ((chunkSize_iff c q.a0).2 hsz), if_neg, hr]
      rw [Bool.not_eq_false]
      simp only [metaValid, Bool.and_eq_true, Bool.or_eq_true, decide_eq_true_eq,
        region_contains c m hm]
      exact ⟨h2, h3⟩
    have hp : (BitVec.ofNat 64 p).toNat = p := by
      have h5 := hin.2.2.2
      have h6 := hm.no_wrap
      rw [BitVec.toNat_ofNat, Nat.mod_eq_of_lt (by omega)]
    simp only [he, hp]
    refine ⟨hin, hinv, ?_, ?_, trivial, trivial⟩
    · intro j hj
      unfold Owned
      rw [setMeta_block c _ _ _ _ _ hin.2.1 (chunkSize_dvd hsz), if_pos hj]
      exact ⟨rfl, claim_owned _⟩
    · intro j hj
      unfold Owned
      rw [setMeta_block c _ _ _ _ _ hin.2.1 (chunkSize_dvd hsz), if_neg hj]
      refine ⟨rfl, ?_⟩
      by_cases hne : pm' j = pm j
      · exact Or.inl hne
      · right
        have := hfr j
        rw [hr] at this
        have h7 := this hne
        unfold InMap
        rw [Nat.add_sub_cancel_left] at h7
        exact h7

/-- **C23.** A release request is granted exactly if the block is inside the heap (behind two
headers), its size is a power of two of at least a chunk, its address is chunk aligned, and every
chunk of it is sandbox-owned; if it is not granted, nothing changes. -/
theorem dealloc_decided {σ} (c : Cfg) (R : Range σ) (m : Mapping) (hm : MapOk c m) (s : σ) (pm : Pm)
    (q : Req) (hk : q.kind = 1) :
    ((serve c R (m.region c) s pm q).1.error = 0 ↔
      m.base.toNat + 2 * c.hdr.toNat ≤ q.a0.toNat ∧
      q.a0.toNat + q.a1.toNat ≤ m.base.toNat + m.size.toNat ∧
      ChunkSize (2 ^ c.bits) q.a1.toNat ∧ 2 ^ c.bits ∣ q.a0.toNat ∧
      ∀ j, Covers (2 ^ c.bits) q.a0.toNat q.a1.toNat j → Owned pm j) ∧
    (serve c R (m.region c) s pm q).1.ret = 0 ∧
    ((serve c R (m.region c) s pm q).1.error ≠ 0 →
      (serve c R (m.region c) s pm q).2 = (s, pm)) ∧
    ((serve c R (m.region c) s pm q).1.error = 0 →
      (serve c R (m.region c) s pm q).2 = deallocRange c R s pm q.a0.toNat q.a1.toNat) := by
  have h1 : (1 : Word) ≠ 0 := by decide
  have h2 : (2 : Word) ≠ 0 := by decide
  have h3 : (3 : Word) ≠ 0 := by decide
  have h4 : (4 : Word) ≠ 0 := by decide
  have ec : c.chunk = 2 ^ c.bits := rfl
  have hC : 0 < 2 ^ c.bits := Nat.two_pow_pos _
  have h01 : ¬ q.kind = 0 := by rw [hk]; decide
  rw [serve, if_neg h01, if_pos hk, serveDealloc, ec]
  split
  · rename_i hc
    rw [← Bool.not_eq_true, region_contains c m hm] at hc
    refine ⟨⟨fun h => absurd h h1, fun h => absurd ⟨h.1, ?_, h.2.1⟩ hc⟩, rfl, fun _ => rfl,
      fun h => absurd h h1⟩
    have := h.2.2.1.1
    have := h.2.1
    omega
  · rename_i hc
    rw [Bool.not_eq_false, region_contains c m hm] at hc
    split
    · rename_i hsz
      rw [← ec, chunkSize_iff'] at hsz
      exact ⟨⟨fun h => absurd h h2, fun h => absurd h.2.2.1 hsz⟩, rfl, fun _ => rfl,
        fun h => absurd h h2⟩
    · rename_i hsz
      rw [Decidable.not_not, ← ec, chunkSize_iff'] at hsz
      split
      · rename_i hal
        exact ⟨⟨fun h => absurd h h3, fun h => absurd (Nat.mod_eq_zero_of_dvd h.2.2.2.1) hal⟩, rfl,
          fun _ => rfl, fun h => absurd h h3⟩
      · rename_i hal
        rw [Decidable.not_not] at hal
        have hal := Nat.dvd_of_mod_eq_zero hal
        split
        · rename_i hown
          rw [← Bool.not_eq_true, allOwned_block c pm _ _ hal (chunkSize_dvd hsz)] at hown
          exact ⟨⟨fun h => absurd h h4, fun h => absurd h.2.2.2.2 hown⟩, rfl, fun _ => rfl,
            fun h => absurd h h4⟩
        · rename_i hown
          rw [Bool.not_eq_false, allOwned_block c pm _ _ hal (chunkSize_dvd hsz)] at hown
          exact ⟨⟨fun _ => ⟨hc.1, hc.2.2, hsz, hal, hown⟩, fun _ => rfl⟩, rfl,
            fun h => absurd rfl h, fun _ => rfl⟩

theorem deallocRange_frame {σ} (c : Cfg) (R : Range σ) {lo hi : Nat} {Inv : σ → Prop}
    (hR : Contained c R lo hi Inv) (hbe : c.backendEntry.word.getLsbD 3 = false) (s : σ) (pm : Pm)
    (p n : Nat) (hs : Inv s) (hb : BlockIn (2 ^ c.bits) lo hi p n) :
    Inv (deallocRange c R s pm p n).1 ∧
    (∀ j, Covers (2 ^ c.bits) p n j → ¬ Owned (deallocRange c R s pm p n).2 j) ∧
    ∀ j, (deallocRange c R s pm p n).2 j ≠ pm j →
      Covers (2 ^ c.bits) lo (hi - lo) j ∧ ¬ Owned (deallocRange c R s pm p n).2 j := by
  have hC : 0 < 2 ^ c.bits := Nat.two_pow_pos _
  have hset := fun j => setMeta_block c c.backendEntry pm p n j hb.2.1 (chunkSize_dvd hb.1)
  have hfr := fun j => hR.dealloc_frame s (setMeta c pm p (p + n) c.backendEntry) p n j hs hb
  have hown : ∀ j, Covers (2 ^ c.bits) p n j → ¬ Owned (deallocRange c R s pm p n).2 j := by
    intro j hj
    by_cases he : (deallocRange c R s pm p n).2 j = setMeta c pm p (p + n) c.backendEntry j
    · unfold Owned
      rw [he, hset, if_pos hj, hbe]; simp
    · exact (hfr j he).2
  refine ⟨hR.dealloc_inv s _ p n hs hb, hown, ?_⟩
  intro j hne
  by_cases hj : Covers (2 ^ c.bits) p n j
  · refine ⟨?_, hown j hj⟩
    have h1 := hb.2.2
    unfold Covers at hj ⊢
    omega
  · apply hfr j
    rw [hset, if_neg hj]
    exact hne

/-- **C23.** When a release is granted none of its chunks is sandbox-owned any more, and any other
entry is unchanged, or lies in the same mapping and is not sandbox-owned. -/
theorem dealloc_clears {σ} (c : Cfg) (R : Range σ) (m : Mapping) (hm : MapOk c m) {Inv : σ → Prop}
    (hR : Contained c R m.base.toNat (m.base.toNat + m.size.toNat) Inv)
    (hbe : c.backendEntry.word.getLsbD 3 = false) (s : σ) (pm : Pm) (q : Req)
    (hs : Inv s) (hk : q.kind = 1) (hok : (serve c R (m.region c) s pm q).1.error = 0) :
    let o := serve c R (m.region c) s pm q
    Inv o.2.1 ∧
    (∀ j, Covers (2 ^ c.bits) q.a0.toNat q.a1.toNat j → ¬ Owned o.2.2 j) ∧
    ∀ j, o.2.2 j = pm j ∨ (InMap (2 ^ c.bits) m j ∧ ¬ Owned o.2.2 j) := by
  obtain ⟨hd, -, -, he⟩ := dealloc_decided c R m hm s pm q hk
  obtain ⟨h1, h2, h3, h4, h5⟩ := hd.1 hok
  have hb : BlockIn (2 ^ c.bits) m.base.toNat (m.base.toNat + m.size.toNat) q.a0.toNat
      q.a1.toNat := ⟨h3, h4, by omega, h2⟩
  obtain ⟨f1, f2, f3⟩ := deallocRange_frame c R hR hbe s pm _ _ hs hb
  simp only [he hok]
  refine ⟨f1, f2, ?_⟩
  intro j
  by_cases hne : (deallocRange c R s pm q.a0.toNat q.a1.toNat).2 j = pm j
  · exact Or.inl hne
  · right
    have := f3 j hne
    rwa [Nat.add_sub_cancel_left] at this

/-! ## Many sandboxes -/

/-- The standing assumptions about a family of sandboxes: proper mappings, and range allocators that
stay inside their mapping. -/
structure World {σ} (c : Cfg) (R : Range σ) (maps : Nat → Mapping) (Inv : Nat → σ → Prop) :
    Prop where
  maps_ok : ∀ i, MapOk c (maps i)
  contained : ∀ i, Contained c R (maps i).base.toNat
    ((maps i).base.toNat + (maps i).size.toNat) (Inv i)
  backend : c.backendEntry.word.getLsbD 3 = false

theorem step_frame {σ} (c : Cfg) (R : Range σ) (maps : Nat → Mapping) (Inv : Nat → σ → Prop)
    (hw : World c R maps Inv) (st : Sys σ) (op : Op) (hs : ∀ i, Inv i (st.ranges i))
    (hop : HostSane (2 ^ c.bits) maps op) :
    (∀ i, Inv i ((step c R maps st op).2.ranges i)) ∧
    (∀ j, (step c R maps st op).2.pm j ≠ st.pm j → InMap (2 ^ c.bits) (maps (sandboxOf op)) j) ∧
    (∀ j, Owned (step c R maps st op).2.pm j → ¬ Owned st.pm j →
      ∃ i q p, op = .rpc i q ∧ (step c R maps st op).1 = some p ∧
        Covers (2 ^ c.bits) p q.a0.toNat j ∧ InMap (2 ^ c.bits) (maps i) j) := by
  have put_inv : ∀ i s pm, Inv i s → ∀ k, Inv k ((st.put i s pm).ranges k) := by
    intro i s pm h k
    simp only [Sys.put]
    split
    · rename_i hk; rw [hk]; exact h
    · exact hs k
  have same : ∀ i s pm, Inv i s → (∀ j, pm j = st.pm j ∨ (InMap (2 ^ c.bits) (maps i) j ∧
        ¬ Owned pm j)) → (∀ k, Inv k ((st.put i s pm).ranges k)) ∧
      (∀ j, (st.put i s pm).pm j ≠ st.pm j → InMap (2 ^ c.bits) (maps i) j) ∧
      (∀ j, Owned (st.put i s pm).pm j → ¬ Owned st.pm j → False) := by
    intro i s pm h hj
    refine ⟨put_inv i s pm h, ?_, ?_⟩
    · intro j hne
      rcases hj j with h1 | h1
      · exact absurd h1 hne
      · exact h1.1
    · intro j h1 h2
      rcases hj j with h3 | h3
      · apply h2; unfold Owned at h1 ⊢; rw [← h3]; exact h1
      · exact h3.2 h1
  cases op with
  | rpc i q =>
    have hm := hw.maps_ok i
    have hR := hw.contained i
    simp only [step, sandboxOf]
    by_cases h0 : q.kind = 0
    · by_cases he : (serve c R ((maps i).region c) (st.ranges i) st.pm q).1.error = 0
      · obtain ⟨a1, a2, a3, a4, -⟩ := alloc_claims c R (maps i) hm hR _ st.pm q (hs i) h0 he
        refine ⟨put_inv i _ _ a2, ?_, ?_⟩
        · intro j hne
          by_cases hj : Covers (2 ^ c.bits) (serve c R ((maps i).region c) (st.ranges i) st.pm
              q).1.ret.toNat q.a0.toNat j
          · have h1 := a1.2.2
            unfold InMap Covers at *
            omega
          · rcases (a4 j hj).2 with h1 | h1
            · exact absurd h1 hne
            · exact h1.1
        · intro j ho hn
          by_cases hj : Covers (2 ^ c.bits) (serve c R ((maps i).region c) (st.ranges i) st.pm
              q).1.ret.toNat q.a0.toNat j
          · refine ⟨i, q, _, rfl, by rw [if_pos ⟨h0, he⟩], hj, ?_⟩
            have h1 := a1.2.2
            unfold InMap Covers at *
            omega
          · rcases (a4 j hj).2 with h1 | h1
            · exfalso; apply hn; unfold Owned at ho ⊢; rw [← h1]; exact ho
            · exact absurd ho h1.2
      · obtain ⟨-, h2⟩ := (alloc_decided c R (maps i) hm hR _ st.pm q (hs i) h0).2 he
        rw [h2]
        obtain ⟨x1, x2, x3⟩ := same i (st.ranges i) st.pm (hs i) (fun j => Or.inl rfl)
        exact ⟨x1, x2, fun j h3 h4 => absurd (x3 j h3 h4) id⟩
    · by_cases h1 : q.kind = 1
      · by_cases he : (serve c R ((maps i).region c) (st.ranges i) st.pm q).1.error = 0
        · obtain ⟨a1, a2, a3⟩ :=
            dealloc_clears c R (maps i) hm hR hw.backend _ st.pm q (hs i) h1 he
          obtain ⟨x1, x2, x3⟩ := same i _ _ a1 a3
          exact ⟨x1, x2, fun j h3 h4 => absurd (x3 j h3 h4) id⟩
        · have h2 := (dealloc_decided c R (maps i) hm (st.ranges i) st.pm q h1).2.2.1 he
          rw [h2]
          obtain ⟨x1, x2, x3⟩ := same i (st.ranges i) st.pm (hs i) (fun j => Or.inl rfl)
          exact ⟨x1, x2, fun j h3 h4 => absurd (x3 j h3 h4) id⟩
      · have h2 : serve c R ((maps i).region c) (st.ranges i) st.pm q =
            (⟨0, 0⟩, st.ranges i, st.pm) := by rw [serve, if_neg h0, if_neg h1]
        rw [h2]
        obtain ⟨x1, x2, x3⟩ := same i (st.ranges i) st.pm (hs i) (fun j => Or.inl rfl)
        exact ⟨x1, x2, fun j h3 h4 => absurd (x3 j h3 h4) id⟩
  | hostAlloc i size slab ras =>
    have hR := hw.contained i
    simp only [step, sandboxOf, hostAlloc]
    obtain ⟨hsz, hbit⟩ := hop
    have b1 := hR.alloc_inv (st.ranges i) st.pm size (hs i) hsz
    have b2 := fun j => hR.alloc_frame (st.ranges i) st.pm size j (hs i) hsz
    have b3 := fun p => hR.alloc_in (st.ranges i) st.pm size p (hs i) hsz
    rcases hr : R.alloc (st.ranges i) st.pm size with ⟨_ | p, s', pm'⟩
    · rw [hr] at b1 b2
      simp only at b1 b2 ⊢
      obtain ⟨x1, x2, x3⟩ := same i s' pm' b1 (fun j => by
        by_cases h : pm' j = st.pm j
        · exact Or.inl h
        · have := b2 j h
          rw [Nat.add_sub_cancel_left] at this
          exact Or.inr this)
      exact ⟨x1, x2, fun j h3 h4 => absurd (x3 j h3 h4) id⟩
    · rw [hr] at b1 b2 b3
      have b3 := b3 p rfl
      simp only at b1 b2 ⊢
      obtain ⟨x1, x2, x3⟩ := same i s' (setMeta c pm' p (p + size) ⟨slab, ras⟩) b1 (fun j => by
        unfold Owned
        rw [setMeta_block c _ _ _ _ _ b3.2.1 (chunkSize_dvd hsz)]
        split
        · rename_i hj
          right
          refine ⟨?_, by rw [hbit]; exact Bool.false_ne_true⟩
          have h1 := b3.2.2
          unfold InMap Covers at *
          omega
        · by_cases h : pm' j = st.pm j
          · exact Or.inl h
          · have := b2 j h
            rw [Nat.add_sub_cancel_left] at this
            exact Or.inr this)
      exact ⟨x1, x2, fun j h3 h4 => absurd (x3 j h3 h4) id⟩
  | hostFree i p size =>
    have hR := hw.contained i
    simp only [step, sandboxOf, hostFree]
    obtain ⟨f1, f2, f3⟩ := deallocRange_frame c R hR hw.backend _ st.pm p size (hs i) hop
    obtain ⟨x1, x2, x3⟩ := same i _ _ f1 (fun j => by
      by_cases h : (deallocRange c R (st.ranges i) st.pm p size).2 j = st.pm j
      · exact Or.inl h
      · have := f3 j h
        rw [Nat.add_sub_cancel_left] at this
        exact Or.inr this)
    exact ⟨x1, x2, fun j h3 h4 => absurd (x3 j h3 h4) id⟩

theorem runOps_inv {σ} (c : Cfg) (R : Range σ) (maps : Nat → Mapping) (Inv : Nat → σ → Prop)
    (hw : World c R maps Inv) : ∀ (ops : List Op) (st : Sys σ), (∀ i, Inv i (st.ranges i)) →
    (∀ op ∈ ops, HostSane (2 ^ c.bits) maps op) →
    ∀ i, Inv i ((runOps c R maps st ops).2.ranges i) := by
  intro ops
  induction ops with
  | nil => intro st hs _; exact hs
  | cons op ops ih =>
    intro st hs hop
    simp only [runOps]
    exact ih _ (step_frame c R maps Inv hw st op hs (hop op (by simp))).1
      (fun o ho => hop o (by simp [ho]))

/-- **C24.** In every state reachable by any interleaving of requests of all sandboxes and of host
operations, a request of sandbox `i` changes no page-map entry outside the mapping of `i`. -/
theorem request_confined {σ} (c : Cfg) (R : Range σ) (maps : Nat → Mapping) (Inv : Nat → σ → Prop)
    (hw : World c R maps Inv) (st : Sys σ) (hs : ∀ i, Inv i (st.ranges i)) (ops : List Op)
    (hops : ∀ op ∈ ops, HostSane (2 ^ c.bits) maps op) (i : Nat) (q : Req) (j : Nat)
    (hj : ¬ InMap (2 ^ c.bits) (maps i) j) :
    (step c R maps (runOps c R maps st ops).2 (.rpc i q)).2.pm j =
      (runOps c R maps st ops).2.pm j := by
  have hinv := runOps_inv c R maps Inv hw ops st hs hops
  have := (step_frame c R maps Inv hw _ (.rpc i q) hinv True.intro).2.1 j
  by_cases h : (step c R maps (runOps c R maps st ops).2 (.rpc i q)).2.pm j =
      (runOps c R maps st ops).2.pm j
  · exact h
  · exact absurd (this h) hj

/-- **C24.** As long as only sandboxes whose mapping is disjoint from that of `k` act, and the host
on their behalf, no page-map entry of `k` changes. -/
theorem others_unchanged {σ} (c : Cfg) (R : Range σ) (maps : Nat → Mapping) (Inv : Nat → σ → Prop)
    (hw : World c R maps Inv) (k : Nat) (j : Nat) (hj : InMap (2 ^ c.bits) (maps k) j) :
    ∀ (ops : List Op) (st : Sys σ),
    (∀ i, Inv i (st.ranges i)) → (∀ op ∈ ops, HostSane (2 ^ c.bits) maps op) →
    (∀ op ∈ ops, ∀ j, InMap (2 ^ c.bits) (maps k) j →
      ¬ InMap (2 ^ c.bits) (maps (sandboxOf op)) j) →
    (runOps c R maps st ops).2.pm j = st.pm j := by
  intro ops
  induction ops with
  | nil => intro st _ _ _; rfl
  | cons op ops ih =>
    intro st hs hop hk
    simp only [runOps]
    obtain ⟨f1, f2, -⟩ := step_frame c R maps Inv hw st op hs (hop op (by simp))
    rw [ih _ f1 (fun o ho => hop o (by simp [ho])) (fun o ho => hk o (by simp [ho]))]
    by_cases h : (step c R maps st op).2.pm j = st.pm j
    · exact h
    · exact absurd (f2 j h) (hk op (by simp) j hj)

/-- **C24.** Sandbox-owned entries exist only where some sandbox was granted a block: if no entry was
sandbox-owned at the start and chunk `j` is now, then some request of some sandbox `i` was granted a
block containing `j`, and `j` lies in the mapping of `i`. -/
theorem owned_was_granted {σ} (c : Cfg) (R : Range σ) (maps : Nat → Mapping) (Inv : Nat → σ → Prop)
    (hw : World c R maps Inv) (j : Nat) : ∀ (ops : List Op) (st : Sys σ),
    (∀ i, Inv i (st.ranges i)) → (∀ op ∈ ops, HostSane (2 ^ c.bits) maps op) →
    ¬ Owned st.pm j → Owned (runOps c R maps st ops).2.pm j →
    ∃ i q p, (Op.rpc i q, some p) ∈ ops.zip (runOps c R maps st ops).1 ∧
      Covers (2 ^ c.bits) p q.a0.toNat j ∧ InMap (2 ^ c.bits) (maps i) j := by
  intro ops
  induction ops with
  | nil => intro st _ _ h1 h2; exact absurd h2 h1
  | cons op ops ih =>
    intro st hs hop h1 h2
    simp only [runOps] at h2 ⊢
    obtain ⟨f1, -, f3⟩ := step_frame c R maps Inv hw st op hs (hop op (by simp))
    by_cases ho : Owned (step c R maps st op).2.pm j
    · obtain ⟨i, q, p, e1, e2, e3, e4⟩ := f3 j ho h1
      subst e1
      exact ⟨i, q, p, by rw [e2]; simp, e3, e4⟩
    · obtain ⟨i, q, p, e1, e2⟩ := ih _ f1 (fun o h => hop o (by simp [h])) ho h2
      exact ⟨i, q, p, by rw [List.zip_cons_cons]; exact List.mem_cons_of_mem _ e1, e2⟩

/-- **C23.** Once released, a chunk cannot be released again by any sandbox until a request was
granted a block containing it: in between, every release request that touches it is refused. -/
theorem release_once {σ} (c : Cfg) (R : Range σ) (maps : Nat → Mapping) (Inv : Nat → σ → Prop)
    (hw : World c R maps Inv) (st : Sys σ) (hs : ∀ i, Inv i (st.ranges i)) (i : Nat) (q : Req)
    (hq : q.kind = 1)
    (hok : (serve c R ((maps i).region c) (st.ranges i) st.pm q).1.error = 0)
    (j : Nat) (hj : Covers (2 ^ c.bits) q.a0.toNat q.a1.toNat j) (ops : List Op)
    (hops : ∀ op ∈ ops, HostSane (2 ^ c.bits) maps op)
    (hno : ∀ k q' p, (Op.rpc k q', some p) ∈ ops.zip
      (runOps c R maps (step c R maps st (.rpc i q)).2 ops).1 →
      ¬ Covers (2 ^ c.bits) p q'.a0.toNat j)
    (k : Nat) (q' : Req) (hq' : q'.kind = 1)
    (hj' : Covers (2 ^ c.bits) q'.a0.toNat q'.a1.toNat j) :
    let st' := (runOps c R maps (step c R maps st (.rpc i q)).2 ops).2
    (serve c R ((maps k).region c) (st'.ranges k) st'.pm q').1.error ≠ 0 := by
  intro st' he
  have h1 := (dealloc_clears c R (maps i) (hw.maps_ok i) (hw.contained i) hw.backend _ st.pm q
    (hs i) hq hok).2.1 j hj
  have h2 : ¬ Owned (step c R maps st (.rpc i q)).2.pm j := h1
  have h3 := ((dealloc_decided c R (maps k) (hw.maps_ok k) (st'.ranges k) st'.pm q' hq').1.1
    he).2.2.2.2 j hj'
  obtain ⟨a, b, p, e1, e2, -⟩ := owned_was_granted c R maps Inv hw j ops _
    (step_frame c R maps Inv hw st (.rpc i q) hs True.intro).1 hops h2 h3
  exact hno a b p e1 e2

/-! ## No chunk is handed out twice -/

/-- The standing assumptions for exact bookkeeping: the sandboxes that exist (`S`) have proper,
disjoint mappings and range allocators with exact free sets. -/
structure World2 {σ} (c : Cfg) (R : Range σ) (maps : Nat → Mapping) (S : Nat → Prop)
    (Good : Nat → σ → (Nat → Prop) → Prop) : Prop where
  maps_ok : ∀ i, S i → MapOk c (maps i)
  disjoint : ∀ i k, S i → S k → i ≠ k → ∀ j, InMap (2 ^ c.bits) (maps k) j →
    ¬ InMap (2 ^ c.bits) (maps i) j
  exact : ∀ i, S i → Exact c R (maps i).base.toNat ((maps i).base.toNat + (maps i).size.toNat) (Good i)
  backend : c.backendEntry.word.getLsbD 3 = false

/-- The invariant of C25: every range represents a free set; free, sandbox-owned and host-held
chunks are disjoint; host-held blocks are apart, aligned and inside their mapping. -/
structure Tidy {σ} (c : Cfg) (maps : Nat → Mapping) (S : Nat → Prop)
    (Good : Nat → σ → (Nat → Prop) → Prop)
    (st : Sys σ) (live : Live) (F : Nat → Nat → Prop) : Prop where
  good : ∀ i, S i → Good i (st.ranges i) (F i)
  owned_not_free : ∀ i, S i → ∀ j, Owned st.pm j → ¬ F i j
  live_not_free : ∀ b ∈ live, ∀ i, S i → ∀ j, Covers (2 ^ c.bits) b.2.1 b.2.2 j → ¬ F i j
  live_in : ∀ b ∈ live, BlockIn (2 ^ c.bits) (maps b.1).base.toNat
    ((maps b.1).base.toNat + (maps b.1).size.toNat) b.2.1 b.2.2 ∧ b.2.2 ∣ b.2.1
  separate : Separate (2 ^ c.bits) st.pm live

/-- Replace the free set of sandbox `i` (bookkeeping of the proof of C25, about the ranges of
`include/process_sandbox/sandbox.h:250-255`). -/
def setFree (F : Nat → Nat → Prop) (i : Nat) (G : Nat → Prop) : Nat → Nat → Prop :=
  fun k => if k = i then G else F k

theorem put_good {σ} {Good : Nat → σ → (Nat → Prop) → Prop} {st : Sys σ} {F : Nat → Nat → Prop}
    {S : Nat → Prop} (h : ∀ i, S i → Good i (st.ranges i) (F i)) (i : Nat) (s : σ) (pm : Pm)
    (G : Nat → Prop) (hs : Good i s G) (k : Nat) (hk : S k) : Good k ((st.put i s pm).ranges k) (setFree F i G k) := by
  simp only [Sys.put, setFree]
  split
  · rename_i hk; rw [hk]; exact hs
  · exact h k hk

/-- Handing out a block that the allocator had as free keeps the invariant; `t` is the entry
written. -/
theorem tidy_grant {σ} (c : Cfg) (R : Range σ) (maps : Nat → Mapping) (S : Nat → Prop)
    (Good : Nat → σ → (Nat → Prop) → Prop) (hw : World2 c R maps S Good) (st : Sys σ) (live : Live)
    (F : Nat → Nat → Prop) (ht : Tidy c maps S Good st live F) (i n p : Nat) (t : Entry)
    (hi : S i)
    (hn : ChunkSize (2 ^ c.bits) n) (hp : (R.alloc (st.ranges i) st.pm n).1 = some p)
    (host : Bool) (hbit : t.word.getLsbD 3 = !host) :
    let a := R.alloc (st.ranges i) st.pm n
    let st' := st.put i a.2.1 (setMeta c a.2.2 p (p + n) t)
    (∃ F', Tidy c maps S Good st' (if host then (i, p, n) :: live else live) F') ∧
    (∀ j, Covers (2 ^ c.bits) p n j → ¬ Owned st.pm j ∧
      ∀ b ∈ live, ¬ Covers (2 ^ c.bits) b.2.1 b.2.2 j) ∧
    (∀ j, Owned st.pm j → Owned st'.pm j) := by
  have hE := hw.exact i hi
  obtain ⟨h1, h2, h3, h4⟩ := hE.alloc_some _ _ st.pm n p (ht.good i hi) hn hp
  have hfr := fun j => hE.alloc_frame _ _ st.pm n j (ht.good i hi) hn
  generalize R.alloc (st.ranges i) st.pm n = a at *
  intro a' st'
  have hset := fun j => setMeta_block c t a.2.2 p n j h1.2.1 (chunkSize_dvd hn)
  have hpm : ∀ j, ¬ F i j → st'.pm j = st.pm j := by
    intro j hj
    show setMeta c a.2.2 p (p + n) t j = st.pm j
    rw [hset, if_neg (fun h => hj (h3 j h))]
    by_cases h : a.2.2 j = st.pm j
    · exact h
    · exact absurd (hfr j h).1 hj
  have hfresh : ∀ j, Covers (2 ^ c.bits) p n j → ¬ Owned st.pm j ∧
      ∀ b ∈ live, ¬ Covers (2 ^ c.bits) b.2.1 b.2.2 j := by
    intro j hj
    exact ⟨fun ho => ht.owned_not_free i hi j ho (h3 j hj),
      fun b hb hc => ht.live_not_free b hb i hi j hc (h3 j hj)⟩
  have howned : ∀ j, Owned st'.pm j → Owned st.pm j ∨
      (host = false ∧ Covers (2 ^ c.bits) p n j) := by
    intro j ho
    by_cases hj : Covers (2 ^ c.bits) p n j
    · right
      refine ⟨?_, hj⟩
      have : st'.pm j = t := by
        show setMeta c a.2.2 p (p + n) t j = t
        rw [hset, if_pos hj]
      unfold Owned at ho
      rw [this, hbit] at ho
      simpa using ho
    · left
      have : st'.pm j = a.2.2 j := by
        show setMeta c a.2.2 p (p + n) t j = _
        rw [hset, if_neg hj]
      unfold Owned at ho ⊢
      rw [this] at ho
      by_cases h : a.2.2 j = st.pm j
      · rw [← h]; exact ho
      · exact absurd ho (hfr j h).2
  have hFin : ∀ k, S k → ∀ j, F k j → InMap (2 ^ c.bits) (maps k) j := by
    intro k hk' j hk
    have := (hw.exact k hk').free_in _ _ j (ht.good k hk') hk
    rwa [Nat.add_sub_cancel_left] at this
  have hFne : ∀ k, S k → k ≠ i → ∀ j, Covers (2 ^ c.bits) p n j → ¬ F k j := by
    intro k hk' hk j hj hkj
    exact hw.disjoint i k hi hk' (fun h => hk h.symm) j (hFin k hk' j hkj) (hFin i hi j (h3 j hj))
  refine ⟨⟨setFree F i (fun j => F i j ∧ ¬ Covers (2 ^ c.bits) p n j), ?_⟩, hfresh, ?_⟩
  · have hsub : ∀ k, S k → ∀ j, setFree F i (fun j => F i j ∧ ¬ Covers (2 ^ c.bits) p n j) k j → F k j ∧
        ¬ Covers (2 ^ c.bits) p n j := by
      intro k hk' j h
      simp only [setFree] at h
      split at h
      · rename_i hk; subst hk; exact h
      · rename_i hk; exact ⟨h, fun hc => hFne k hk' hk j hc h⟩
    have hlive : ∀ b ∈ (if host then (i, p, n) :: live else live),
        (b = (i, p, n) ∧ host = true) ∨ b ∈ live := by
      intro b hb
      cases host with
      | true =>
        rcases List.mem_cons.1 hb with h | h
        · exact Or.inl ⟨h, rfl⟩
        · exact Or.inr h
      | false => exact Or.inr hb
    refine ⟨put_good ht.good i _ _ _ h4, ?_, ?_, ?_, ?_, ?_⟩
    · intro k hk' j ho hk
      obtain ⟨e1, e2⟩ := hsub k hk' j hk
      rcases howned j ho with h | h
      · exact ht.owned_not_free k hk' j h e1
      · exact e2 h.2
    · intro b hb k hk' j hc hk
      obtain ⟨e1, e2⟩ := hsub k hk' j hk
      rcases hlive b hb with ⟨rfl, -⟩ | hb
      · exact e2 hc
      · exact ht.live_not_free b hb k hk' j hc e1
    · intro b hb
      rcases hlive b hb with ⟨rfl, -⟩ | hb
      · exact ⟨h1, h2⟩
      · exact ht.live_in b hb
    · cases host with
      | false => exact ht.separate.1
      | true =>
        simp only [if_true]
        rw [List.pairwise_cons]
        refine ⟨?_, ht.separate.1⟩
        intro b hb j hc
        exact (hfresh j hc.1).2 b hb hc.2
    · intro b hb j hc ho
      rcases hlive b hb with ⟨rfl, hh⟩ | hb
      · rcases howned j ho with h | h
        · exact (hfresh j hc).1 h
        · rw [hh] at h; simp at h
      · rcases howned j ho with h | h
        · exact ht.separate.2 b hb j hc h
        · exact (hfresh j h.2).2 b hb hc
  · intro j ho
    unfold Owned at ho ⊢
    rw [hpm j (ht.owned_not_free i hi j ho)]
    exact ho

/-- Returning an aligned block that is not free keeps the invariant. -/
theorem tidy_return {σ} (c : Cfg) (R : Range σ) (maps : Nat → Mapping) (S : Nat → Prop)
    (Good : Nat → σ → (Nat → Prop) → Prop) (hw : World2 c R maps S Good) (st : Sys σ) (live : Live)
    (F : Nat → Nat → Prop) (ht : Tidy c maps S Good st live F) (i n p : Nat)
    (hi : S i) (hb : BlockIn (2 ^ c.bits) (maps i).base.toNat ((maps i).base.toNat + (maps i).size.toNat) p n)
    (hal : n ∣ p) (hnf : ∀ j, Covers (2 ^ c.bits) p n j → ∀ k, S k → ¬ F k j) (live' : Live)
    (hsub : live'.Sublist live)
    (hlv : ∀ b ∈ live', ∀ j, Covers (2 ^ c.bits) p n j → ¬ Covers (2 ^ c.bits) b.2.1 b.2.2 j) :
    let d := deallocRange c R (st.ranges i) st.pm p n
    let st' := st.put i d.1 d.2
    (∃ F', Tidy c maps S Good st' live' F') ∧
    (∀ j, Owned st.pm j → ¬ Covers (2 ^ c.bits) p n j → Owned st'.pm j) := by
  have hE := hw.exact i hi
  have hG := hE.dealloc _ _ (setMeta c st.pm p (p + n) c.backendEntry) p n (ht.good i hi) hb hal
    (fun j hj => hnf j hj i hi)
  have hfr := fun j => hE.dealloc_frame _ _ (setMeta c st.pm p (p + n) c.backendEntry) p n j
    (ht.good i hi) hb hal (fun j hj => hnf j hj i hi)
  have hset := fun j => setMeta_block c c.backendEntry st.pm p n j hb.2.1 (chunkSize_dvd hb.1)
  intro d st'
  have howned : ∀ j, Owned st'.pm j → Owned st.pm j ∧ ¬ Covers (2 ^ c.bits) p n j := by
    intro j ho
    have ho' : Owned d.2 j := ho
    by_cases he : d.2 j = setMeta c st.pm p (p + n) c.backendEntry j
    · unfold Owned at ho'
      rw [he, hset] at ho'
      split at ho'
      · rw [hw.backend] at ho'; simp at ho'
      · rename_i hj; exact ⟨ho', hj⟩
    · exact absurd ho' (hfr j he).2
  have hmem : ∀ b ∈ live', b ∈ live := fun b hb => hsub.subset hb
  refine ⟨⟨setFree F i (fun j => F i j ∨ Covers (2 ^ c.bits) p n j), ?_⟩, ?_⟩
  · have hcase : ∀ k j, setFree F i (fun j => F i j ∨ Covers (2 ^ c.bits) p n j) k j →
        F k j ∨ Covers (2 ^ c.bits) p n j := by
      intro k j h
      simp only [setFree] at h
      split at h
      · rename_i hk; subst hk; exact h
      · exact Or.inl h
    refine ⟨put_good ht.good i _ _ _ hG, ?_, ?_, ?_, ?_, ?_⟩
    · intro k hk' j ho hk
      obtain ⟨o1, o2⟩ := howned j ho
      rcases hcase k j hk with h | h
      · exact ht.owned_not_free k hk' j o1 h
      · exact o2 h
    · intro b hb k hk' j hc hk
      rcases hcase k j hk with h | h
      · exact ht.live_not_free b (hmem b hb) k hk' j hc h
      · exact hlv b hb j h hc
    · intro b hb; exact ht.live_in b (hmem b hb)
    · exact ht.separate.1.sublist hsub
    · intro b hb j hc ho
      exact ht.separate.2 b (hmem b hb) j hc (howned j ho).1
  · intro j ho hj
    have hnF := ht.owned_not_free i hi j ho
    have he : d.2 j = setMeta c st.pm p (p + n) c.backendEntry j := by
      by_cases he : d.2 j = setMeta c st.pm p (p + n) c.backendEntry j
      · exact he
      · rcases (hfr j he).1 with h | h
        · exact absurd h hnF
        · exact absurd h hj
    show Owned d.2 j
    unfold Owned at ho ⊢
    rw [he, hset, if_neg hj]
    exact ho

theorem tidy_same {σ} (c : Cfg) (maps : Nat → Mapping) (S : Nat → Prop)
    (Good : Nat → σ → (Nat → Prop) → Prop)
    (st : Sys σ) (live : Live) (F : Nat → Nat → Prop) (ht : Tidy c maps S Good st live F) (i : Nat) :
    Tidy c maps S Good (st.put i (st.ranges i) st.pm) live F := by
  refine ⟨?_, ht.owned_not_free, ht.live_not_free, ht.live_in, ht.separate⟩
  intro k hk'
  simp only [Sys.put]
  split
  · rename_i hk; rw [hk]; exact ht.good i (hk ▸ hk')
  · exact ht.good k hk'

theorem exact_alloc_decided {σ} (c : Cfg) (R : Range σ) (m : Mapping)
    {Good : σ → (Nat → Prop) → Prop} {F : Nat → Prop}
    (hE : Exact c R m.base.toNat (m.base.toNat + m.size.toNat) Good) (hm : MapOk c m) (s : σ)
    (pm : Pm) (q : Req) (hs : Good s F) (hk : q.kind = 0) :
    ((serve c R (m.region c) s pm q).1.error ≠ 0 ∧
      (serve c R (m.region c) s pm q).2 = (s, pm)) ∨
    ∃ p, ChunkSize (2 ^ c.bits) q.a0.toNat ∧ (R.alloc s pm q.a0.toNat).1 = some p ∧
      p < 2 ^ 64 ∧
      serve c R (m.region c) s pm q = (⟨0, BitVec.ofNat 64 p⟩, (R.alloc s pm q.a0.toNat).2.1,
        setMeta c (R.alloc s pm q.a0.toNat).2.2 p (p + q.a0.toNat)
          (Entry.claimForSandbox ⟨q.a1, q.a2⟩)) := by
  have h3 : (3 : Word) ≠ 0 := by decide
  have h1 : (1 : Word) ≠ 0 := by decide
  have h2 : (2 : Word) ≠ 0 := by decide
  rw [serve, if_pos hk, serveAlloc]
  split
  · exact Or.inl ⟨h3, rfl⟩
  · rename_i hok
    have hsz := (chunkSize_iff c q.a0).1 hok
    split
    · exact Or.inl ⟨h1, rfl⟩
    · have hn := hE.alloc_none s F pm q.a0.toNat hs hsz
      have ha := fun p => hE.alloc_some s F pm q.a0.toNat p hs hsz
      rcases hr : R.alloc s pm q.a0.toNat with ⟨_ | p, s', pm'⟩
      · rw [hr] at hn
        exact Or.inl ⟨h2, hn rfl⟩
      · rw [hr] at ha
        have hin := (ha p rfl).1
        have h5 := hin.2.2.2
        have h6 := hm.no_wrap
        have h7 := hsz.1
        have h8 := Nat.two_pow_pos c.bits
        exact Or.inr ⟨p, hsz, rfl, by omega, rfl⟩

theorem step_tidy {σ} (c : Cfg) (R : Range σ) (maps : Nat → Mapping) (S : Nat → Prop)
    (Good : Nat → σ → (Nat → Prop) → Prop) (hw : World2 c R maps S Good) (st : Sys σ) (live : Live)
    (F : Nat → Nat → Prop) (ht : Tidy c maps S Good st live F) (op : Op)
    (hi : S (sandboxOf op)) (hop : HostOk (2 ^ c.bits) live op) (har : AlignedRelease op) :
    (∃ F', Tidy c maps S Good (step c R maps st op).2
      (liveStep live op (step c R maps st op).1) F') ∧
    (∀ b, givenBlock op (step c R maps st op).1 = some b → ∀ j, Covers (2 ^ c.bits) b.2.1 b.2.2 j →
      ¬ Owned st.pm j ∧ ∀ l ∈ live, ¬ Covers (2 ^ c.bits) l.2.1 l.2.2 j) ∧
    (∀ j, Owned st.pm j → Owned (step c R maps st op).2.pm j ∨
      ∃ i q, op = .rpc i q ∧ q.kind = 1 ∧ Covers (2 ^ c.bits) q.a0.toNat q.a1.toNat j) := by
  cases op with
  | rpc i q =>
    have hi : S i := hi
    by_cases h0 : q.kind = 0
    · rcases exact_alloc_decided c R (maps i) (hw.exact i hi) (hw.maps_ok i hi) _ st.pm q (ht.good i hi) h0
        with ⟨he, hsame⟩ | ⟨p, hsz, hp, hlt, he⟩
      · simp only [step, hsame, h0, he, and_false, if_false]
        refine ⟨⟨F, tidy_same c maps S Good st live F ht i⟩, ?_, ?_⟩
        · intro b hb; simp [givenBlock] at hb
        · intro j ho; exact Or.inl ho
      · obtain ⟨g1, g2, g3⟩ := tidy_grant c R maps S Good hw st live F ht i q.a0.toNat p
          (Entry.claimForSandbox ⟨q.a1, q.a2⟩) hi hsz hp false (by rw [claim_owned]; rfl)
        simp only [step, he, h0, and_self, if_true, BitVec.toNat_ofNat, Nat.mod_eq_of_lt hlt]
        refine ⟨g1, ?_, fun j ho => Or.inl (g3 j ho)⟩
        intro b hb
        simp only [givenBlock, Option.some.injEq] at hb
        subst hb
        exact g2
    · by_cases h1 : q.kind = 1
      · have hg : (step c R maps st (.rpc i q)).1 = none := if_neg (fun h => h0 h.1)
        rw [hg]
        obtain ⟨d1, -, d3, d4⟩ := dealloc_decided c R (maps i) (hw.maps_ok i hi) (st.ranges i) st.pm q h1
        by_cases he : (serve c R ((maps i).region c) (st.ranges i) st.pm q).1.error = 0
        · obtain ⟨c1, c2, c3, c4, c5⟩ := d1.1 he
          obtain ⟨g1, g2⟩ := tidy_return c R maps S Good hw st live F ht i q.a1.toNat q.a0.toNat hi
            ⟨c3, c4, by omega, c2⟩ (har h1) (fun j hj k hk' => ht.owned_not_free k hk' j (c5 j hj)) live
            (List.Sublist.refl _) (fun b hb j hj hc => ht.separate.2 b hb j hc (c5 j hj))
          simp only [step, d4 he]
          refine ⟨g1, ?_, ?_⟩
          · intro b hb; simp [givenBlock] at hb
          · intro j ho
            by_cases hj : Covers (2 ^ c.bits) q.a0.toNat q.a1.toNat j
            · exact Or.inr ⟨i, q, rfl, h1, hj⟩
            · exact Or.inl (g2 j ho hj)
        · simp only [step, d3 he]
          refine ⟨⟨F, tidy_same c maps S Good st live F ht i⟩, ?_, fun j ho => Or.inl ho⟩
          intro b hb; simp [givenBlock] at hb
      · have h2 : serve c R ((maps i).region c) (st.ranges i) st.pm q =
            (⟨0, 0⟩, st.ranges i, st.pm) := by rw [serve, if_neg h0, if_neg h1]
        simp only [step, h2, h0, false_and, if_false]
        refine ⟨⟨F, tidy_same c maps S Good st live F ht i⟩, ?_, fun j ho => Or.inl ho⟩
        intro b hb; simp [givenBlock] at hb
  | hostAlloc i size slab ras =>
    have hi : S i := hi
    obtain ⟨hsz, hbit⟩ := hop
    rcases hp : (R.alloc (st.ranges i) st.pm size).1 with _ | p
    · have hn := (hw.exact i hi).alloc_none _ _ st.pm size (ht.good i hi) hsz hp
      have he : hostAlloc c R (st.ranges i) st.pm size slab ras = (none, st.ranges i, st.pm) := by
        unfold hostAlloc
        rcases hr : R.alloc (st.ranges i) st.pm size with ⟨_ | p, s', pm'⟩
        · rw [hr] at hn; simp only at hn ⊢; rw [hn]
        · rw [hr] at hp; simp at hp
      simp only [step, he]
      refine ⟨⟨F, tidy_same c maps S Good st live F ht i⟩, ?_, fun j ho => Or.inl ho⟩
      intro b hb; simp [givenBlock] at hb
    · obtain ⟨g1, g2, g3⟩ := tidy_grant c R maps S Good hw st live F ht i size p ⟨slab, ras⟩ hi hsz hp
        true hbit
      have he : hostAlloc c R (st.ranges i) st.pm size slab ras =
          (some p, (R.alloc (st.ranges i) st.pm size).2.1,
            setMeta c (R.alloc (st.ranges i) st.pm size).2.2 p (p + size) ⟨slab, ras⟩) := by
        unfold hostAlloc
        rcases hr : R.alloc (st.ranges i) st.pm size with ⟨_ | p', s', pm'⟩
        · rw [hr] at hp; simp at hp
        · rw [hr] at hp; simp only [Option.some.injEq] at hp; subst hp; rfl
      simp only [step, he]
      refine ⟨g1, ?_, fun j ho => Or.inl (g3 j ho)⟩
      intro b hb
      simp only [givenBlock, Option.some.injEq] at hb
      subst hb
      exact g2
  | hostFree i p size =>
    have hi : S i := hi
    have hmem : (i, p, size) ∈ live := hop
    obtain ⟨l1, l2⟩ := ht.live_in _ hmem
    have hperm := List.perm_cons_erase hmem
    have hpw : ((i, p, size) :: live.erase (i, p, size)).Pairwise
        (fun b b' => ∀ j, ¬ (Covers (2 ^ c.bits) b.2.1 b.2.2 j ∧
          Covers (2 ^ c.bits) b'.2.1 b'.2.2 j)) :=
      (hperm.pairwise_iff (fun {x y} h j hc => h j ⟨hc.2, hc.1⟩)).1 ht.separate.1
    rw [List.pairwise_cons] at hpw
    obtain ⟨g1, g2⟩ := tidy_return c R maps S Good hw st live F ht i size p hi l1 l2
      (fun j hj k hk' => ht.live_not_free _ hmem k hk' j hj) (live.erase (i, p, size))
      List.erase_sublist (fun b hb j hj hc => hpw.1 b hb j ⟨hj, hc⟩)
    refine ⟨g1, ?_, ?_⟩
    · intro b hb; simp [givenBlock] at hb
    · intro j ho
      left
      exact g2 j ho (fun hj => ht.separate.2 _ hmem j hj ho)

theorem run_tidy {σ} (c : Cfg) (R : Range σ) (maps : Nat → Mapping) (S : Nat → Prop)
    (Good : Nat → σ → (Nat → Prop) → Prop) (hw : World2 c R maps S Good) : ∀ (ops ops' : List Op)
    (st : Sys σ) (live : Live) (F : Nat → Nat → Prop), Tidy c maps S Good st live F →
    Behaved c R maps S st live (ops ++ ops') →
    (∃ F', Tidy c maps S Good (runOps c R maps st ops).2 (liveAfter c R maps st live ops) F') ∧
    Behaved c R maps S (runOps c R maps st ops).2 (liveAfter c R maps st live ops) ops' := by
  intro ops
  induction ops with
  | nil => intro ops' st live F ht hb; exact ⟨⟨F, ht⟩, hb⟩
  | cons op ops ih =>
    intro ops' st live F ht hb
    obtain ⟨b0, b1, b2, b3⟩ := hb
    obtain ⟨⟨F', ht'⟩, -⟩ := step_tidy c R maps S Good hw st live F ht op b0 b1 b2
    exact ih ops' _ _ F' ht' b3

/-- **C25 (part that holds).** In every interleaving of host operations and sandbox requests in which
sandbox releases are aligned to their size: the host's blocks never overlap each other or a
sandbox-owned chunk; a block newly handed out, to whichever side, contains no chunk that is
sandbox-owned or held by the host; and a sandbox-owned chunk stays so until a release request covers
it.  What is missing for the full property: the service does not require releases to be aligned to
their size, and without that the property fails (`handed_out_twice`). -/
theorem never_twice_partial {σ} (c : Cfg) (R : Range σ) (maps : Nat → Mapping) (S : Nat → Prop)
    (Good : Nat → σ → (Nat → Prop) → Prop) (hw : World2 c R maps S Good) (st : Sys σ)
    (F : Nat → Nat → Prop) (hgood : ∀ i, S i → Good i (st.ranges i) (F i))
    (hfree : ∀ j, ¬ Owned st.pm j) (ops : List Op) (op : Op)
    (hb : Behaved c R maps S st [] (ops ++ [op])) :
    let st1 := (runOps c R maps st ops).2
    let live := liveAfter c R maps st [] ops
    Separate (2 ^ c.bits) st1.pm live ∧
    (∀ b, givenBlock op (step c R maps st1 op).1 = some b → ∀ j, Covers (2 ^ c.bits) b.2.1 b.2.2 j →
      ¬ Owned st1.pm j ∧ ∀ l ∈ live, ¬ Covers (2 ^ c.bits) l.2.1 l.2.2 j) ∧
    (∀ j, Owned st1.pm j → Owned (step c R maps st1 op).2.pm j ∨
      ∃ i q, op = .rpc i q ∧ q.kind = 1 ∧ Covers (2 ^ c.bits) q.a0.toNat q.a1.toNat j) := by
  have ht : Tidy c maps S Good st [] F :=
    ⟨hgood, fun i _ j ho => absurd ho (hfree j), by simp, by simp, by simp, by simp⟩
  obtain ⟨⟨F', ht'⟩, b0, b1, b2, -⟩ := run_tidy c R maps S Good hw ops [op] st [] F ht hb
  obtain ⟨-, s2, s3⟩ := step_tidy c R maps S Good hw _ _ F' ht' op b0 b1 b2
  exact ⟨ht'.separate, s2, s3⟩

/-! ### Examples and the counterexample -/

/-- Constants used in the examples: 16 KiB chunks and a 1 KiB header, as in `Cfg`
(`src/libsandbox.cc:152-170`). -/
def exCfg : Cfg where
  bits := 14
  hdr := 0x400
  remoteSize := 0x100
  remoteOf := fun w => w &&& 0xffffffffffffff00
  objSize := fun w => (w &&& 0x7f).toNat
  backendEntry := ⟨0, 0x80⟩

/-- A mapping of 16 chunks, the first of which holds the header (as built at
`src/libsandbox.cc:866-869`). -/
def exMap (i : Nat) : Mapping := ⟨BitVec.ofNat 64 (0x7f0000000000 + (i % 2) * 0x40000), 0x40000⟩

/-- The number of the first chunk of `exMap i`. -/
def exLo (i : Nat) : Nat := 0x7f0000000000 / 0x4000 + (i % 2) * 16

/-- The start: the chunks after the header are free (`src/libsandbox.cc:55-67`), the map is empty. -/
def exSys : Sys Free where
  pm := fun _ => ⟨0, 0⟩
  ranges := fun i => [(0, exLo i + 1), (1, exLo i + 2), (2, exLo i + 4), (3, exLo i + 8)]

theorem exMap_eq (i : Nat) : (exMap i).base.toNat = exLo i * 2 ^ exCfg.bits ∧
    (exMap i).base.toNat + (exMap i).size.toNat = (exLo i + 2 ^ 4) * 2 ^ exCfg.bits ∧
    2 ^ 4 ∣ exLo i := by
  have hi : i % 2 = 0 ∨ i % 2 = 1 := by omega
  unfold exMap exLo
  rcases hi with h | h <;> rw [h] <;> decide +kernel

theorem exMap_ok (i : Nat) : MapOk exCfg (exMap i) := by
  have hi : i % 2 = 0 ∨ i % 2 = 1 := by omega
  unfold exMap
  refine ⟨⟨4, rfl⟩, ?_, ?_, by show (0x800 : Nat) ≤ 0x40000; decide⟩
  · rcases hi with h | h <;> rw [h] <;> decide +kernel
  · rcases hi with h | h <;> rw [h] <;> decide +kernel

/-- The assumptions of the theorems of C22 to C24 hold for the stand-in allocator. -/
theorem exWorld : World exCfg (buddyRange exCfg) exMap (fun i => FreeIn (exLo i) (2 ^ 4)) := by
  refine ⟨exMap_ok, ?_, by decide⟩
  intro i
  obtain ⟨h1, h2, h3⟩ := exMap_eq i
  rw [h1, ← h1, h2, h1]
  exact buddy_contained exCfg (exLo i) 4 h3 (by decide)

theorem exSys_free (i : Nat) : Repr (exLo i) (2 ^ 4) (exSys.ranges i)
    (fun j => exLo i + 1 ≤ j ∧ j < exLo i + 16) := by
  obtain ⟨-, -, h3⟩ := exMap_eq i
  obtain ⟨t, ht⟩ := h3
  refine ⟨?_, ?_, ?_, ?_⟩
  · intro b hb
    simp only [exSys, List.mem_cons, List.not_mem_nil, or_false] at hb
    rcases hb with rfl | rfl | rfl | rfl <;> simp <;> omega
  · intro b hb
    simp only [exSys, List.mem_cons, List.not_mem_nil, or_false] at hb
    rcases hb with rfl | rfl | rfl | rfl <;> simp <;> omega
  · simp [exSys, Apart]
  · intro j
    simp only [exSys, List.mem_cons, List.not_mem_nil, or_false]
    constructor
    · intro h
      rcases Nat.lt_or_ge j (exLo i + 2) with h1 | h1
      · exact ⟨_, Or.inl rfl, by simp only; omega⟩
      rcases Nat.lt_or_ge j (exLo i + 4) with h2 | h2
      · exact ⟨_, Or.inr (Or.inl rfl), by simp only; omega⟩
      rcases Nat.lt_or_ge j (exLo i + 8) with h3 | h3
      · exact ⟨_, Or.inr (Or.inr (Or.inl rfl)), by simp only; omega⟩
      · exact ⟨_, Or.inr (Or.inr (Or.inr rfl)), by simp only; omega⟩
    · rintro ⟨b, rfl | rfl | rfl | rfl, h⟩ <;> simp only at h <;> omega

example : ∀ i, FreeIn (exLo i) (2 ^ 4) (exSys.ranges i) := fun i => (exSys_free i).inside

/-- A request granted in the example (`alloc_decided`, `alloc_claims`). -/
example : (serve exCfg (buddyRange exCfg) ((exMap 0).region exCfg) (exSys.ranges 0) exSys.pm
    ⟨0, 0x8000, 0x1230, 0, 0⟩).1 = ⟨0, 0x7f0000008000⟩ := by decide +kernel

/-- The two mappings of the example are disjoint. -/
theorem exMap_disjoint (i k : Nat) (hi : i < 2) (hk : k < 2) (hne : i ≠ k) (j : Nat)
    (h : InMap (2 ^ exCfg.bits) (exMap k) j) : ¬ InMap (2 ^ exCfg.bits) (exMap i) j := by
  intro h'
  obtain ⟨a1, a2, -⟩ := exMap_eq i
  obtain ⟨b1, b2, -⟩ := exMap_eq k
  simp only [InMap, Covers] at h h'
  rw [a2, a1] at h'
  rw [b2, b1] at h
  have e : (2 : Nat) ^ exCfg.bits = 16384 := rfl
  rw [e] at h h'
  simp only [exLo] at h h'
  omega

/-- The assumptions of `never_twice_partial` hold for the stand-in allocator with two sandboxes. -/
theorem exWorld2 : World2 exCfg (buddyRange exCfg) exMap (· < 2)
    (fun i => Repr (exLo i) (2 ^ 4)) := by
  refine ⟨fun i _ => exMap_ok i, exMap_disjoint, ?_, by decide⟩
  intro i _
  obtain ⟨h1, h2, h3⟩ := exMap_eq i
  rw [h1, ← h1, h2, h1]
  exact buddy_exact exCfg (exLo i) 4 h3 (by decide)

theorem exSize (k : Nat) (hk : 14 ≤ k) : ChunkSize (2 ^ exCfg.bits) (2 ^ k) :=
  ⟨Nat.pow_le_pow_right (by decide) hk, k, rfl⟩

/-- Operations of two sandboxes and the host that meet the hypothesis of `never_twice_partial`:
allocations on all sides, a release by a sandbox and one by the host. -/
def exGoodOps : List Op :=
  [.hostAlloc 0 0x4000 0x1000 0x7f0000000300,
   .rpc 0 ⟨0, 0x8000, 0, 0, 0⟩, .rpc 1 ⟨0, 0x10000, 0, 0, 0⟩,
   .rpc 0 ⟨1, 0x7f0000008000, 0x8000, 0, 0⟩, .hostFree 0 0x7f0000004000 0x4000]

example : Behaved exCfg (buddyRange exCfg) exMap (· < 2) exSys [] (exGoodOps ++
    [.rpc 0 ⟨0, 0x8000, 0, 0, 0⟩]) ∧
    (runOps exCfg (buddyRange exCfg) exMap exSys exGoodOps).1 =
      [some 0x7f0000004000, some 0x7f0000008000, some 0x7f0000050000, none, none] := by
  refine ⟨⟨by decide, ⟨exSize 14 (by decide), by decide⟩, trivial,
    by decide, trivial, by decide, by decide, trivial, by decide, by decide, trivial,
    by decide +kernel, by decide, ?_, trivial, by decide, trivial, by decide, trivial⟩,
    by decide +kernel⟩
  show (0, 0x7f0000004000, 0x4000) ∈ _
  decide +kernel

example : ∀ i, i < 2 → Repr (exLo i) (2 ^ 4) (exSys.ranges i)
    (fun j => exLo i + 1 ≤ j ∧ j < exLo i + 16) := fun i _ => exSys_free i
example : ∀ j, ¬ Owned exSys.pm j := by intro j; simp [exSys, Owned]

/-- `request_confined`, `others_unchanged` and `owned_was_granted` apply to `exGoodOps`: the host is
sane; after three operations a chunk of sandbox 0 is owned; and the last of them, of sandbox 1, left
the entries of sandbox 0 alone. -/
theorem exGood_sane : ∀ op ∈ exGoodOps, HostSane (2 ^ exCfg.bits) exMap op := by
  intro op hop
  simp only [exGoodOps, List.mem_cons, List.not_mem_nil, or_false] at hop
  rcases hop with rfl | rfl | rfl | rfl | rfl
  · exact ⟨exSize 14 (by decide), by decide⟩
  · trivial
  · trivial
  · trivial
  · exact ⟨exSize 14 (by decide), by decide, by decide +kernel, by decide +kernel⟩

example : ¬ Owned exSys.pm (exLo 0 + 2) ∧
    Owned (runOps exCfg (buddyRange exCfg) exMap exSys (exGoodOps.take 3)).2.pm (exLo 0 + 2) ∧
    ¬ Owned (runOps exCfg (buddyRange exCfg) exMap exSys (exGoodOps.take 4)).2.pm (exLo 0 + 2) := by
  decide +kernel

example : InMap (2 ^ exCfg.bits) (exMap 0) (exLo 0 + 2) ∧
    ∀ j, InMap (2 ^ exCfg.bits) (exMap 0) j →
      ¬ InMap (2 ^ exCfg.bits) (exMap (sandboxOf (.rpc 1 ⟨0, 0x10000, 0, 0, 0⟩))) j :=
  ⟨by unfold InMap; decide +kernel,
    fun j hj => exMap_disjoint 1 0 (by decide) (by decide) (by decide) j hj⟩

/-- `dealloc_decided`, `dealloc_clears` and `release_once`: the release in `exGoodOps` is granted, and
the same request is refused with error 4 right afterwards. -/
example :
    let q : Req := ⟨1, 0x7f0000008000, 0x8000, 0, 0⟩
    let st := (runOps exCfg (buddyRange exCfg) exMap exSys (exGoodOps.take 3)).2
    let st' := (step exCfg (buddyRange exCfg) exMap st (.rpc 0 q)).2
    (serve exCfg (buddyRange exCfg) ((exMap 0).region exCfg) (st.ranges 0) st.pm q).1 = ⟨0, 0⟩ ∧
    (serve exCfg (buddyRange exCfg) ((exMap 0).region exCfg) (st'.ranges 0) st'.pm q).1 = ⟨4, 0⟩ ∧
    Covers (2 ^ exCfg.bits) q.a0.toNat q.a1.toNat (exLo 0 + 2) := by
  decide +kernel

/-- The operations of the counterexample: the host takes one chunk, the sandbox takes the other
fourteen, then releases `[2, 6)` and `[6, 10)`, which are chunk aligned but not size aligned. -/
def exOps : List Op :=
  [.hostAlloc 0 0x4000 0x1000 0x7f0000000300,
   .rpc 0 ⟨0, 0x8000, 0, 0, 0⟩, .rpc 0 ⟨0, 0x10000, 0, 0, 0⟩, .rpc 0 ⟨0, 0x20000, 0, 0, 0⟩,
   .rpc 0 ⟨1, 0x7f0000008000, 0x10000, 0, 0⟩, .rpc 0 ⟨1, 0x7f0000018000, 0x10000, 0, 0⟩]

/-- **C25 is violated in full generality.** The host behaves, every request of the sandbox is answered
as the code answers it, and yet, since releases need not be aligned to their size, a later request is
given a block that covers a chunk the host still holds, and the chunk with the sandbox's header. -/
theorem handed_out_twice :
    HostBehaved exCfg (buddyRange exCfg) exMap exSys [] (exOps ++ [.rpc 0 ⟨0, 0x20000, 0, 0, 0⟩]) ∧
    (∀ op ∈ exOps ++ [.rpc 0 ⟨0, 0x20000, 0, 0, 0⟩], sandboxOf op = 0) ∧
    (0, 0x7f0000004000, 0x4000) ∈ liveAfter exCfg (buddyRange exCfg) exMap exSys [] exOps ∧
    (∃ b, givenBlock (.rpc 0 ⟨0, 0x20000, 0, 0, 0⟩)
        (step exCfg (buddyRange exCfg) exMap (runOps exCfg (buddyRange exCfg) exMap exSys exOps).2
          (.rpc 0 ⟨0, 0x20000, 0, 0, 0⟩)).1 = some b ∧
      Covers (2 ^ exCfg.bits) b.2.1 b.2.2 (exLo 0 + 1) ∧
      Covers (2 ^ exCfg.bits) 0x7f0000004000 0x4000 (exLo 0 + 1) ∧
      b.2.1 = (exMap 0).base.toNat) := by
  refine ⟨⟨⟨exSize 14 (by decide), by decide⟩, trivial, trivial, trivial, trivial, trivial, trivial,
    trivial⟩, by decide, by decide +kernel, (0, 0x7f0000000000, 0x20000), ?_⟩
  decide +kernel

/-! ## One answer per request -/

theorem findFd_mem {fds : List (Int × Nat)} {fd : Int} {i : Nat} (h : findFd fds fd = some i) :
    (fd, i) ∈ fds := by
  simp only [findFd, Option.map_eq_some_iff] at h
  obtain ⟨e, he, hi⟩ := h
  have h1 := List.mem_of_find?_eq_some he
  have h2 := List.find?_some he
  simp only [beq_iff_eq] at h2
  obtain ⟨a, b⟩ := e
  simp only at h2 hi
  subst h2; subst hi
  exact h1

theorem regs_remove (i : Nat) (fds : List (Int × Nat)) (fd : Int) (ps : List Poll) :
    regs i (removeFd fds fd) ps ≤ regs i fds ps := by
  have h := (List.filter_sublist (p := fun e : Int × Nat => !(e.1 == fd)) (l := fds)).countP_le
    (p := fun e => e.2 == i)
  simp only [regs, removeFd]
  omega

theorem count_remove {i : Nat} {fd : Int} : ∀ {fds : List (Int × Nat)}, (fd, i) ∈ fds →
    (removeFd fds fd).countP (fun e => e.2 == i) + 1 ≤ fds.countP (fun e => e.2 == i) := by
  intro fds
  induction fds with
  | nil => simp
  | cons e fds ih =>
    intro h
    have hs := (List.filter_sublist (p := fun e : Int × Nat => !(e.1 == fd)) (l := fds)).countP_le
      (p := fun e => e.2 == i)
    rcases List.mem_cons.1 h with rfl | h
    · simp only [removeFd, List.filter_cons, List.countP_cons] at hs ⊢
      simp only [beq_self_eq_true, Bool.not_true, if_false, if_true, Bool.false_eq_true]
      omega
    · have := ih h
      simp only [removeFd] at this
      simp only [removeFd, List.filter_cons]
      split <;> simp only [List.countP_cons] <;> omega

theorem regs_cons_le (i : Nat) (fds : List (Int × Nat)) (p : Poll) (ps : List Poll) :
    regs i fds ps ≤ regs i fds (p :: ps) := by
  simp only [regs, List.countP_cons]; omega

/-- An iteration of the loop never raises the number of registrations. -/
theorem regs_step {σ} (c : Cfg) (R : Range σ) (maps : Nat → Mapping) (i : Nat) (s : Svc σ) (p : Poll)
    (ps : List Poll) : regs i (svcStep c R maps s p).2.fds ps ≤ regs i s.fds (p :: ps) := by
  have h0 := regs_cons_le i s.fds p ps
  cases p with
  | add fd k =>
    simp only [svcStep]
    split
    · exact h0
    · simp only [regs, List.countP_cons]; omega
  | eof fd =>
    have h1 := regs_remove i s.fds fd ps
    simp only [svcStep]
    omega
  | ready fd msg ok =>
    have h1 := regs_remove i s.fds fd ps
    simp only [svcStep]
    split
    · exact h0
    · split
      · simp only; omega
      · split
        · exact h0
        · simp only; omega

/-- A sandbox that is not registered and never will be has no events. -/
theorem no_events {σ} (c : Cfg) (R : Range σ) (maps : Nat → Mapping) (i : Nat) : ∀ (ps : List Poll)
    (s : Svc σ), regs i s.fds ps = 0 → (svcRun c R maps s ps).1.filter (evOf · == i) = [] := by
  intro ps
  induction ps with
  | nil => intro s _; rfl
  | cons p ps ih =>
    intro s h
    have h1 := regs_step c R maps i s p ps
    have h2 := ih (svcStep c R maps s p).2 (by omega)
    simp only [svcRun, List.filter_append, h2, List.append_nil]
    cases p with
    | add fd k => rfl
    | eof fd => rfl
    | ready fd msg ok =>
      simp only [svcStep]
      split
      · rfl
      · rename_i k hk
        have hne : ¬ k = i := by
          intro hki
          subst hki
          have := List.countP_pos_iff (p := fun e : Int × Nat => e.2 == k) |>.2
            ⟨_, findFd_mem hk, by simp⟩
          simp only [regs] at h
          omega
        have hb : (k == i) = false := by simpa using hne
        split
        · simp [evOf, hb]
        · split <;> simp [evOf, hb]

/-- **C26 (part that holds).** For every stream of requests and every pattern of socket failures: a
sandbox registered once has a dialogue consisting of pairs of a request and its answer, possibly ended
by its termination, after which it is never served again.  What is missing for the full property: a
request of unknown kind is not refused (`unknown_kind_accepted`). -/
theorem one_answer_partial {σ} (c : Cfg) (R : Range σ) (maps : Nat → Mapping) (i : Nat) :
    ∀ (ps : List Poll) (s : Svc σ), regs i s.fds ps ≤ 1 →
      Dialogue ((svcRun c R maps s ps).1.filter (evOf · == i)) := by
  intro ps
  induction ps with
  | nil => intro s _; exact trivial
  | cons p ps ih =>
    intro s h
    have h1 := regs_step c R maps i s p ps
    have h2 := ih (svcStep c R maps s p).2 (by omega)
    simp only [svcRun, List.filter_append]
    cases p with
    | add fd k => exact h2
    | eof fd => exact h2
    | ready fd msg ok =>
      rcases hk : findFd s.fds fd with _ | k
      · simp only [svcStep, hk] at h2 ⊢
        exact h2
      · by_cases hki : k = i
        · subst hki
          have hm := count_remove (findFd_mem hk)
          rcases msg with _ | q
          · simp only [svcStep, hk] at h2 ⊢
            have hn := no_events c R maps k ps { s with fds := removeFd s.fds fd } (by
              simp only [regs, List.countP_cons] at h ⊢
              omega)
            rw [hn]
            simp [evOf, Dialogue]
          · rcases ok with _ | _
            · simp only [svcStep, hk, Bool.false_eq_true, if_false] at h2 ⊢
              have hn := no_events c R maps k ps
                ⟨removeFd s.fds fd, s.sys.put k
                  (serve c R ((maps k).region c) (s.sys.ranges k) s.sys.pm q).2.1
                  (serve c R ((maps k).region c) (s.sys.ranges k) s.sys.pm q).2.2⟩ (by
                simp only [regs, List.countP_cons] at h ⊢
                omega)
              rw [hn]
              simp [evOf, Dialogue]
            · simp only [svcStep, hk, if_true] at h2 ⊢
              simpa [evOf, Dialogue] using h2
        · have hb : (k == i) = false := by simpa using hki
          have hnil : ((svcStep c R maps s (.ready fd msg ok)).1).filter (evOf · == i) = [] := by
            simp only [svcStep, hk]
            split
            · simp [evOf, hb]
            · split <;> simp [evOf, hb]
          rw [hnil]
          exact h2

/-- **C26.** The log of the service is sequential: each answer is the one of the handler to the request
just received, in the state left by all requests before it, and no other event changes the state. -/
theorem answers_sequential {σ} (c : Cfg) (R : Range σ) (maps : Nat → Mapping) :
    ∀ (ps : List Poll) (s : Svc σ),
      Sequential c R maps s.sys (svcRun c R maps s ps).1 (svcRun c R maps s ps).2.sys := by
  intro ps
  induction ps with
  | nil => intro s; exact .nil _
  | cons p ps ih =>
    intro s
    have h2 := ih (svcStep c R maps s p).2
    simp only [svcRun]
    cases p with
    | add fd k =>
      have he : (svcStep c R maps s (.add fd k)).2.sys = s.sys := by
        simp only [svcStep]; split <;> rfl
      rw [he] at h2
      exact h2
    | eof fd => exact h2
    | ready fd msg ok =>
      rcases hk : findFd s.fds fd with _ | k
      · simp only [svcStep, hk] at h2 ⊢
        exact h2
      · rcases msg with _ | q
        · simp only [svcStep, hk] at h2 ⊢
          exact .killed _ _ _ _ h2
        · rcases ok with _ | _
          · simp only [svcStep, hk, Bool.false_eq_true, if_false] at h2 ⊢
            exact .dropped _ _ _ _ _ h2
          · simp only [svcStep, hk, if_true] at h2 ⊢
            exact .answered _ _ _ _ _ h2

theorem findFd_remove (fds : List (Int × Nat)) (fd fd' : Int) :
    findFd (removeFd fds fd') fd = if fd' = fd then none else findFd fds fd := by
  induction fds with
  | nil => simp [removeFd, findFd]
  | cons e fds ih =>
    simp only [removeFd, findFd] at ih ⊢
    grind

/-- The table of the service thread says who a socket belongs to. -/
theorem owner_step {σ} (c : Cfg) (R : Range σ) (maps : Nat → Mapping) (s : Svc σ) (fd : Int)
    (p : Poll) (ps : List Poll) :
    ownerOf fd (findFd (svcStep c R maps s p).2.fds fd) ps = ownerOf fd (findFd s.fds fd) (p :: ps) := by
  cases p with
  | add fd' i =>
    simp only [svcStep, ownerOf]
    congr 1
    by_cases h : fd' = fd
    · subst h
      rcases hf : findFd s.fds fd' with _ | k
      · simp [findFd]
      · simp [hf]
    · rcases hf : findFd s.fds fd' with _ | k
      · simp [findFd, h]
      · simp [h]
  | eof fd' => simp only [svcStep, ownerOf, findFd_remove]
  | ready fd' msg ok =>
    rcases hf : findFd s.fds fd' with _ | k
    · have hz : ∀ o, (if fd' = fd then none else findFd s.fds fd) = o → findFd s.fds fd = o := by
        intro o
        by_cases h : fd' = fd
        · subst h; simp [hf]
        · simp [h]
      rcases msg with _ | q
      · simp only [svcStep, hf, ownerOf, ← hz _ rfl]
      · rcases ok with _ | _
        · simp only [svcStep, hf, ownerOf]
          rw [← hz _ rfl]
        · simp only [svcStep, hf, ownerOf]
    · rcases msg with _ | q
      · simp only [svcStep, hf, ownerOf, findFd_remove]
      · rcases ok with _ | _
        · simp only [svcStep, hf, ownerOf, findFd_remove, Bool.false_eq_true, if_false]
        · simp only [svcStep, hf, ownerOf, if_true]

theorem owner_run {σ} (c : Cfg) (R : Range σ) (maps : Nat → Mapping) (fd : Int) :
    ∀ (ps : List Poll) (s : Svc σ),
      findFd (svcRun c R maps s ps).2.fds fd = ownerOf fd (findFd s.fds fd) ps := by
  intro ps
  induction ps with
  | nil => intro s; rfl
  | cons p ps ih =>
    intro s
    simp only [svcRun]
    rw [ih, owner_step]

/-- **C26.** A message that arrives on a socket is served exactly if the socket is registered, and then
for the sandbox first registered for it: it is received as it was sent, and every event of that
iteration concerns that sandbox.  On any other socket nothing happens. -/
theorem served_for_owner {σ} (c : Cfg) (R : Range σ) (maps : Nat → Mapping) (sys : Sys σ)
    (ps : List Poll) (fd : Int) (msg : Option Req) (ok : Bool) :
    match ownerOf fd none ps with
    | none => (svcStep c R maps (svcRun c R maps ⟨[], sys⟩ ps).2 (.ready fd msg ok)).1 = []
    | some i =>
      heard msg i (svcStep c R maps (svcRun c R maps ⟨[], sys⟩ ps).2 (.ready fd msg ok)).1 := by
  have h := owner_run c R maps fd ps ⟨[], sys⟩
  have h0 : findFd [] fd = none := rfl
  simp only [h0] at h
  rcases ho : ownerOf fd none ps with _ | i
  · rw [ho] at h
    simp only [svcStep, h]
  · rw [ho] at h
    rcases msg with _ | q
    · simp only [svcStep, h, heard, and_self]
    · rcases ok with _ | _ <;> simp [svcStep, h, heard, evOf]

/-- A second registration of a socket changes nothing until the socket is closed. -/
example : ownerOf 5 none [.add 5 0, .add 5 1] = some 0 ∧
    ownerOf 5 none [.add 5 0, .eof 5, .add 5 1] = some 1 := by decide

/-- **C26 is violated for unknown kinds.** Every request whose kind is neither `AllocChunk` nor
`DeallocChunk` is answered with error 0, that is, success, and value 0. -/
theorem unknown_kind_accepted {σ} (c : Cfg) (R : Range σ) (maps : Nat → Mapping) (s : Svc σ)
    (fd : Int) (i : Nat) (q : Req) (hfd : findFd s.fds fd = some i) (h0 : q.kind ≠ 0)
    (h1 : q.kind ≠ 1) :
    (svcStep c R maps s (.ready fd (some q) true)).1 = [.received i q, .replied i ⟨0, 0⟩] := by
  simp only [svcStep, hfd, serve, if_neg h0, if_neg h1, if_true]

/-- A run with two sandboxes: a request answered, one of unknown kind, a failed send, and a socket
that is no longer served. -/
example :
    let ps : List Poll := [.add 5 0, .add 7 1, .ready 5 (some ⟨0, 0x8000, 0, 0, 0⟩) true,
      .ready 7 (some ⟨9, 0, 0, 0, 0⟩) true, .ready 5 (some ⟨0, 0x4000, 0, 0, 0⟩) false,
      .ready 5 (some ⟨0, 0x4000, 0, 0, 0⟩) true]
    regs 0 [] ps ≤ 1 ∧ regs 1 [] ps ≤ 1 ∧
    (svcRun exCfg (buddyRange exCfg) exMap ⟨[], exSys⟩ ps).1 =
      [.received 0 ⟨0, 0x8000, 0, 0, 0⟩, .replied 0 ⟨0, 0x7f0000008000⟩,
       .received 1 ⟨9, 0, 0, 0, 0⟩, .replied 1 ⟨0, 0⟩,
       .received 0 ⟨0, 0x4000, 0, 0, 0⟩, .killed 0] := by
  decide +kernel

end Verif.Rpc
