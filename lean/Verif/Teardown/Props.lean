import Verif.Rpc.Props
import Verif.Teardown.Spec

/-!
# Destroying a sandbox: properties C27 and C28
-/

namespace Verif.Teardown

open Verif.Bounds Verif.Rpc Verif.Rpc.Spec Spec

theorem filterMap_ext {α β} {f g : α → Option β} : ∀ {l : List α}, (∀ x ∈ l, f x = g x) →
    l.filterMap f = l.filterMap g := by
  intro l
  induction l with
  | nil => intro _; rfl
  | cons x l ih =>
    intro h
    rw [List.filterMap_cons, List.filterMap_cons, h x (by simp), ih (fun y hy => h y (by simp [hy]))]

theorem sweep_spec (t : TCfg) (top : Nat) (htop : t.cfg.chunk ∣ top) : ∀ (d a : Nat) (pm : Pm),
    top - a ≤ d →
    (∀ j, (sweep t pm a top).1 j =
      if a / t.cfg.chunk ≤ j ∧ j < top / t.cfg.chunk then ⟨0, 0⟩ else pm j) ∧
    (sweep t pm a top).2 = (List.range' (a / t.cfg.chunk) (top / t.cfg.chunk - a / t.cfg.chunk)).filterMap
      (fun j => doomed t (pm j)) := by
  have hC := chunk_pos t.cfg
  obtain ⟨q, rfl⟩ := htop
  have hq : t.cfg.chunk * q / t.cfg.chunk = q := Nat.mul_div_cancel_left q hC
  intro d
  induction d with
  | zero =>
    intro a pm hd
    have hle : t.cfg.chunk * q ≤ a := by omega
    have h1 := Nat.div_le_div_right (c := t.cfg.chunk) hle
    rw [hq] at h1 ⊢
    rw [sweep, if_neg (by omega)]
    refine ⟨fun j => by rw [if_neg (by omega)], ?_⟩
    rw [show q - a / t.cfg.chunk = 0 by omega]
    rfl
  | succ d ih =>
    intro a pm hd
    by_cases hlt : a < t.cfg.chunk * q
    · have h2 : a / t.cfg.chunk < q := by
        rw [Nat.div_lt_iff_lt_mul hC, Nat.mul_comm]; exact hlt
      have h3 : (a + t.cfg.chunk) / t.cfg.chunk = a / t.cfg.chunk + 1 := Nat.add_div_right a hC
      obtain ⟨i1, i2⟩ := ih (a + t.cfg.chunk) (pm.set (a / t.cfg.chunk) ⟨0, 0⟩) (by omega)
      rw [sweep, if_pos hlt]
      rw [hq, h3] at i1 i2
      rw [hq]
      constructor
      · intro j
        simp only
        rw [i1 j]
        simp only [Pm.set]
        by_cases hj : j = a / t.cfg.chunk
        · rw [if_neg (by omega), if_pos hj, if_pos (by omega)]
        · rw [if_neg hj]
          by_cases hj2 : a / t.cfg.chunk + 1 ≤ j ∧ j < q
          · rw [if_pos hj2, if_pos (by omega)]
          · rw [if_neg hj2, if_neg (by omega)]
      · simp only
        rw [i2, show q - a / t.cfg.chunk = (q - (a / t.cfg.chunk + 1)) + 1 by omega, List.range'_succ,
          List.filterMap_cons]
        have hcongr : (List.range' (a / t.cfg.chunk + 1) (q - (a / t.cfg.chunk + 1))).filterMap
            (fun j => doomed t (pm.set (a / t.cfg.chunk) ⟨0, 0⟩ j)) =
            (List.range' (a / t.cfg.chunk + 1) (q - (a / t.cfg.chunk + 1))).filterMap
            (fun j => doomed t (pm j)) := by
          apply filterMap_ext
          intro j hj
          rw [List.mem_range'_1] at hj
          simp only [Pm.set]
          rw [if_neg (by omega)]
        rw [hcongr]
        rcases doomed t (pm (a / t.cfg.chunk)) with _ | w <;> rfl
    · have h1 := Nat.div_le_div_right (c := t.cfg.chunk) (Nat.le_of_not_lt hlt)
      rw [hq] at h1 ⊢
      rw [sweep, if_neg hlt]
      refine ⟨fun j => by rw [if_neg (by omega)], ?_⟩
      rw [show q - a / t.cfg.chunk = 0 by omega]
      rfl

theorem top_dvd (c : Cfg) (m : Mapping) (hm : MapOk c m) : c.chunk ∣ (m.region c).top.toNat := by
  rw [(region_base c m hm).2]
  exact Nat.dvd_add (map_dvd c m hm).1 (map_dvd c m hm).2

theorem meets_iff (c : Cfg) (m : Mapping) (hm : MapOk c m) (j : Nat) :
    MeetsHeap c m j ↔ (m.region c).base.toNat / c.chunk ≤ j ∧ j < (m.region c).top.toNat / c.chunk := by
  have hC : 0 < c.chunk := chunk_pos c
  have htop := top_dvd c m hm
  rw [(region_base c m hm).1]
  rw [(region_base c m hm).2] at htop ⊢
  unfold MeetsHeap
  have e : c.chunk = 2 ^ c.bits := rfl
  rw [← e]
  rw [Nat.lt_div_iff_mul_lt_of_dvd (by omega) htop, ← Nat.lt_succ_iff,
    Nat.div_lt_iff_lt_mul hC]
  exact ⟨fun h => ⟨h.2, h.1⟩, fun h => ⟨h.2, h.1⟩⟩

/-- **C27.** Destroying a sandbox empties every page-map entry whose chunk meets the sandbox's heap, and
changes no other entry, whatever the page map holds. -/
theorem destroy_clears (t : TCfg) (m : Mapping) (hm : MapOk t.cfg m) (pm : Pm) (j : Nat) :
    (MeetsHeap t.cfg m j → (destroy t m pm).1 j = ⟨0, 0⟩) ∧
    (¬ MeetsHeap t.cfg m j → (destroy t m pm).1 j = pm j) := by
  have h := (sweep_spec t _ (top_dvd t.cfg m hm) _ (m.region t.cfg).base.toNat pm (Nat.le_refl _)).1 j
  rw [meets_iff t.cfg m hm]
  unfold destroy
  rw [h]
  exact ⟨fun h => if_pos h, fun h => if_neg h⟩

/-- **C27.** In particular the entries of every other sandbox survive, as mappings are disjoint. -/
theorem destroy_others (t : TCfg) (m m' : Mapping) (hm : MapOk t.cfg m)
    (hdis : ∀ j, InMap (2 ^ t.cfg.bits) m' j → ¬ InMap (2 ^ t.cfg.bits) m j) (pm : Pm) (j : Nat)
    (hj : InMap (2 ^ t.cfg.bits) m' j) : (destroy t m pm).1 j = pm j := by
  apply (destroy_clears t m hm pm j).2
  intro hmeet
  apply hdis j hj
  obtain ⟨⟨a, ha⟩, ⟨b, hb⟩⟩ := map_dvd t.cfg m hm
  have hC : 0 < 2 ^ t.cfg.bits := Nat.two_pow_pos _
  unfold MeetsHeap at hmeet
  unfold InMap Covers
  rw [ha, hb] at hmeet ⊢
  obtain ⟨h1, h2⟩ := hmeet
  rw [← Nat.mul_add, Nat.mul_comm j, Nat.mul_lt_mul_left hC] at h1
  have h3 : 2 ^ t.cfg.bits * a < (j + 1) * 2 ^ t.cfg.bits := by omega
  rw [Nat.mul_comm (j + 1), Nat.mul_lt_mul_left hC] at h3
  refine ⟨?_, ?_⟩
  · rw [Nat.mul_comm j]; exact Nat.mul_le_mul_left _ (by omega)
  · rw [← Nat.mul_add, Nat.mul_comm (j + 1)]; exact Nat.mul_le_mul_left _ (by omega)

/-! ## Slab records -/

theorem doomed_iff (t : TCfg) (e : Entry) (w : Word) :
    doomed t e = some w ↔ HostLike t e ∧ w = slabOf t e := by
  have hso := sandboxOwned_iff e
  unfold doomed HostLike
  rcases h1 : t.backendOwned e with _ | _
  · rcases h2 : e.sandboxOwned with _ | _
    · have h3 : e.word.getLsbD 3 = false := by
        rcases h3 : e.word.getLsbD 3 with _ | _
        · rfl
        · rw [hso.2 h3] at h2; exact absurd h2 (by decide)
      by_cases h4 : t.cfg.remoteOf e.ras = 0
      · simp [h4]
      · rw [if_neg (by decide), if_pos ⟨rfl, h4⟩]
        simp only [Option.some.injEq]
        exact ⟨fun h => ⟨⟨trivial, h3, h4⟩, h.symm⟩, fun h => h.2.symm⟩
    · rw [if_neg (by decide), if_neg (by simp)]
      have h3 := hso.1 h2
      constructor
      · intro h; exact absurd h (by simp)
      · rintro ⟨⟨-, h, -⟩, -⟩; rw [h3] at h; exact absurd h (by decide)
  · simp

theorem slabOf_proper (t : TCfg) (slab ras : Word) (h : slab &&& (8#64 ||| t.boundary) = 0) :
    slabOf t ⟨slab, ras⟩ = slab := by
  have e : sandboxBit = 8#64 := by decide
  unfold slabOf
  simp only
  rw [e]
  apply BitVec.eq_of_getLsbD_eq
  intro i hi
  have hb := congrArg (fun w => w.getLsbD i) h
  simp only [BitVec.getLsbD_and, BitVec.getLsbD_not] at hb ⊢
  have hz : (0 : Word).getLsbD i = false := BitVec.getLsbD_zero
  rw [hz] at hb
  rcases hs : slab.getLsbD i with _ | _
  · simp
  · rw [hs, Bool.true_and] at hb
    rw [hb, decide_eq_true hi]
    rfl

/-- What one operation does to one page-map entry, whatever the request. -/
theorem step_entry {σ} (t : TCfg) (R : Range σ) (maps : Nat → Mapping) (Inv : Nat → σ → Prop)
    (hw : World t.cfg R maps Inv) (hM : Marks t R) (st : Sys σ) (hs : ∀ i, Inv i (st.ranges i))
    (op : Op) (hop : HostSane (2 ^ t.cfg.bits) maps op) (j : Nat) :
    ((step t.cfg R maps st op).2.pm j = st.pm j ∧
      ∀ i p n, op = .hostFree i p n → ¬ Covers (2 ^ t.cfg.bits) p n j) ∨
    t.backendOwned ((step t.cfg R maps st op).2.pm j) = true ∨
    Owned (step t.cfg R maps st op).2.pm j ∨
    ∃ i n slab ras p, op = .hostAlloc i n slab ras ∧ (step t.cfg R maps st op).1 = some p ∧
      Covers (2 ^ t.cfg.bits) p n j ∧ (step t.cfg R maps st op).2.pm j = ⟨slab, ras⟩ := by
  have hde : ∀ i p n, BlockIn (2 ^ t.cfg.bits) (maps i).base.toNat
      ((maps i).base.toNat + (maps i).size.toNat) p n →
      ((deallocRange t.cfg R (st.ranges i) st.pm p n).2 j = st.pm j ∧
        ¬ Covers (2 ^ t.cfg.bits) p n j) ∨
      t.backendOwned ((deallocRange t.cfg R (st.ranges i) st.pm p n).2 j) = true := by
    intro i p n hb
    have hset := setMeta_block t.cfg t.cfg.backendEntry st.pm p n j hb.2.1 (chunkSize_dvd hb.1)
    by_cases he : (deallocRange t.cfg R (st.ranges i) st.pm p n).2 j =
        setMeta t.cfg st.pm p (p + n) t.cfg.backendEntry j
    · rw [he, hset]
      by_cases hc : Covers (2 ^ t.cfg.bits) p n j
      · rw [if_pos hc]; exact Or.inr hM.entry
      · rw [if_neg hc]; exact Or.inl ⟨rfl, hc⟩
    · exact Or.inr (hM.dealloc _ _ _ _ _ he)
  cases op with
  | rpc i q =>
    have hnf : ∀ k p n, Op.rpc i q = .hostFree k p n → ¬ Covers (2 ^ t.cfg.bits) p n j := by
      intro k p n h; cases h
    by_cases h0 : q.kind = 0
    · obtain ⟨-, hbad⟩ := alloc_decided t.cfg R (maps i) (hw.maps_ok i) (hw.contained i)
        (st.ranges i) st.pm q (hs i) h0
      by_cases herr : (serve t.cfg R ((maps i).region t.cfg) (st.ranges i) st.pm q).1.error = 0
      · obtain ⟨-, -, hcov, hnc, -⟩ := alloc_claims t.cfg R (maps i) (hw.maps_ok i) (hw.contained i)
          (st.ranges i) st.pm q (hs i) h0 herr
        by_cases hc : Covers (2 ^ t.cfg.bits)
            (serve t.cfg R ((maps i).region t.cfg) (st.ranges i) st.pm q).1.ret.toNat q.a0.toNat j
        · exact Or.inr (Or.inr (Or.inl (hcov j hc).2))
        · have he := (hnc j hc).1
          by_cases heq : (R.alloc (st.ranges i) st.pm q.a0.toNat).2.2 j = st.pm j
          · exact Or.inl ⟨he.trans heq, hnf⟩
          · right; left
            show t.backendOwned ((serve t.cfg R ((maps i).region t.cfg) (st.ranges i) st.pm q).2.2 j)
              = true
            rw [he]
            exact hM.alloc _ _ _ _ heq
      · left
        refine ⟨?_, hnf⟩
        show (serve t.cfg R ((maps i).region t.cfg) (st.ranges i) st.pm q).2.2 j = st.pm j
        rw [(hbad herr).2]
    · by_cases h1 : q.kind = 1
      · obtain ⟨hd, -, hbad, hgood⟩ := dealloc_decided t.cfg R (maps i) (hw.maps_ok i)
          (st.ranges i) st.pm q h1
        by_cases herr : (serve t.cfg R ((maps i).region t.cfg) (st.ranges i) st.pm q).1.error = 0
        · obtain ⟨c1, c2, c3, c4, -⟩ := hd.1 herr
          have := hde i q.a0.toNat q.a1.toNat ⟨c3, c4, by omega, c2⟩
          rcases this with ⟨h, -⟩ | h
          · left
            refine ⟨?_, hnf⟩
            show (serve t.cfg R ((maps i).region t.cfg) (st.ranges i) st.pm q).2.2 j = st.pm j
            rw [hgood herr]; exact h
          · right; left
            show t.backendOwned ((serve t.cfg R ((maps i).region t.cfg) (st.ranges i) st.pm q).2.2 j)
              = true
            rw [hgood herr]; exact h
        · left
          refine ⟨?_, hnf⟩
          show (serve t.cfg R ((maps i).region t.cfg) (st.ranges i) st.pm q).2.2 j = st.pm j
          rw [hbad herr]
      · left
        refine ⟨?_, hnf⟩
        show (serve t.cfg R ((maps i).region t.cfg) (st.ranges i) st.pm q).2.2 j = st.pm j
        rw [serve, if_neg h0, if_neg h1]
  | hostAlloc i size slab ras =>
    have hnf : ∀ k p n, Op.hostAlloc i size slab ras = .hostFree k p n →
        ¬ Covers (2 ^ t.cfg.bits) p n j := by
      intro k p n h; cases h
    rcases hr : R.alloc (st.ranges i) st.pm size with ⟨_ | p, s', pm'⟩
    · have hn := (hw.contained i).alloc_none _ st.pm size (hs i) hop.1 (by rw [hr])
      rw [hr] at hn
      simp only [Prod.mk.injEq] at hn
      left
      refine ⟨?_, hnf⟩
      simp only [step, hostAlloc, hr, Sys.put, hn.2]
    · have hin := (hw.contained i).alloc_in _ st.pm size p (hs i) hop.1 (by rw [hr])
      have hma := hM.alloc (st.ranges i) st.pm size j
      rw [hr] at hma
      have hset := setMeta_block t.cfg ⟨slab, ras⟩ pm' p size j hin.2.1 (chunkSize_dvd hin.1)
      have he : (step t.cfg R maps st (.hostAlloc i size slab ras)).2.pm j =
          if Covers (2 ^ t.cfg.bits) p size j then ⟨slab, ras⟩ else pm' j := by
        rw [← hset]
        simp only [step, hostAlloc, hr, Sys.put]
      rw [he]
      by_cases hc : Covers (2 ^ t.cfg.bits) p size j
      · rw [if_pos hc]
        right; right; right
        exact ⟨i, size, slab, ras, p, rfl, by simp only [step, hostAlloc, hr], hc, rfl⟩
      · rw [if_neg hc]
        by_cases heq : pm' j = st.pm j
        · exact Or.inl ⟨heq, hnf⟩
        · exact Or.inr (Or.inl (hma heq))
  | hostFree i p n =>
    rcases hde i p n hop with ⟨h, hc⟩ | h
    · left
      refine ⟨h, ?_⟩
      intro k p' n' he
      cases he
      exact hc
    · exact Or.inr (Or.inl h)

/-- Every entry that looks like the host's belongs to a live record. -/
def Backed (t : TCfg) (pm : Pm) (recs : List Rec) : Prop :=
  ∀ j, HostLike t (pm j) → ∃ r ∈ recs, Covers (2 ^ t.cfg.bits) r.p r.size j ∧
    pm j = ⟨r.slab, r.ras⟩ ∧ slabOf t (pm j) = r.slab

theorem step_backed {σ} (t : TCfg) (R : Range σ) (maps : Nat → Mapping) (Inv : Nat → σ → Prop)
    (hw : World t.cfg R maps Inv) (hM : Marks t R) (st : Sys σ) (hs : ∀ i, Inv i (st.ranges i))
    (recs : List Rec) (hb : Backed t st.pm recs) (op : Op) (hop : HostSane (2 ^ t.cfg.bits) maps op)
    (hpe : ProperEntry t op) :
    Backed t (step t.cfg R maps st op).2.pm (recStep recs op (step t.cfg R maps st op).1) := by
  intro j hl
  rcases step_entry t R maps Inv hw hM st hs op hop j with ⟨he, hnf⟩ | h | h | h
  · rw [he] at hl
    obtain ⟨r, hr, hc, hpm, hsl⟩ := hb j hl
    rw [he]
    refine ⟨r, ?_, hc, hpm, hsl⟩
    unfold recStep
    split
    · exact List.mem_cons_of_mem _ hr
    · rename_i i p n
      rw [List.mem_eraseP_of_neg]
      · exact hr
      · intro heq
        simp only [beq_iff_eq, Rec.block, Prod.mk.injEq] at heq
        obtain ⟨-, e2, e3⟩ := heq
        rw [e2, e3] at hc
        exact hnf i p n rfl hc
    · exact hr
  · rw [hl.1] at h; exact absurd h (by decide)
  · unfold Owned at h; rw [hl.2.1] at h; exact absurd h (by decide)
  · obtain ⟨i, n, slab, ras, p, rfl, hg, hc, hpm⟩ := h
    rw [hg]
    refine ⟨⟨i, p, n, slab, ras⟩, by simp [recStep], hc, hpm, ?_⟩
    rw [hpm]
    exact slabOf_proper t slab ras hpe.2.2

theorem run_backed {σ} (t : TCfg) (R : Range σ) (maps : Nat → Mapping) (Inv : Nat → σ → Prop)
    (hw : World t.cfg R maps Inv) (hM : Marks t R) : ∀ (ops : List Op) (st : Sys σ)
    (_ : ∀ i, Inv i (st.ranges i)) (recs : List Rec) (_ : Backed t st.pm recs)
    (_ : ∀ op ∈ ops, HostSane (2 ^ t.cfg.bits) maps op ∧ ProperEntry t op),
    Backed t (runOps t.cfg R maps st ops).2.pm (recRun t.cfg R maps st recs ops).2.2 := by
  intro ops
  induction ops with
  | nil => intro st _ recs hb _; exact hb
  | cons op ops ih =>
    intro st hs recs hb hops
    obtain ⟨h1, h2⟩ := hops op (by simp)
    exact ih _ (step_frame t.cfg R maps Inv hw st op hs h1).1 _
      (step_backed t R maps Inv hw hM st hs recs hb op h1 h2) (fun o ho => hops o (by simp [ho]))

theorem destroy_deletes (t : TCfg) (m : Mapping) (hm : MapOk t.cfg m) (pm : Pm) :
    (destroy t m pm).2 = (List.range' ((m.region t.cfg).base.toNat / t.cfg.chunk)
      ((m.region t.cfg).top.toNat / t.cfg.chunk - (m.region t.cfg).base.toNat / t.cfg.chunk)).filterMap
      (fun j => doomed t (pm j)) :=
  (sweep_spec t _ (top_dvd t.cfg m hm) _ (m.region t.cfg).base.toNat pm (Nat.le_refl _)).2

/-- **C28.** Whatever the sandboxes requested, including misaligned releases, every address that the
destructor deletes is that of a live slab record created by the host for a chunk that meets the heap of
the sandbox being destroyed; so an address supplied by a sandbox is never deleted, and neither is a
record already deleted by `dealloc_chunk`. -/
theorem destroy_only_live {σ} (t : TCfg) (R : Range σ) (maps : Nat → Mapping) (Inv : Nat → σ → Prop)
    (hw : World t.cfg R maps Inv) (hM : Marks t R) (st : Sys σ) (hs : ∀ i, Inv i (st.ranges i))
    (hst : ∀ j, ¬ HostLike t (st.pm j)) (ops : List Op)
    (hops : ∀ op ∈ ops, HostSane (2 ^ t.cfg.bits) maps op ∧ ProperEntry t op) (i : Nat) (w : Word)
    (h : w ∈ (destroy t (maps i) (runOps t.cfg R maps st ops).2.pm).2) :
    ∃ r ∈ (recRun t.cfg R maps st [] ops).2.2, w = r.slab ∧
      ∃ j, MeetsHeap t.cfg (maps i) j ∧ Covers (2 ^ t.cfg.bits) r.p r.size j := by
  have hb := run_backed t R maps Inv hw hM ops st hs [] (fun j hj => absurd hj (hst j)) hops
  rw [destroy_deletes t (maps i) (hw.maps_ok i), List.mem_filterMap] at h
  obtain ⟨j, hj, hd⟩ := h
  rw [List.mem_range'_1] at hj
  obtain ⟨hl, rfl⟩ := (doomed_iff t _ _).1 hd
  obtain ⟨r, hr, hc, hpm, hsl⟩ := hb j hl
  exact ⟨r, hr, hsl, j, (meets_iff t.cfg (maps i) (hw.maps_ok i) j).2 (by omega), hc⟩

/-- **C28.** Records are neither lost nor made up: those created are those deleted by `dealloc_chunk`
and those alive, each as often as it was created. -/
theorem records_conserved {σ} (c : Cfg) (R : Range σ) (maps : Nat → Mapping) : ∀ (ops : List Op)
    (st : Sys σ) (recs : List Rec),
    List.Perm ((recRun c R maps st recs ops).1 ++ recs)
      ((recRun c R maps st recs ops).2.1 ++ (recRun c R maps st recs ops).2.2) := by
  intro ops
  induction ops with
  | nil => intro st recs; exact List.Perm.refl _
  | cons op ops ih =>
    intro st recs
    have hi := ih (step c R maps st op).2 (recStep recs op (step c R maps st op).1)
    have hstep : List.Perm (madeStep op (step c R maps st op).1 ++ recs)
        (freedStep recs op ++ recStep recs op (step c R maps st op).1) := by
      unfold madeStep freedStep recStep
      cases op with
      | rpc i q => simp
      | hostAlloc i size slab ras =>
        rcases (step c R maps st (.hostAlloc i size slab ras)).1 with _ | p <;> simp
      | hostFree i p size =>
        simp only [List.nil_append]
        rcases hf : recs.find? (fun r => r.block == (i, p, size)) with _ | r
        · have : recs.eraseP (fun r => r.block == (i, p, size)) = recs := by
            apply List.eraseP_of_forall_not
            intro r hr h
            exact (List.find?_eq_none.1 hf r hr) h
          rw [this, hf]
          simp
        · obtain ⟨h1, as, bs, rfl, h2⟩ := List.find?_eq_some_iff_append.1 hf
          rw [List.eraseP_append_right _ (by intro b hb; simpa using h2 b hb), hf]
          simp only [Option.toList, List.singleton_append, List.eraseP_cons, h1, cond_true]
          exact List.perm_middle
    simp only [recRun]
    calc List.Perm _ (madeStep op (step c R maps st op).1 ++ recs ++
          (recRun c R maps (step c R maps st op).2
            (recStep recs op (step c R maps st op).1) ops).1) := by
          rw [List.append_assoc, List.append_assoc]
          exact (List.Perm.append_left _ List.perm_append_comm)
      _ |>.Perm (freedStep recs op ++ recStep recs op (step c R maps st op).1 ++
          (recRun c R maps (step c R maps st op).2
            (recStep recs op (step c R maps st op).1) ops).1) := hstep.append_right _
      _ |>.Perm _ := by
          rw [List.append_assoc, List.append_assoc]
          exact List.Perm.append_left _ (List.perm_append_comm.trans hi)

/-- In a tidy state an entry that is neither free nor sandbox-owned changes only if the host frees
it. -/
theorem tidy_keeps {σ} (c : Cfg) (R : Range σ) (maps : Nat → Mapping) (S : Nat → Prop)
    (Good : Nat → σ → (Nat → Prop) → Prop) (hw : World2 c R maps S Good) (st : Sys σ) (live : Live)
    (F : Nat → Nat → Prop) (ht : Tidy c maps S Good st live F) (op : Op) (hi : S (sandboxOf op))
    (hop : HostOk (2 ^ c.bits) live op) (har : AlignedRelease op) (j : Nat)
    (hnf : ∀ i, S i → ¬ F i j) (hno : ¬ Owned st.pm j)
    (hfree : ∀ i p n, op = .hostFree i p n → ¬ Covers (2 ^ c.bits) p n j) :
    (step c R maps st op).2.pm j = st.pm j := by
  have hde : ∀ i p n, S i → BlockIn (2 ^ c.bits) (maps i).base.toNat
      ((maps i).base.toNat + (maps i).size.toNat) p n → n ∣ p →
      (∀ k, Covers (2 ^ c.bits) p n k → ¬ F i k) → ¬ Covers (2 ^ c.bits) p n j →
      (deallocRange c R (st.ranges i) st.pm p n).2 j = st.pm j := by
    intro i p n hi hb hal hd hc
    have hset := setMeta_block c c.backendEntry st.pm p n j hb.2.1 (chunkSize_dvd hb.1)
    rw [if_neg hc] at hset
    have hfr := (hw.exact i hi).dealloc_frame _ _ (setMeta c st.pm p (p + n) c.backendEntry) p n j
      (ht.good i hi) hb hal hd
    by_cases he : (deallocRange c R (st.ranges i) st.pm p n).2 j =
        setMeta c st.pm p (p + n) c.backendEntry j
    · rw [he, hset]
    · rcases (hfr he).1 with h | h
      · exact absurd h (hnf i hi)
      · exact absurd h hc
  have hal : ∀ i n p (t : Entry), S i → ChunkSize (2 ^ c.bits) n →
      (R.alloc (st.ranges i) st.pm n).1 = some p →
      setMeta c (R.alloc (st.ranges i) st.pm n).2.2 p (p + n) t j = st.pm j := by
    intro i n p t hi hn hp
    obtain ⟨h1, -, h3, -⟩ := (hw.exact i hi).alloc_some _ _ st.pm n p (ht.good i hi) hn hp
    rw [setMeta_block c t _ p n j h1.2.1 (chunkSize_dvd h1.1)]
    have hc : ¬ Covers (2 ^ c.bits) p n j := fun hc => hnf i hi (h3 j hc)
    rw [if_neg hc]
    by_cases he : (R.alloc (st.ranges i) st.pm n).2.2 j = st.pm j
    · exact he
    · exact absurd ((hw.exact i hi).alloc_frame _ _ st.pm n j (ht.good i hi) hn he).1 (hnf i hi)
  cases op with
  | rpc i q =>
    have hi : S i := hi
    show (serve c R ((maps i).region c) (st.ranges i) st.pm q).2.2 j = st.pm j
    by_cases h0 : q.kind = 0
    · rcases exact_alloc_decided c R (maps i) (hw.exact i hi) (hw.maps_ok i hi) _ st.pm q
        (ht.good i hi) h0 with ⟨-, h⟩ | ⟨p, hsz, hp, -, h⟩
      · rw [h]
      · rw [h]
        exact hal i _ p _ hi hsz hp
    · by_cases h1 : q.kind = 1
      · obtain ⟨hd, -, hbad, hgood⟩ := dealloc_decided c R (maps i) (hw.maps_ok i hi)
          (st.ranges i) st.pm q h1
        by_cases herr : (serve c R ((maps i).region c) (st.ranges i) st.pm q).1.error = 0
        · obtain ⟨c1, c2, c3, c4, c5⟩ := hd.1 herr
          rw [hgood herr]
          exact hde i _ _ hi ⟨c3, c4, by omega, c2⟩ (har h1)
            (fun k hk => ht.owned_not_free i hi k (c5 k hk)) (fun hc => hno (c5 j hc))
        · rw [hbad herr]
      · rw [serve, if_neg h0, if_neg h1]
  | hostAlloc i size slab ras =>
    have hi : S i := hi
    rcases hr : (R.alloc (st.ranges i) st.pm size).1 with _ | p
    · have hn := (hw.exact i hi).alloc_none _ _ st.pm size (ht.good i hi) hop.1 hr
      show (hostAlloc c R (st.ranges i) st.pm size slab ras).2.2 j = st.pm j
      unfold hostAlloc
      rcases hr2 : R.alloc (st.ranges i) st.pm size with ⟨_ | p, s', pm'⟩
      · rw [hr2] at hn
        simp only [Prod.mk.injEq] at hn
        simp only [hn.2]
      · rw [hr2] at hr; simp at hr
    · have := hal i size p ⟨slab, ras⟩ hi hop.1 hr
      show (hostAlloc c R (st.ranges i) st.pm size slab ras).2.2 j = st.pm j
      unfold hostAlloc
      rcases hr2 : R.alloc (st.ranges i) st.pm size with ⟨_ | p', s', pm'⟩
      · rw [hr2] at hr; simp at hr
      · rw [hr2] at hr this
        simp only [Option.some.injEq] at hr
        subst hr
        exact this
  | hostFree i p n =>
    have hi : S i := hi
    have hmem : (i, p, n) ∈ live := hop
    obtain ⟨l1, l2⟩ := ht.live_in _ hmem
    exact hde i p n hi l1 l2 (fun k hk => ht.live_not_free _ hmem i hi k hk) (hfree i p n rfl)

/-- The entries of every live record hold that record. -/
def Held (c : Cfg) (pm : Pm) (recs : List Rec) : Prop :=
  ∀ r ∈ recs, ∀ j, Covers (2 ^ c.bits) r.p r.size j → pm j = ⟨r.slab, r.ras⟩

theorem recStep_live (recs : List Rec) (op : Op) (g : Given) :
    (recStep recs op g).map Rec.block = liveStep (recs.map Rec.block) op g := by
  cases op with
  | rpc i q => rfl
  | hostAlloc i size slab ras => rcases g with _ | p <;> rfl
  | hostFree i p size =>
    simp only [recStep, liveStep]
    rw [List.erase_eq_eraseP, List.eraseP_map]
    congr 1
    congr 1
    funext r
    simp only [Function.comp_apply, Bool.beq_comm (a := r.block)]

theorem step_held {σ} (c : Cfg) (R : Range σ) (maps : Nat → Mapping) (S : Nat → Prop)
    (Good : Nat → σ → (Nat → Prop) → Prop) (hw : World2 c R maps S Good) (st : Sys σ)
    (recs : List Rec) (F : Nat → Nat → Prop)
    (ht : Tidy c maps S Good st (recs.map Rec.block) F) (op : Op) (hi : S (sandboxOf op))
    (hop : HostOk (2 ^ c.bits) (recs.map Rec.block) op) (har : AlignedRelease op)
    (hh : Held c st.pm recs) :
    Held c (step c R maps st op).2.pm (recStep recs op (step c R maps st op).1) := by
  have old : ∀ r ∈ recs, (∀ i p n j, op = .hostFree i p n →
      Covers (2 ^ c.bits) r.p r.size j → ¬ Covers (2 ^ c.bits) p n j) →
      ∀ j, Covers (2 ^ c.bits) r.p r.size j →
        (step c R maps st op).2.pm j = ⟨r.slab, r.ras⟩ := by
    intro r hr hd j hc
    have hm : r.block ∈ recs.map Rec.block := List.mem_map_of_mem hr
    rw [tidy_keeps c R maps S Good hw st _ F ht op hi hop har j
      (fun i hi => ht.live_not_free _ hm i hi j hc) (ht.separate.2 _ hm j hc)
      (fun i p n he => hd i p n j he hc)]
    exact hh r hr j hc
  cases op with
  | rpc i q => exact fun r hr => old r hr (fun i p n j h => by cases h)
  | hostAlloc i size slab ras =>
    intro r hr
    rcases hg : (step c R maps st (.hostAlloc i size slab ras)).1 with _ | p
    · rw [hg] at hr
      exact old r hr (fun i p n j h => by cases h)
    · rw [hg] at hr
      simp only [recStep, List.mem_cons] at hr
      rcases hr with rfl | hr
      · intro j hc
        have hg' : (hostAlloc c R (st.ranges i) st.pm size slab ras).1 = some p := hg
        show (hostAlloc c R (st.ranges i) st.pm size slab ras).2.2 j = ⟨slab, ras⟩
        unfold hostAlloc at hg' ⊢
        rcases hr2 : R.alloc (st.ranges i) st.pm size with ⟨_ | p', s', pm'⟩
        · rw [hr2] at hg'; simp at hg'
        · rw [hr2] at hg'
          simp only [Option.some.injEq] at hg'
          subst hg'
          obtain ⟨h1, -⟩ := (hw.exact i hi).alloc_some _ _ st.pm size p' (ht.good i hi) hop.1
            (by rw [hr2])
          simp only
          rw [setMeta_block c _ _ p' size j h1.2.1 (chunkSize_dvd h1.1), if_pos hc]
      · exact old r hr (fun i p n j h => by cases h)
  | hostFree i p n =>
    intro r hr
    simp only [recStep] at hr
    have hmem : (i, p, n) ∈ recs.map Rec.block := hop
    obtain ⟨r0, hr0, he0⟩ := List.mem_map.1 hmem
    obtain ⟨a, l1, l2, -, ha, hl, hl'⟩ := List.exists_of_eraseP (p := fun r => r.block == (i, p, n))
      hr0 (by simpa using he0)
    have hsub : r ∈ recs := List.mem_of_mem_eraseP hr
    refine old r hsub ?_
    intro i' p' n' j he hc hc'
    cases he
    rw [hl'] at hr
    have hpw := ht.separate.1
    rw [hl, List.map_append, List.map_cons, List.pairwise_append, List.pairwise_cons] at hpw
    simp only [beq_iff_eq] at ha
    rcases List.mem_append.1 hr with h | h
    · have := hpw.2.2 r.block (List.mem_map_of_mem h) a.block (by simp) j
      rw [ha] at this
      exact this ⟨hc, hc'⟩
    · have := hpw.2.1.1 r.block (List.mem_map_of_mem h) j
      rw [ha] at this
      exact this ⟨hc', hc⟩

theorem sane_of_ok {σ} (c : Cfg) (maps : Nat → Mapping) (S : Nat → Prop)
    (Good : Nat → σ → (Nat → Prop) → Prop) (st : Sys σ) (live : Live)
    (F : Nat → Nat → Prop) (ht : Tidy c maps S Good st live F) (op : Op)
    (hop : HostOk (2 ^ c.bits) live op) : HostSane (2 ^ c.bits) maps op := by
  cases op with
  | rpc i q => trivial
  | hostAlloc i size slab ras => exact hop
  | hostFree i p n => exact (ht.live_in _ hop).1

/-- In well-behaved runs the records and the page map agree. -/
theorem run_agree {σ} (t : TCfg) (R : Range σ) (maps : Nat → Mapping) (Inv : Nat → σ → Prop)
    (hw : World t.cfg R maps Inv) (hM : Marks t R) (S : Nat → Prop)
    (Good : Nat → σ → (Nat → Prop) → Prop) (hw2 : World2 t.cfg R maps S Good) : ∀ (ops : List Op)
    (st : Sys σ) (recs : List Rec) (F : Nat → Nat → Prop), (∀ i, Inv i (st.ranges i)) →
    Tidy t.cfg maps S Good st (recs.map Rec.block) F → Backed t st.pm recs → Held t.cfg st.pm recs →
    (∀ r ∈ recs, HostLike t ⟨r.slab, r.ras⟩ ∧ slabOf t ⟨r.slab, r.ras⟩ = r.slab) →
    Behaved t.cfg R maps S st (recs.map Rec.block) ops → (∀ op ∈ ops, ProperEntry t op) →
    let st' := (runOps t.cfg R maps st ops).2
    let recs' := (recRun t.cfg R maps st recs ops).2.2
    (∃ F', Tidy t.cfg maps S Good st' (recs'.map Rec.block) F') ∧ Backed t st'.pm recs' ∧
    Held t.cfg st'.pm recs' ∧
    ∀ r ∈ recs', HostLike t ⟨r.slab, r.ras⟩ ∧ slabOf t ⟨r.slab, r.ras⟩ = r.slab := by
  intro ops
  induction ops with
  | nil => intro st recs F _ ht hb hh hp _ _; exact ⟨⟨F, ht⟩, hb, hh, hp⟩
  | cons op ops ih =>
    intro st recs F hs ht hb hh hp hbeh hpe
    obtain ⟨b0, b1, b2, b3⟩ := hbeh
    have hsane := sane_of_ok t.cfg maps S Good st _ F ht op b1
    obtain ⟨⟨F', ht'⟩, -⟩ := step_tidy t.cfg R maps S Good hw2 st _ F ht op b0 b1 b2
    rw [← recStep_live] at ht' b3
    refine ih _ _ F' (step_frame t.cfg R maps Inv hw st op hs hsane).1 ht'
      (step_backed t R maps Inv hw hM st hs recs hb op hsane (hpe op (by simp)))
      (step_held t.cfg R maps S Good hw2 st recs F ht op b0 b1 b2 hh) ?_ b3
      (fun o ho => hpe o (by simp [ho]))
    intro r hr
    cases op with
    | rpc i q => exact hp r hr
    | hostAlloc i size slab ras =>
      have hpe := hpe (.hostAlloc i size slab ras) (by simp)
      rcases hg : (step t.cfg R maps st (.hostAlloc i size slab ras)).1 with _ | p
      · rw [hg] at hr; exact hp r hr
      · rw [hg] at hr
        simp only [recStep, List.mem_cons] at hr
        rcases hr with rfl | hr
        · exact ⟨⟨hpe.2.1, b1.2, hpe.1⟩, slabOf_proper t slab ras hpe.2.2⟩
        · exact hp r hr
    | hostFree i p n => exact hp r (List.mem_of_mem_eraseP hr)

theorem countP_range (a m n s : Nat) (h1 : s ≤ a) (h2 : a + m ≤ s + n) :
    (List.range' s n).countP (fun j => decide (a ≤ j ∧ j < a + m)) = m := by
  have e : List.range' s n = List.range' s (a - s) ++
      (List.range' a m ++ List.range' (a + m) (s + n - (a + m))) := by
    have e1 : List.range' a m ++ List.range' (a + m) (s + n - (a + m)) =
        List.range' a (m + (s + n - (a + m))) := List.range'_append_1
    rw [e1]
    have e2 : List.range' s (a - s) ++ List.range' (s + (a - s)) (m + (s + n - (a + m))) =
        List.range' s (a - s + (m + (s + n - (a + m)))) := List.range'_append_1
    rw [show s + (a - s) = a by omega] at e2
    rw [e2]
    congr 1
    omega
  rw [e, List.countP_append, List.countP_append]
  have c1 : (List.range' s (a - s)).countP (fun j => decide (a ≤ j ∧ j < a + m)) = 0 := by
    rw [List.countP_eq_zero]
    intro j hj
    rw [List.mem_range'_1] at hj
    simp only [decide_eq_true_eq]
    omega
  have c2 : (List.range' a m).countP (fun j => decide (a ≤ j ∧ j < a + m)) = m := by
    have : (List.range' a m).countP (fun j => decide (a ≤ j ∧ j < a + m)) =
        (List.range' a m).length := by
      rw [List.countP_eq_length]
      intro j hj
      rw [List.mem_range'_1] at hj
      simp only [decide_eq_true_eq]
      omega
    rw [this, List.length_range']
  have c3 : (List.range' (a + m) (s + n - (a + m))).countP
      (fun j => decide (a ≤ j ∧ j < a + m)) = 0 := by
    rw [List.countP_eq_zero]
    intro j hj
    rw [List.mem_range'_1] at hj
    simp only [decide_eq_true_eq]
    omega
  omega

theorem count_filterMap {α β} [BEq β] [LawfulBEq β] (f : α → Option β) (w : β) : ∀ (l : List α),
    (l.filterMap f).count w = l.countP (fun x => f x == some w) := by
  intro l
  induction l with
  | nil => rfl
  | cons x l ih =>
    rw [List.filterMap_cons, List.countP_cons]
    rcases hf : f x with _ | y
    · simpa using ih
    · simp only [List.count_cons, ih]
      rfl

/-- **C28 (part that holds).** In every run in which sandbox releases are aligned to their size, the
destructor deletes the record of a live block of the destroyed sandbox once for every chunk of the
block, and deletes nothing else.  So records of one-chunk blocks are deleted exactly once.  What is
missing for the full property: blocks of more than one chunk, whose record is deleted again for each
further chunk (`deleted_twice`). -/
theorem delete_count_partial {σ} (t : TCfg) (R : Range σ) (maps : Nat → Mapping)
    (Inv : Nat → σ → Prop) (hw : World t.cfg R maps Inv) (hM : Marks t R) (S : Nat → Prop)
    (Good : Nat → σ → (Nat → Prop) → Prop) (hw2 : World2 t.cfg R maps S Good)
    (hhdr : t.cfg.hdr.toNat < 2 ^ t.cfg.bits) (st : Sys σ)
    (F : Nat → Nat → Prop) (hgood : ∀ i, S i → Good i (st.ranges i) (F i))
    (hs : ∀ i, Inv i (st.ranges i)) (hfree : ∀ j, ¬ Owned st.pm j)
    (hst : ∀ j, ¬ HostLike t (st.pm j)) (ops : List Op)
    (hb : Behaved t.cfg R maps S st [] ops) (hpe : ∀ op ∈ ops, ProperEntry t op)
    (hdist : ((recRun t.cfg R maps st [] ops).2.2.map Rec.slab).Nodup) (i : Nat) (hi : S i) :
    let live := (recRun t.cfg R maps st [] ops).2.2
    let deleted := (destroy t (maps i) (runOps t.cfg R maps st ops).2.pm).2
    (∀ r ∈ live, r.sb = i → deleted.count r.slab * 2 ^ t.cfg.bits = r.size) ∧
    (∀ r ∈ live, S r.sb → r.sb ≠ i → r.slab ∉ deleted) ∧
    (∀ w ∈ deleted, w ∈ live.map Rec.slab) := by
  have ht : Tidy t.cfg maps S Good st [] F :=
    ⟨hgood, fun i _ j ho => absurd ho (hfree j), by simp, by simp, by simp, by simp⟩
  obtain ⟨⟨F', ht'⟩, hbk, hh, hp⟩ := run_agree t R maps Inv hw hM S Good hw2 ops st [] F hs ht
    (fun j hj => absurd hj (hst j)) (by intro r hr; simp at hr) (by intro r hr; simp at hr) hb hpe
  intro live deleted
  have hm := hw.maps_ok i
  have hdel := destroy_deletes t (maps i) hm (runOps t.cfg R maps st ops).2.pm
  have hC : 0 < 2 ^ t.cfg.bits := Nat.two_pow_pos _
  have ec : t.cfg.chunk = 2 ^ t.cfg.bits := rfl
  have huniq : ∀ r ∈ live, ∀ r' ∈ live, r.slab = r'.slab → r = r' := by
    intro r hr r' hr' he
    have hpw := List.pairwise_map.1 hdist
    rcases List.mem_iff_getElem.1 hr with ⟨a, ha, rfl⟩
    rcases List.mem_iff_getElem.1 hr' with ⟨b, hb', rfl⟩
    rw [List.pairwise_iff_getElem] at hpw
    rcases Nat.lt_trichotomy a b with h | h | h
    · exact absurd he (hpw a b ha hb' h)
    · subst h; rfl
    · exact absurd he.symm (hpw b a hb' ha h)
  have hdoom : ∀ r ∈ live, ∀ j, doomed t ((runOps t.cfg R maps st ops).2.pm j) = some r.slab ↔
      Covers (2 ^ t.cfg.bits) r.p r.size j := by
    intro r hr j
    rw [doomed_iff]
    constructor
    · rintro ⟨hl, he⟩
      obtain ⟨r', hr', hc, hpm, hsl⟩ := hbk j hl
      have := huniq r hr r' hr' (he.trans hsl)
      subst this
      exact hc
    · intro hc
      rw [hh r hr j hc]
      exact ⟨(hp r hr).1, (hp r hr).2.symm⟩
  have hin := fun r hr => ht'.live_in (Rec.block r) (List.mem_map_of_mem (f := Rec.block) (a := r) hr)
  have only : ∀ w ∈ deleted, w ∈ live.map Rec.slab := by
    intro w hw'
    show w ∈ live.map Rec.slab
    have hw'' : w ∈ (destroy t (maps i) (runOps t.cfg R maps st ops).2.pm).2 := hw'
    rw [hdel, List.mem_filterMap] at hw''
    obtain ⟨j, -, hd⟩ := hw''
    obtain ⟨hl, rfl⟩ := (doomed_iff t _ _).1 hd
    obtain ⟨r, hr, -, -, hsl⟩ := hbk j hl
    exact List.mem_map.2 ⟨r, hr, hsl.symm⟩
  refine ⟨?_, ?_, only⟩
  · intro r hr hri
    obtain ⟨⟨b1, b2, b3, b4⟩, -⟩ := hin r hr
    simp only [Rec.block] at b1 b2 b3 b4
    rw [hri] at b3 b4
    have hdv := chunkSize_dvd b1
    obtain ⟨a, ha⟩ := b2
    obtain ⟨m, hm'⟩ := hdv
    obtain ⟨⟨bq, hbq⟩, ⟨sq, hsq⟩⟩ := map_dvd t.cfg (maps i) hm
    show (destroy t (maps i) (runOps t.cfg R maps st ops).2.pm).2.count r.slab * 2 ^ t.cfg.bits = _
    rw [hdel, count_filterMap]
    have hcg : (fun x => doomed t ((runOps t.cfg R maps st ops).2.pm x) == some r.slab) =
        (fun j => decide (a ≤ j ∧ j < a + m)) := by
      funext j
      rw [Bool.eq_iff_iff, beq_iff_eq, hdoom r hr j, decide_eq_true_eq]
      unfold Covers
      rw [ha, hm', ← Nat.mul_add, Nat.mul_comm j, Nat.mul_comm (j + 1),
        Nat.mul_le_mul_left_iff hC, Nat.mul_le_mul_left_iff hC]
      omega
    rw [hcg, ec, (region_base t.cfg (maps i) hm).1, (region_base t.cfg (maps i) hm).2, hbq, hsq,
      ← Nat.mul_add, Nat.mul_div_cancel_left _ hC, Nat.mul_add_div hC,
      Nat.div_eq_of_lt hhdr, Nat.add_zero]
    rw [ha, hbq, Nat.mul_le_mul_left_iff hC] at b3
    rw [ha, hm', hbq, hsq, ← Nat.mul_add, ← Nat.mul_add, Nat.mul_le_mul_left_iff hC] at b4
    rw [countP_range a m _ bq b3 (by omega), hm', Nat.mul_comm]
  · intro r hr hS hne hmem
    have hw'' : r.slab ∈ (destroy t (maps i) (runOps t.cfg R maps st ops).2.pm).2 := hmem
    rw [hdel, List.mem_filterMap] at hw''
    obtain ⟨j, hj, hd⟩ := hw''
    rw [List.mem_range'_1] at hj
    have hc := (hdoom r hr j).1 hd
    obtain ⟨⟨b1, b2, b3, b4⟩, -⟩ := hin r hr
    simp only [Rec.block] at b1 b2 b3 b4
    have hmr : InMap (2 ^ t.cfg.bits) (maps r.sb) j := by
      unfold InMap Covers
      unfold Covers at hc
      omega
    have hmeet := (meets_iff t.cfg (maps i) hm j).2 (by omega)
    obtain ⟨⟨bq, hbq⟩, ⟨sq, hsq⟩⟩ := map_dvd t.cfg (maps i) hm
    refine hw2.disjoint i r.sb hi hS (fun h => hne h.symm) j hmr ?_
    unfold MeetsHeap at hmeet
    unfold InMap Covers
    rw [hbq, hsq] at hmeet ⊢
    obtain ⟨h1, h2⟩ := hmeet
    rw [← Nat.mul_add, Nat.mul_comm j, Nat.mul_lt_mul_left hC] at h1
    have h3 : 2 ^ t.cfg.bits * bq < (j + 1) * 2 ^ t.cfg.bits := by omega
    rw [Nat.mul_comm (j + 1), Nat.mul_lt_mul_left hC] at h3
    refine ⟨?_, ?_⟩
    · rw [Nat.mul_comm j]; exact Nat.mul_le_mul_left _ (by omega)
    · rw [← Nat.mul_add, Nat.mul_comm (j + 1)]; exact Nat.mul_le_mul_left _ (by omega)

/-! ### Examples and the counterexample -/

/-- Constants for the examples: snmalloc's markers for the constants of `exCfg`
(`src/libsandbox.cc:774`, `include/process_sandbox/sandbox_meta_entry.h:54`). -/
def exT : TCfg := ⟨exCfg, fun e => e.ras.getLsbD 7, 1⟩

theorem exMarks : Marks exT (buddyRange exCfg) := by
  have hmark : ∀ pm f j, mark exCfg pm f j ≠ pm j → exT.backendOwned (mark exCfg pm f j) = true := by
    intro pm f j h
    unfold mark at h ⊢
    split
    · decide
    · rename_i hf; rw [if_neg hf] at h; exact absurd rfl h
  refine ⟨?_, ?_, by decide⟩
  · intro s pm n j h
    simp only [buddyRange] at h ⊢
    split at h
    · exact absurd rfl h
    · exact hmark _ _ _ h
  · intro s pm p n j h
    simp only [buddyRange] at h ⊢
    exact hmark _ _ _ h

/-- The host allocates a block of one chunk and one of two chunks, the sandbox one of four. -/
def exTOps : List Op :=
  [.hostAlloc 0 0x4000 0x1000 0x7f0000000300, .rpc 0 ⟨0, 0x10000, 0x5550, 0, 0⟩,
   .hostAlloc 0 0x8000 0x2000 0x7f0000000300]

theorem exTOps_behaved : Behaved exCfg (buddyRange exCfg) exMap (· < 2) exSys [] exTOps :=
  ⟨by decide, ⟨exSize 14 (by decide), by decide⟩, trivial, by decide, trivial, by decide,
    by decide, ⟨exSize 15 (by decide), by decide⟩, trivial, trivial⟩

theorem exTOps_proper : ∀ op ∈ exTOps, ProperEntry exT op := by
  intro op hop
  simp only [exTOps, List.mem_cons, List.not_mem_nil, or_false] at hop
  rcases hop with rfl | rfl | rfl
  · exact ⟨by decide, by decide, by decide⟩
  · trivial
  · exact ⟨by decide, by decide, by decide⟩

theorem exSys_not_host : ∀ j, ¬ HostLike exT (exSys.pm j) := by
  intro j h
  exact h.2.2 (show exT.cfg.remoteOf 0 = 0 by decide)

/-- All hypotheses of `delete_count_partial` and `destroy_only_live` hold in the example. -/
example := delete_count_partial exT (buddyRange exCfg) exMap _ exWorld exMarks (· < 2) _ exWorld2
  (by decide) exSys _ (fun i _ => exSys_free i) (fun i => (exSys_free i).inside)
  (by intro j; simp [exSys, Owned]) exSys_not_host exTOps exTOps_behaved exTOps_proper
  (by decide +kernel) 0 (by decide)

/-- The hypotheses of `destroy_only_live` hold with the hostile releases of `Verif.Rpc.exOps`, and the
destructor then deletes the one record of the host. -/
example : (∀ op ∈ exOps, HostSane (2 ^ exCfg.bits) exMap op ∧ ProperEntry exT op) ∧
    0x1000 ∈ (destroy exT (exMap 0) (runOps exCfg (buddyRange exCfg) exMap exSys exOps).2.pm).2 := by
  refine ⟨?_, by decide +kernel⟩
  intro op hop
  simp only [exOps, List.mem_cons, List.not_mem_nil, or_false] at hop
  rcases hop with rfl | rfl | rfl | rfl | rfl | rfl
  · exact ⟨⟨exSize 14 (by decide), by decide⟩, by decide, by decide, by decide⟩
  all_goals exact ⟨trivial, trivial⟩

/-- Destroying sandbox 0 clears the owned entry; the entry of the other mapping stays. -/
example : MeetsHeap exCfg (exMap 0) (exLo 0) ∧ MeetsHeap exCfg (exMap 0) (exLo 0 + 15) ∧
    ¬ MeetsHeap exCfg (exMap 0) (exLo 1) := by
  unfold MeetsHeap; decide +kernel

/-- **C28 is violated for blocks of several chunks.** The host holds a block of two chunks when the
sandbox is destroyed; its record is deleted twice, although it was created once. -/
theorem deleted_twice :
    Behaved exCfg (buddyRange exCfg) exMap (· < 2) exSys [] exTOps ∧
    (∀ op ∈ exTOps, ProperEntry exT op) ∧
    ((recRun exCfg (buddyRange exCfg) exMap exSys [] exTOps).1.map Rec.slab).count 0x2000 = 1 ∧
    (recRun exCfg (buddyRange exCfg) exMap exSys [] exTOps).2.1 = [] ∧
    (destroy exT (exMap 0) (runOps exCfg (buddyRange exCfg) exMap exSys exTOps).2.pm).2 =
      [0x1000, 0x2000, 0x2000] :=
  ⟨exTOps_behaved, exTOps_proper, by decide +kernel, by decide +kernel, by decide +kernel⟩

end Verif.Teardown
