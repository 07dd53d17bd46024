import Verif.Rpc.Props

/-!
# Hostile neighbours

What one sandbox does cannot make memory of another be handed out twice.
-/

namespace Verif.Rpc

open Verif.Bounds Spec

/-- The host's blocks in sandbox `k`. -/
def liveOf (k : Nat) (live : Live) : Live := live.filter (fun b => b.1 == k)

/-- Every block that the host holds lies in the mapping of its sandbox. -/
def LiveIn (c : Cfg) (maps : Nat → Mapping) (live : Live) : Prop :=
  ∀ b ∈ live, BlockIn (2 ^ c.bits) (maps b.1).base.toNat ((maps b.1).base.toNat + (maps b.1).size.toNat) b.2.1 b.2.2

theorem sane_of_ok {c : Cfg} {maps : Nat → Mapping} {live : Live} (hl : LiveIn c maps live) {op : Op}
    (h : HostOk (2 ^ c.bits) live op) : HostSane (2 ^ c.bits) maps op := by
  cases op with
  | rpc i q => trivial
  | hostAlloc i size slab ras => exact h
  | hostFree i p size => exact hl _ h

theorem hostAlloc_given {σ} (c : Cfg) (R : Range σ) (s : σ) (pm : Pm) (size : Nat) (slab ras : Word) :
    (hostAlloc c R s pm size slab ras).1 = (R.alloc s pm size).1 := by
  unfold hostAlloc
  rcases R.alloc s pm size with ⟨_ | p, s', pm'⟩ <;> rfl

theorem liveIn_step {σ} {c : Cfg} {R : Range σ} {maps : Nat → Mapping} {Inv : Nat → σ → Prop}
    (hw : World c R maps Inv) {st : Sys σ} (hs : ∀ i, Inv i (st.ranges i)) {live : Live} (hl : LiveIn c maps live)
    {op : Op} (h : HostOk (2 ^ c.bits) live op) :
    LiveIn c maps (liveStep live op (step c R maps st op).1) := by
  cases op with
  | rpc i q => exact hl
  | hostFree i p size => exact fun b hb => hl b (List.mem_of_mem_erase hb)
  | hostAlloc i size slab ras =>
    simp only [step]
    rw [hostAlloc_given]
    rcases hr : (R.alloc (st.ranges i) st.pm size).1 with _ | p
    · exact hl
    · intro b hb
      simp only [liveStep, List.mem_cons] at hb
      rcases hb with rfl | hb
      · exact (hw.contained i).alloc_in _ _ _ _ (hs i) h.1 hr
      · exact hl b hb

theorem liveOf_step {k : Nat} {live : Live} {op : Op} {g : Given} :
    liveOf k (liveStep live op g) = if sandboxOf op = k then liveStep (liveOf k live) op g else liveOf k live := by
  by_cases hk : sandboxOf op = k
  · rw [if_pos hk]
    cases op with
    | rpc i q => rfl
    | hostFree i p size => simp only [liveStep, liveOf]; rw [← List.erase_filter]
    | hostAlloc i size slab ras =>
      cases g with
      | none => rfl
      | some p =>
        simp only [sandboxOf] at hk
        simp [liveStep, liveOf, hk]
  · rw [if_neg hk]
    cases op with
    | rpc i q => rfl
    | hostFree i p size =>
      simp only [sandboxOf] at hk
      simp only [liveStep, liveOf]
      rw [← List.erase_filter]
      exact List.erase_of_not_mem (by simp [hk])
    | hostAlloc i size slab ras =>
      cases g with
      | none => rfl
      | some p =>
        simp only [sandboxOf] at hk
        simp [liveStep, liveOf, hk]

theorem ok_of {k : Nat} {C : Nat} {live : Live} {op : Op} (h : HostOk C live op) (hk : sandboxOf op = k) :
    HostOk C (liveOf k live) op := by
  cases op with
  | rpc i q => trivial
  | hostAlloc i size slab ras => exact h
  | hostFree i p size =>
    simp only [sandboxOf] at hk
    exact List.mem_filter.2 ⟨h, by simp [hk]⟩

/-- The mapping of `k` is apart from those of the other sandboxes that act. -/
def Elsewhere (c : Cfg) (maps : Nat → Mapping) (k : Nat) (op : Op) : Prop :=
  sandboxOf op ≠ k → ∀ j, InMap (2 ^ c.bits) (maps k) j → ¬ InMap (2 ^ c.bits) (maps (sandboxOf op)) j

theorem step_ranges {σ} (c : Cfg) (R : Range σ) (maps : Nat → Mapping) (st : Sys σ) (op : Op) {k : Nat}
    (h : sandboxOf op ≠ k) : (step c R maps st op).2.ranges k = st.ranges k := by
  have h' : k ≠ sandboxOf op := fun e => h e.symm
  cases op <;> simp only [step, Sys.put, sandboxOf] at * <;> rw [if_neg h']

/-- What is known of sandbox `k` and the host's blocks in it, whatever happens elsewhere. -/
structure Kept {σ} (c : Cfg) (maps : Nat → Mapping) (Inv : Nat → σ → Prop) (k : Nat) (Good : σ → (Nat → Prop) → Prop)
    (st : Sys σ) (live : Live) (F : Nat → Prop) : Prop where
  inv : ∀ i, Inv i (st.ranges i)
  liveIn : LiveIn c maps live
  tidy : Tidy c maps (· = k) (fun _ => Good) st (liveOf k live) (fun _ => F)

theorem covers_inMap {C : Nat} {m : Mapping} {p n j : Nat}
    (h : BlockIn C m.base.toNat (m.base.toNat + m.size.toNat) p n) (hj : Covers C p n j) : InMap C m j := by
  obtain ⟨_, _, h1, h2⟩ := h
  obtain ⟨h3, h4⟩ := hj
  exact ⟨by omega, by omega⟩

theorem step_kept {σ} {c : Cfg} {R : Range σ} {maps : Nat → Mapping} {Inv : Nat → σ → Prop}
    (hw : World c R maps Inv) {k : Nat} {Good : σ → (Nat → Prop) → Prop}
    (hE : Exact c R (maps k).base.toNat ((maps k).base.toNat + (maps k).size.toNat) Good)
    {st : Sys σ} {live : Live} {F : Nat → Prop} (h : Kept c maps Inv k Good st live F) {op : Op}
    (hop : HostOk (2 ^ c.bits) live op) (har : sandboxOf op = k → AlignedRelease op) (hap : Elsewhere c maps k op) :
    (∃ F', Kept c maps Inv k Good (step c R maps st op).2 (liveStep live op (step c R maps st op).1) F') ∧
    (∀ b, givenBlock op (step c R maps st op).1 = some b → ∀ j, Covers (2 ^ c.bits) b.2.1 b.2.2 j →
      InMap (2 ^ c.bits) (maps k) j →
      sandboxOf op = k ∧ ¬ Owned st.pm j ∧ ∀ l ∈ liveOf k live, ¬ Covers (2 ^ c.bits) l.2.1 l.2.2 j) ∧
    (∀ j, InMap (2 ^ c.bits) (maps k) j → Owned st.pm j → Owned (step c R maps st op).2.pm j ∨
      ∃ q, op = .rpc k q ∧ q.kind = 1 ∧ Covers (2 ^ c.bits) q.a0.toNat q.a1.toNat j) := by
  obtain ⟨f1, f2, f3⟩ := step_frame c R maps Inv hw st op h.inv (sane_of_ok h.liveIn hop)
  have hl := liveIn_step hw h.inv h.liveIn hop (R := R)
  by_cases hk : sandboxOf op = k
  · have hw2 : World2 c R maps (· = k) (fun _ => Good) :=
      ⟨fun i _ => hw.maps_ok i, fun i j hi hj hne => absurd (hi.trans hj.symm) hne, fun i hi => hi ▸ hE, hw.backend⟩
    obtain ⟨⟨F', t1⟩, t2, t3⟩ := step_tidy c R maps (· = k) (fun _ => Good) hw2 st _ _ h.tidy op hk (ok_of hop hk) (har hk)
    refine ⟨⟨F' k, f1, hl, ?_⟩, fun b hb j hj _ => ⟨hk, t2 b hb j hj⟩, ?_⟩
    · rw [liveOf_step, if_pos hk]
      refine ⟨?_, ?_, ?_, t1.live_in, t1.separate⟩
      · rintro i rfl; exact t1.good i rfl
      · rintro i rfl; exact t1.owned_not_free i rfl
      · rintro b hb i rfl; exact t1.live_not_free b hb i rfl
    · intro j _ ho
      rcases t3 j ho with h1 | ⟨i, q, rfl, h2⟩
      · exact .inl h1
      · simp only [sandboxOf] at hk
        subst hk
        exact .inr ⟨q, rfl, h2⟩
  · have hpm : ∀ j, InMap (2 ^ c.bits) (maps k) j → (step c R maps st op).2.pm j = st.pm j := by
      intro j hj
      apply Classical.byContradiction
      intro hne
      exact hap hk j hj (f2 j hne)
    have hown : ∀ j, InMap (2 ^ c.bits) (maps k) j → (Owned (step c R maps st op).2.pm j ↔ Owned st.pm j) := by
      intro j hj
      unfold Owned
      rw [hpm j hj]
    have hk1 : ∀ b ∈ liveOf k live, b.1 = k := by
      intro b hb
      simpa using (List.mem_filter.1 hb).2
    refine ⟨⟨F, f1, hl, ?_⟩, ?_, fun j hj ho => .inl ((hown j hj).2 ho)⟩
    · rw [liveOf_step, if_neg hk]
      refine ⟨?_, ?_, h.tidy.live_not_free, h.tidy.live_in, h.tidy.separate.1, ?_⟩
      · rintro i rfl
        rw [step_ranges c R maps st op hk]
        exact h.tidy.good i rfl
      · rintro i rfl j ho hF
        have hin := hE.free_in _ _ j (h.tidy.good i rfl) hF
        rw [Nat.add_sub_cancel_left] at hin
        exact h.tidy.owned_not_free i rfl j ((hown j hin).1 ho) hF
      · intro b hb j hj ho
        have hin := covers_inMap (h.tidy.live_in b hb).1 hj
        rw [hk1 b hb] at hin
        exact h.tidy.separate.2 b hb j hj ((hown j hin).1 ho)
    · intro b hb j hj hin
      exfalso
      refine hap hk j hin ?_
      cases op with
      | hostFree i p size => simp [givenBlock] at hb
      | hostAlloc i size slab ras =>
        simp only [step] at hb
        rw [hostAlloc_given] at hb
        rcases hr : (R.alloc (st.ranges i) st.pm size).1 with _ | p
        · rw [hr] at hb; simp [givenBlock] at hb
        · rw [hr] at hb
          simp only [givenBlock, Option.some.injEq] at hb
          subst hb
          exact covers_inMap ((hw.contained i).alloc_in _ _ _ _ (h.inv i) hop.1 hr) hj
      | rpc i q =>
        have hb' : q.kind = 0 ∧ (serve c R ((maps i).region c) (st.ranges i) st.pm q).1.error = 0 ∧
            b = (i, (serve c R ((maps i).region c) (st.ranges i) st.pm q).1.ret.toNat, q.a0.toNat) := by
          simp only [step] at hb
          by_cases hc : q.kind = 0 ∧ (serve c R ((maps i).region c) (st.ranges i) st.pm q).1.error = 0
          · rw [if_pos hc] at hb
            simp only [givenBlock, Option.some.injEq] at hb
            exact ⟨hc.1, hc.2, hb.symm⟩
          · rw [if_neg hc] at hb
            simp [givenBlock] at hb
        obtain ⟨h1, h2, rfl⟩ := hb'
        exact covers_inMap (alloc_claims c R (maps i) (hw.maps_ok i) (hw.contained i) (st.ranges i) st.pm q (h.inv i)
          h1 h2).1 hj

theorem run_kept {σ} {c : Cfg} {R : Range σ} {maps : Nat → Mapping} {Inv : Nat → σ → Prop}
    (hw : World c R maps Inv) {k : Nat} {Good : σ → (Nat → Prop) → Prop}
    (hE : Exact c R (maps k).base.toNat ((maps k).base.toNat + (maps k).size.toNat) Good) :
    ∀ (ops ops' : List Op) (st : Sys σ) (live : Live) (F : Nat → Prop), Kept c maps Inv k Good st live F →
    HostBehaved c R maps st live (ops ++ ops') → (∀ op ∈ ops, sandboxOf op = k → AlignedRelease op) →
    (∀ op ∈ ops, Elsewhere c maps k op) →
    (∃ F', Kept c maps Inv k Good (runOps c R maps st ops).2 (liveAfter c R maps st live ops) F') ∧
    HostBehaved c R maps (runOps c R maps st ops).2 (liveAfter c R maps st live ops) ops' := by
  intro ops
  induction ops with
  | nil => intro ops' st live F h hb _ _; exact ⟨⟨F, h⟩, hb⟩
  | cons op ops ih =>
    intro ops' st live F h hb har hap
    obtain ⟨b1, b2⟩ := hb
    obtain ⟨⟨F', h'⟩, -⟩ := step_kept hw hE h b1 (har op (by simp)) (hap op (by simp))
    exact ih ops' _ _ F' h' b2 (fun o ho => har o (by simp [ho])) (fun o ho => hap o (by simp [ho]))

/-- **C91.**  Any number of sandboxes send any requests, in any order and mixed with what the host does, and sandbox `k`
releases its blocks aligned to their size (as every block handed out is); nothing is assumed about the requests of the
others.  Then the host's blocks in `k` overlap neither each other nor a chunk owned by the sandbox; no block is ever
handed out to another sandbox, or for one, that reaches into `k`; a block handed out in `k` has no chunk that is in use;
and a chunk owned by `k` stays so until a request of `k` itself releases it. -/
theorem hostile_neighbours {σ} (c : Cfg) (R : Range σ) (maps : Nat → Mapping) (Inv : Nat → σ → Prop)
    (hw : World c R maps Inv) (k : Nat) (Good : σ → (Nat → Prop) → Prop)
    (hE : Exact c R (maps k).base.toNat ((maps k).base.toNat + (maps k).size.toNat) Good)
    (st : Sys σ) (F : Nat → Prop) (hs : ∀ i, Inv i (st.ranges i)) (hgood : Good (st.ranges k) F)
    (hfree : ∀ j, ¬ Owned st.pm j) (ops : List Op) (op : Op) (hb : HostBehaved c R maps st [] (ops ++ [op]))
    (har : ∀ o ∈ ops ++ [op], sandboxOf o = k → AlignedRelease o)
    (hap : ∀ o ∈ ops ++ [op], sandboxOf o ≠ k → ∀ j, InMap (2 ^ c.bits) (maps k) j →
      ¬ InMap (2 ^ c.bits) (maps (sandboxOf o)) j) :
    let st1 := (runOps c R maps st ops).2
    let live := (liveAfter c R maps st [] ops).filter (fun b => b.1 == k)
    Separate (2 ^ c.bits) st1.pm live ∧
    (∀ b, givenBlock op (step c R maps st1 op).1 = some b → ∀ j, Covers (2 ^ c.bits) b.2.1 b.2.2 j →
      InMap (2 ^ c.bits) (maps k) j →
      sandboxOf op = k ∧ ¬ Owned st1.pm j ∧ ∀ l ∈ live, ¬ Covers (2 ^ c.bits) l.2.1 l.2.2 j) ∧
    (∀ j, InMap (2 ^ c.bits) (maps k) j → Owned st1.pm j → Owned (step c R maps st1 op).2.pm j ∨
      ∃ q, op = .rpc k q ∧ q.kind = 1 ∧ Covers (2 ^ c.bits) q.a0.toNat q.a1.toNat j) := by
  have h0 : Kept c maps Inv k Good st [] F :=
    ⟨hs, by intro b hb; simp at hb, ⟨fun i hi => hi ▸ hgood, fun _ _ j ho => absurd ho (hfree j),
      by simp [liveOf], by simp [liveOf], by simp [liveOf, Separate]⟩⟩
  obtain ⟨⟨F', h'⟩, b1, -⟩ := run_kept hw hE ops [op] st [] F h0 hb (fun o ho => har o (by simp [ho]))
    (fun o ho => hap o (by simp [ho]))
  obtain ⟨-, s2, s3⟩ := step_kept hw hE h' b1 (har op (by simp)) (hap op (by simp))
  exact ⟨h'.tidy.separate, s2, s3⟩

/-! ### A case that meets the conditions -/

/-- Sandbox 1 does what the counterexample to C25 does (`handed_out_twice`), sandbox 0 behaves. -/
def exHostile : List Op :=
  [.hostAlloc 0 0x4000 0x1000 0x7f0000000300, .hostAlloc 1 0x4000 0x1000 0x7f0000000300,
   .rpc 1 ⟨0, 0x8000, 0, 0, 0⟩, .rpc 0 ⟨0, 0x8000, 0, 0, 0⟩, .rpc 1 ⟨0, 0x10000, 0, 0, 0⟩,
   .rpc 1 ⟨0, 0x20000, 0, 0, 0⟩, .rpc 1 ⟨1, 0x7f0000048000, 0x10000, 0, 0⟩,
   .rpc 1 ⟨1, 0x7f0000058000, 0x10000, 0, 0⟩, .rpc 1 ⟨0, 0x20000, 0, 0, 0⟩]

/-- The hypotheses hold, and sandbox 1 does get a block twice. -/
example : (let st1 := (runOps exCfg (buddyRange exCfg) exMap exSys exHostile).2
    let live := (liveAfter exCfg (buddyRange exCfg) exMap exSys [] exHostile).filter (fun b => b.1 == 0)
    Separate (2 ^ exCfg.bits) st1.pm live) ∧
    (runOps exCfg (buddyRange exCfg) exMap exSys exHostile).1 =
      [some 0x7f0000004000, some 0x7f0000044000, some 0x7f0000048000, some 0x7f0000008000, some 0x7f0000050000,
       some 0x7f0000060000, none, none, some 0x7f0000040000] := by
  refine ⟨(hostile_neighbours exCfg (buddyRange exCfg) exMap _ exWorld 0 (Repr (exLo 0) (2 ^ 4)) (exWorld2.exact 0 (by decide)) exSys
    (fun j => exLo 0 + 1 ≤ j ∧ j < exLo 0 + 16) ?_ (exSys_free 0) (by intro j; simp [exSys, Owned]) exHostile
    (.rpc 0 ⟨1, 0x7f0000008000, 0x8000, 0, 0⟩) ?_ (by decide +kernel) ?_).1, by decide +kernel⟩
  · exact fun i => (exSys_free i).inside
  · exact ⟨⟨exSize 14 (by decide), by decide⟩, ⟨exSize 14 (by decide), by decide⟩, trivial, trivial, trivial, trivial,
      trivial, trivial, trivial, trivial, trivial⟩
  · intro o ho hne
    have h1 : sandboxOf o = 1 := by
      revert ho hne
      simp only [exHostile, List.cons_append, List.nil_append, List.mem_cons, List.not_mem_nil, or_false]
      rintro (rfl | rfl | rfl | rfl | rfl | rfl | rfl | rfl | rfl | rfl) <;> simp [sandboxOf]
    rw [h1]
    exact fun j hj => exMap_disjoint 1 0 (by decide) (by decide) (by decide) j hj

end Verif.Rpc
