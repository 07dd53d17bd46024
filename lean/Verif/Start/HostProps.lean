import Verif.Start.Props

/-!
# Creating and destroying a sandbox: theorems about the host's descriptors
-/

namespace Verif.Start

open Verif.Fd

/-- Every entry of the memory service waits for a peer that the host itself keeps open. -/
def Stuck (lim : Nat) (h : Host) : Prop :=
  ∀ x peer, (x, peer) ∈ h.svc → ∃ i o, i < lim ∧ h.t i = some o ∧ o.id = peer

theorem openId_iff {lim t id} :
    openId lim t id = true ↔ ∃ i o, i < lim ∧ t i = some o ∧ o.id = id := by
  unfold openId
  simp only [List.any_eq_true, List.mem_range, Option.any_eq_true, beq_iff_eq]
  constructor
  · rintro ⟨i, h1, o, h2, h3⟩; exact ⟨i, o, h1, h2, h3⟩
  · rintro ⟨i, o, h1, h2, h3⟩; exact ⟨i, h1, o, h2, h3⟩

theorem hangup_stuck {lim t} : ∀ svc : List (Int × Nat),
    (∀ x peer, (x, peer) ∈ svc → openId lim t peer = true) → hangup lim t svc = (t, svc)
  | [], _ => rfl
  | (x, peer) :: rest, h => by
    unfold hangup
    rw [if_pos (h x peer (by simp)), hangup_stuck rest fun y q hy => h y q (by simp [hy])]

theorem free_put_none {t : Table} {n : Nat} {o} (hn : t n = some o) :
    ∀ k, free (t.put n none) k = free t k + (if n < k then 1 else 0)
  | 0 => by simp [free]
  | k + 1 => by
    have ih := free_put_none (t := t) (n := n) (o := o) hn k
    unfold free
    by_cases e : k = n
    · subst e; simp [hn] at ih ⊢; omega
    · rw [put_ne _ _ e]
      have hiff : n < k + 1 ↔ n < k := by omega
      simp only [hiff]
      omega

theorem close_nat (t : Table) (n : Nat) : close t (n : Int) = t.put n none := by
  simp [close]

theorem close_neg (t : Table) : close t (-1) = t := by simp [close]

/-- What one sandbox leaves behind: the table keeps all it had, has four more open descriptors, and the
memory service has one more entry, for a peer that the host keeps open. -/
structure Left (lim : Nat) (h h' : Host) : Prop where
  keep : ∀ i, h.t i ≠ none → h'.t i = h.t i
  count : free h'.t lim + 4 = free h.t lim
  svc : h'.svc.length = h.svc.length + 1
  stuck : Stuck lim h'

theorem cycle_left {fuel e pagemap h b pm lib} (hb8 : 8 ≤ b) (hb : ∀ i, b ≤ i → h.t i = none)
    (hl : b + 10 ≤ e.lim) (hpm : h.t.at pagemap = some pm) (hlib : e.lib = some lib) (hf : 10 ≤ fuel)
    (hst : Stuck e.lim h) :
    ∃ h' l, construct fuel e pagemap h = .created h' l ∧ Left e.lim h (destroy e.lim h' l) ∧
      (∀ i, b + 5 ≤ i → (destroy e.lim h' l).t i = none) := by
  obtain ⟨n1, c1, l1, f1, -⟩ := create_room (lim := e.lim) (o := ⟨h.next, true⟩) (by omega) hb
  have hb1 : ∀ i, b + 1 ≤ i → h.t.put n1 (some ⟨h.next, true⟩) i = none := fun i hi => by
    rw [put_ne _ _ (by omega)]; exact hb i (by omega)
  generalize ht1 : h.t.put n1 (some ⟨h.next, true⟩) = t1 at c1 hb1
  obtain ⟨n2, c2, l2, f2, -⟩ := create_room (lim := e.lim) (o := ⟨h.next + 1, true⟩) (by omega) hb1
  have hb2 : ∀ i, b + 2 ≤ i → t1.put n2 (some ⟨h.next + 1, true⟩) i = none := fun i hi => by
    rw [put_ne _ _ (by omega)]; exact hb1 i (by omega)
  generalize ht2 : t1.put n2 (some ⟨h.next + 1, true⟩) = t2 at c2 hb2
  obtain ⟨n3, c3, l3, f3, -⟩ := create_room (lim := e.lim) (o := ⟨h.next + 2, true⟩) (by omega) hb2
  have hb3 : ∀ i, b + 3 ≤ i → t2.put n3 (some ⟨h.next + 2, true⟩) i = none := fun i hi => by
    rw [put_ne _ _ (by omega)]; exact hb2 i (by omega)
  generalize ht3 : t2.put n3 (some ⟨h.next + 2, true⟩) = t3 at c3 hb3
  obtain ⟨n4, c4, l4, f4, -⟩ := create_room (lim := e.lim) (o := ⟨h.next + 3, true⟩) (by omega) hb3
  have hb4 : ∀ i, b + 4 ≤ i → t3.put n4 (some ⟨h.next + 3, true⟩) i = none := fun i hi => by
    rw [put_ne _ _ (by omega)]; exact hb3 i (by omega)
  generalize ht4 : t3.put n4 (some ⟨h.next + 3, true⟩) = t4 at c4 hb4
  obtain ⟨n5, c5, l5, f5, -⟩ := create_room (lim := e.lim) (o := ⟨h.next + 4, true⟩) (by omega) hb4
  have hb5 : ∀ i, b + 5 ≤ i → t4.put n5 (some ⟨h.next + 4, true⟩) i = none := fun i hi => by
    rw [put_ne _ _ (by omega)]; exact hb4 i (by omega)
  generalize ht5 : t4.put n5 (some ⟨h.next + 4, true⟩) = t5 at c5 hb5
  have hfr : fresh e.lim h = ((n1 : Int), (n2 : Int), (n3 : Int), (n4 : Int), (n5 : Int), t5) := by
    unfold fresh
    simp only [c1, c2, c3, c4, c5]
  -- what is open stays open through the five calls
  have k1 : ∀ i o, h.t i = some o → t1 i = some o := fun i o hi => by
    subst ht1; rw [put_ne _ _ (by rintro rfl; simp [f1] at hi)]; exact hi
  have k2 : ∀ i o, t1 i = some o → t2 i = some o := fun i o hi => by
    subst ht2; rw [put_ne _ _ (by rintro rfl; simp [f2] at hi)]; exact hi
  have k3 : ∀ i o, t2 i = some o → t3 i = some o := fun i o hi => by
    subst ht3; rw [put_ne _ _ (by rintro rfl; simp [f3] at hi)]; exact hi
  have k4 : ∀ i o, t3 i = some o → t4 i = some o := fun i o hi => by
    subst ht4; rw [put_ne _ _ (by rintro rfl; simp [f4] at hi)]; exact hi
  have k5 : ∀ i o, t4 i = some o → t5 i = some o := fun i o hi => by
    subst ht5; rw [put_ne _ _ (by rintro rfl; simp [f5] at hi)]; exact hi
  have q1 : t5 n1 = some ⟨h.next, true⟩ :=
    k5 _ _ (k4 _ _ (k3 _ _ (k2 _ _ (by rw [← ht1]; simp))))
  have q3 : t5 n3 = some ⟨h.next + 2, true⟩ := k5 _ _ (k4 _ _ (by rw [← ht3]; simp))
  have q4 : t5 n4 = some ⟨h.next + 3, true⟩ := k5 _ _ (by rw [← ht4]; simp)
  have q5 : t5 n5 = some ⟨h.next + 4, true⟩ := by rw [← ht5]; simp
  have hkeep : ∀ i o, h.t i = some o → t5 i = some o := fun i o hi =>
    k5 _ _ (k4 _ _ (k3 _ _ (k2 _ _ (k1 _ _ hi))))
  have hh4 : h.t n4 = none := by
    cases hc : h.t n4 with
    | none => rfl
    | some o => have := k3 _ _ (k2 _ _ (k1 _ _ hc)); simp [f4] at this
  have hn34 : n3 ≠ n4 := by
    rintro rfl
    rw [← ht3] at f4; simp at f4
  obtain ⟨pn, rfl, hpn⟩ := at_nonneg hpm
  have href : Refer t5 ⟨n1, pn, n3, n5⟩ ⟨h.next, true⟩ pm ⟨h.next + 4, true⟩ ⟨h.next + 2, true⟩ :=
    ⟨by rw [at_nat]; exact q1, by rw [at_nat]; exact hkeep _ _ hpn, by rw [at_nat]; exact q5,
      by rw [at_nat]; exact q3⟩
  obtain ⟨_, tc, hsc, -⟩ := startChild_spec (fuel := fuel) (e := e) ⟨b + 5, by omega, hb5, by omega⟩
    href hlib hf
  have hcon : construct fuel e pn h =
      .created ⟨t5, h.next + 5, (n2, h.next + 2) :: h.svc⟩ ⟨-1, n4⟩ := by
    unfold construct
    rw [hfr]
    simp only [hsc, close_neg]
    rw [if_neg (by omega)]
  -- the table at the end
  have hopen : ∀ x peer, (x, peer) ∈ ((n2 : Int), h.next + 2) :: h.svc →
      ∃ i o, i < e.lim ∧ t5.put n4 none i = some o ∧ o.id = peer := by
    intro x peer hm
    rcases List.mem_cons.1 hm with hm | hm
    · cases hm
      exact ⟨n3, _, by omega, by rw [put_ne _ _ hn34]; exact q3, rfl⟩
    · obtain ⟨i, o, hi, ho, hid⟩ := hst x peer hm
      refine ⟨i, o, hi, ?_, hid⟩
      rw [put_ne _ _ (by rintro rfl; simp [hh4] at ho)]
      exact hkeep _ _ ho
  have hdes : destroy e.lim ⟨t5, h.next + 5, (n2, h.next + 2) :: h.svc⟩ ⟨-1, n4⟩ =
      ⟨t5.put n4 none, h.next + 5, (n2, h.next + 2) :: h.svc⟩ := by
    unfold destroy
    simp only [close_neg, close_nat]
    rw [hangup_stuck _ fun x peer hm => openId_iff.2 (hopen x peer hm)]
  refine ⟨_, _, hcon, ?_, ?_⟩
  · rw [hdes]
    refine ⟨fun i hi => ?_, ?_, by simp, hopen⟩
    · cases ho : h.t i with
      | none => exact absurd ho hi
      | some o =>
        simp only
        rw [put_ne _ _ (by rintro rfl; simp [hh4] at ho)]
        exact hkeep _ _ ho
    · have g1 := free_put (o := ⟨h.next, true⟩) f1 e.lim
      have g2 := free_put (o := ⟨h.next + 1, true⟩) f2 e.lim
      have g3 := free_put (o := ⟨h.next + 2, true⟩) f3 e.lim
      have g4 := free_put (o := ⟨h.next + 3, true⟩) f4 e.lim
      have g5 := free_put (o := ⟨h.next + 4, true⟩) f5 e.lim
      have g6 := free_put_none q4 e.lim
      rw [ht1, if_pos (by omega)] at g1
      rw [ht2, if_pos (by omega)] at g2
      rw [ht3, if_pos (by omega)] at g3
      rw [ht4, if_pos (by omega)] at g4
      rw [ht5, if_pos (by omega)] at g5
      rw [if_pos (by omega)] at g6
      simp only
      omega
  · intro i hi
    rw [hdes]
    simp only
    by_cases hin : i = n4
    · subst hin; simp
    · rw [put_ne _ _ hin]; exact hb5 i hi

/-! ## C47 -/

/-- A host with its standard streams and the page map, no sandbox yet. -/
def exHost : Host := ⟨fun i => if i < 4 then some ⟨i, true⟩ else none, 100, []⟩

theorem exHost_stuck (lim) : Stuck lim exHost := by intro x p h; simp [exHost] at h

/-- **C47 (partial).**  Making and destroying a sandbox leaves every descriptor that was open in the host
as it was: none is closed and none is redirected.  What is missing: the sandbox's own descriptors are
not all released, see `sandbox_leaks_descriptors`. -/
theorem host_descriptors_kept_partial {fuel e pagemap h b pm lib} (hb8 : 8 ≤ b)
    (hb : ∀ i, b ≤ i → h.t i = none) (hl : b + 10 ≤ e.lim) (hpm : h.t.at pagemap = some pm)
    (hlib : e.lib = some lib) (hf : 10 ≤ fuel) (hst : Stuck e.lim h) :
    ∃ h' l, construct fuel e pagemap h = .created h' l ∧
      ∀ i, h.t i ≠ none → (destroy e.lim h' l).t i = h.t i := by
  obtain ⟨h', l, h1, h2, -⟩ := cycle_left hb8 hb hl hpm hlib hf hst
  exact ⟨h', l, h1, h2.keep⟩

example : ∃ h' l, construct 10 exE 3 exHost = .created h' l ∧
    ∀ i, exHost.t i ≠ none → (destroy exE.lim h' l).t i = exHost.t i :=
  host_descriptors_kept_partial (b := 8) (pm := ⟨3, true⟩) (Nat.le_refl _)
    (fun i hi => by simp [exHost]; omega) (by decide) (by decide) rfl (by omega) (exHost_stuck _)

theorem create_free {lim t o} : (free t lim = 0 ∧ create lim t o = (-1, t)) ∨
    ∃ t' : Table, ∃ n : Nat, create lim t o = ((n : Int), t') ∧ free t' lim + 1 = free t lim := by
  cases h : lowest lim t with
  | none =>
    refine .inl ⟨?_, by simp [create, h]⟩
    have hall : ∀ k, k ≤ lim → free t k = 0 := by
      intro k
      induction k with
      | zero => intro _; rfl
      | succ k ih =>
        intro hk
        have := lowest_none.1 h k (by omega)
        simp [free, ih (by omega), this]
    exact hall lim (Nat.le_refl _)
  | some n =>
    obtain ⟨h1, h2, -⟩ := lowest_some.1 h
    refine .inr ⟨t.put n (some o), n, by simp [create, h], ?_⟩
    have := free_put (o := o) h2 lim
    rw [if_pos h1] at this
    exact this

/-- **C47, no half-made sandbox.**  The host gives up exactly if it has fewer than five numbers left for descriptors
(one for the memory and two for each socket pair); otherwise the sandbox is made. -/
theorem gives_up_iff (fuel : Nat) (e : Env) (pagemap : Int) (h : Host) :
    construct fuel e pagemap h = .gaveUp ↔ free h.t e.lim < 5 := by
  have key : (fresh e.lim h).1 < 0 ∨ (fresh e.lim h).2.1 < 0 ∨ (fresh e.lim h).2.2.1 < 0 ∨
      (fresh e.lim h).2.2.2.1 < 0 ∨ (fresh e.lim h).2.2.2.2.1 < 0 ↔ free h.t e.lim < 5 := by
    simp only [fresh]
    rcases create_free (lim := e.lim) (t := h.t) (o := ⟨h.next, true⟩) with ⟨z, e1⟩ | ⟨t1, n1, e1, f1⟩
    · simp only [e1]; exact ⟨fun _ => by omega, fun _ => .inl (by decide)⟩
    simp only [e1]
    rcases create_free (lim := e.lim) (t := t1) (o := ⟨h.next + 1, true⟩) with ⟨z, e2⟩ | ⟨t2, n2, e2, f2⟩
    · simp only [e2]; exact ⟨fun _ => by omega, fun _ => .inr (.inl (by decide))⟩
    simp only [e2]
    rcases create_free (lim := e.lim) (t := t2) (o := ⟨h.next + 2, true⟩) with ⟨z, e3⟩ | ⟨t3, n3, e3, f3⟩
    · simp only [e3]; exact ⟨fun _ => by omega, fun _ => .inr (.inr (.inl (by decide)))⟩
    simp only [e3]
    rcases create_free (lim := e.lim) (t := t3) (o := ⟨h.next + 3, true⟩) with ⟨z, e4⟩ | ⟨t4, n4, e4, f4⟩
    · simp only [e4]; exact ⟨fun _ => by omega, fun _ => .inr (.inr (.inr (.inl (by decide))))⟩
    simp only [e4]
    rcases create_free (lim := e.lim) (t := t4) (o := ⟨h.next + 4, true⟩) with ⟨z, e5⟩ | ⟨t5, n5, e5, f5⟩
    · simp only [e5]; exact ⟨fun _ => by omega, fun _ => .inr (.inr (.inr (.inr (by decide))))⟩
    simp only [e5]
    omega
  rw [← key, construct]
  rcases hr : fresh e.lim h with ⟨s, a, b, c, d, t⟩
  simp only
  split
  · rename_i hc; simp [hc]
  · rename_i hc
    simp only [hc, iff_false]
    split <;> simp

/-- Two numbers left: the host gives up. -/
example : construct 10 { exE with lim := 6 } 3 exHost = .gaveUp := by
  rw [gives_up_iff]
  decide

/-- **C47 fails.**  `n` sandboxes, made and destroyed one after the other, leave `4 n` more descriptors
open in the host and `n` entries in the memory service, for every `n` that the limit on open files allows. -/
theorem sandbox_leaks_descriptors {fuel e pagemap pm lib} (hlib : e.lib = some lib) (hf : 10 ≤ fuel) :
    ∀ (n : Nat) (h : Host) (b : Nat), 8 ≤ b → (∀ i, b ≤ i → h.t i = none) → b + 10 + 5 * n ≤ e.lim + 5 →
      h.t.at pagemap = some pm → Stuck e.lim h →
      ∃ h', cycles fuel e pagemap n h = some h' ∧ free h'.t e.lim + 4 * n = free h.t e.lim ∧
        h'.svc.length = h.svc.length + n
  | 0, h, b, _, _, _, _, _ => ⟨h, rfl, by omega, by omega⟩
  | n + 1, h, b, hb8, hb, hl, hpm, hst => by
    obtain ⟨h1, l, hc, hleft, hb'⟩ := cycle_left hb8 hb (by omega) hpm hlib hf hst
    have hpm' : (destroy e.lim h1 l).t.at pagemap = some pm := by
      obtain ⟨pn, rfl, hpn⟩ := at_nonneg hpm
      rw [at_nat, hleft.keep pn (by simp [hpn]), hpn]
    obtain ⟨h', e1, e2, e3⟩ := sandbox_leaks_descriptors hlib hf n (destroy e.lim h1 l) (b + 5)
      (by omega) hb' (by omega) hpm' hleft.stuck
    refine ⟨h', by unfold cycles; rw [hc]; exact e1, ?_, ?_⟩
    · have := hleft.count; omega
    · have := hleft.svc; omega

/-- Two hundred sandboxes under the usual limit of 1024: 800 descriptors are lost. -/
example : ∃ h', cycles 10 exE 3 200 exHost = some h' ∧ free h'.t 1024 + 800 = free exHost.t 1024 ∧
    h'.svc.length = 200 := by
  obtain ⟨h', h1, h2, h3⟩ := sandbox_leaks_descriptors (e := exE) (pm := ⟨3, true⟩) (pagemap := 3)
    (fuel := 10) rfl (Nat.le_refl _) 200 exHost 8 (Nat.le_refl _)
    (fun i hi => by simp [exHost]; omega) (by decide) (by decide) (exHost_stuck _)
  exact ⟨h', h1, h2, by simpa [exHost] using h3⟩

end Verif.Start
