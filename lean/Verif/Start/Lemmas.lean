import Verif.Start.Spec

namespace Verif.Start

open Verif.Fd

/-- `t'` keeps every open descriptor of `t`; new ones below 8 refer to `o`. -/
structure Ext (o : Obj) (t t' : Table) : Prop where
  keep : ∀ i, t i ≠ none → t' i = t i
  low : ∀ i, i < 8 → t i = none → t' i = none ∨ t' i = some o

theorem Ext.refl (o t) : Ext o t t := ⟨fun _ _ => rfl, fun _ _ h => .inl h⟩

theorem at_nonneg {t : Table} {x : Int} {o} (h : t.at x = some o) :
    ∃ n : Nat, x = n ∧ t n = some o := by
  unfold Table.at at h
  split at h
  · exact ⟨x.toNat, by omega, h⟩
  · cases h

theorem at_nat (t : Table) (n : Nat) : t.at (n : Int) = t n := by
  unfold Table.at; simp

theorem Ext.at {o t t'} (h : Ext o t t') {x : Int} {a} (hx : t.at x = some a) : t'.at x = some a := by
  obtain ⟨n, rfl, hn⟩ := at_nonneg hx
  rw [at_nat, h.keep n (by simp [hn]), hn]

/-- `create` with room below `b`. -/
theorem create_room {lim b t o} (hb : b < lim) (hf : ∀ i, b ≤ i → t i = none) :
    ∃ n : Nat, create lim t o = ((n : Int), t.put n (some o)) ∧ n ≤ b ∧ t n = none ∧
      ∀ m, m < n → t m ≠ none := by
  obtain ⟨n, h1, h2⟩ := lowest_le hb (hf b (Nat.le_refl _))
  refine ⟨n, by simp [create, h1], h2, (lowest_some.1 h1).2⟩

theorem ext_put {o t n} (hn : t n = none) : Ext o t (t.put n (some o)) := by
  constructor
  · intro i hi
    rw [put_ne]; rintro rfl; exact hi hn
  · intro i _ h
    by_cases e : i = n
    · subst e; right; simp
    · left; rw [put_ne _ _ e]; exact h

theorem Ext.trans {o t t' t''} (h : Ext o t t') (h' : Ext o t' t'') : Ext o t t'' := by
  constructor
  · intro i hi
    have h1 := h.keep i hi
    have h2 := h'.keep i (by rw [h1]; exact hi)
    rw [h2, h1]
  · intro i hl hi
    rcases h.low i hl hi with h1 | h1
    · exact h'.low i hl h1
    · right; rw [h'.keep i (by simp [h1]), h1]

/-- The number of free numbers below `k`. -/
def free (t : Table) : Nat → Nat
  | 0 => 0
  | k + 1 => free t k + if t k = none then 1 else 0

theorem free_put {t : Table} {n o} (hn : t n = none) :
    ∀ k, free (t.put n (some o)) k + (if n < k then 1 else 0) = free t k
  | 0 => by simp [free]
  | k + 1 => by
    have ih := free_put (t := t) (n := n) (o := o) hn k
    unfold free
    by_cases e : k = n
    · subst e; simp [hn] at ih ⊢; omega
    · rw [put_ne _ _ e]
      have hiff : n < k + 1 ↔ n < k := by omega
      simp only [hiff]
      omega

theorem free_le (t : Table) : ∀ k, free t k ≤ k
  | 0 => Nat.le_refl _
  | k + 1 => by have := free_le t k; unfold free; split <;> omega

theorem moveFd_spec {lim o} : ∀ (fuel : Nat) (t : Table) (x b : Nat),
    t x = some o → 8 ≤ b → (∀ i, b ≤ i → t i = none) → b < lim → free t 8 + 2 ≤ fuel →
    ∃ (y : Nat) (t' : Table), moveFd lim fuel t x = some ((y : Int), t') ∧ 8 ≤ y ∧ t' y = some o ∧
      Ext o t t' ∧ (∀ i, b + 1 ≤ i → t' i = none)
  | 0, _, _, _, _, _, _, _, hf => by omega
  | fuel + 1, t, x, b, hx, h8, hb, hl, hf => by
    unfold moveFd
    by_cases hlt : (x : Int) < lastFd
    · rw [if_pos hlt]
      obtain ⟨n, hc, hn, hnone, hfull⟩ := create_room (o := o) hl hb
      have hd : dup lim t x = ((n : Int), t.put n (some o)) := by
        unfold dup; rw [at_nat, hx]; exact hc
      simp only [hd]
      by_cases hn8 : n < 8
      · have hfr := free_put (o := o) hnone 8
        rw [if_pos hn8] at hfr
        obtain ⟨y, t', h1, h2, h3, h4, h5⟩ := moveFd_spec (o := o) fuel (t.put n (some o)) n b (by simp) h8
          (fun i hi => by rw [put_ne _ _ (by omega)]; exact hb i hi) hl (by omega)
        exact ⟨y, t', h1, h2, h3, (ext_put hnone).trans h4, h5⟩
      · cases fuel with
        | zero => omega
        | succ fuel =>
          unfold moveFd
          rw [if_neg (by simp [lastFd]; omega)]
          refine ⟨n, _, rfl, by omega, by simp, ext_put hnone, fun i hi => ?_⟩
          rw [put_ne _ _ (by omega)]; exact hb i (by omega)
    · rw [if_neg hlt]
      refine ⟨x, t, rfl, by simp [lastFd] at hlt; omega, hx, Ext.refl _ _, fun i hi => hb i (by omega)⟩

/-- `moveFd` from an `int`. -/
theorem moveFd_at {lim o fuel} {t : Table} {x : Int} {b : Nat} (hx : t.at x = some o) (h8 : 8 ≤ b)
    (hb : ∀ i, b ≤ i → t i = none) (hl : b < lim) (hf : 10 ≤ fuel) :
    ∃ (y : Nat) (t' : Table), moveFd lim fuel t x = some ((y : Int), t') ∧ 8 ≤ y ∧ t' y = some o ∧
      Ext o t t' ∧ (∀ i, b + 1 ≤ i → t' i = none) := by
  obtain ⟨n, rfl, hn⟩ := at_nonneg hx
  exact moveFd_spec fuel t n b hn h8 hb hl (by have := free_le t 8; omega)

theorem dup2_nat {t : Table} {x : Nat} {o} (y) (h : t x = some o) :
    dup2 t (x : Int) y = t.put y (some o) := by
  unfold dup2; rw [at_nat, h]

/-- A loop whose `dup` fails never ends. -/
theorem moveFd_neg (lim : Nat) (t : Table) : ∀ fuel, moveFd lim fuel t (-1) = none
  | 0 => rfl
  | fuel + 1 => by
    unfold moveFd
    rw [if_pos (by decide)]
    have : dup lim t (-1) = (-1, t) := by simp [dup, Table.at]
    simp only [this]
    exact moveFd_neg lim t fuel

/-- A descriptor below 8 that is moved leaves a copy in every free number below 8. -/
theorem moveFd_low {lim o} : ∀ (fuel : Nat) (t : Table) (x : Nat) {y : Int} {t' : Table}, t x = some o →
    moveFd lim fuel t x = some (y, t') → ∀ i, i < 8 → t' i = if x < 8 then (t i).or (some o) else t i
  | 0, _, _, _, _, _, h => by simp [moveFd] at h
  | fuel + 1, t, x, y, t', hx, h => by
    intro i hi
    unfold moveFd at h
    by_cases hlt : (x : Int) < lastFd
    · rw [if_pos hlt] at h
      have hx8 : x < 8 := by simp [lastFd] at hlt; omega
      rw [if_pos hx8]
      rcases hn : lowest lim t with _ | n
      · have hd : dup lim t x = (-1, t) := by
          unfold dup; rw [at_nat, hx]; simp [create, hn]
        simp only [hd] at h
        rw [moveFd_neg] at h
        cases h
      · have hd : dup lim t x = ((n : Int), t.put n (some o)) := by
          unfold dup; rw [at_nat, hx]; simp [create, hn]
        simp only [hd] at h
        have ih := moveFd_low (o := o) fuel (t.put n (some o)) n (by simp) h i hi
        rw [ih]
        obtain ⟨-, hn1, hn2⟩ := lowest_some.1 hn
        by_cases e : i = n
        · subst e
          simp [hn1]
        · rw [put_ne _ _ e]
          split
          · rfl
          · have := hn2 i (by omega)
            cases hti : t i with
            | none => exact absurd hti this
            | some a => rfl
    · rw [if_neg hlt] at h
      cases h
      rw [if_neg (by simp [lastFd] at hlt; omega)]

theorem moveFd_low_at {lim o fuel} {t t' : Table} {x y : Int} (hx : t.at x = some o)
    (h : moveFd lim fuel t x = some (y, t')) : ∀ i, i < 8 → t' i = if x < 8 then (t i).or (some o) else t i := by
  obtain ⟨n, rfl, hn⟩ := at_nonneg hx
  intro i hi
  rw [moveFd_low fuel t n hn h i hi]
  simp only [show ((n : Int) < 8) ↔ n < 8 by omega]

/-- The whole run, for a parent with room: the child executes, with the five objects at their numbers,
nothing above them, and below 3 what was there before or a copy of one of the five, and of which. -/
theorem startChild_spec {fuel e t h shm pm cb rpc lib} (hr : Room e.lim t)
    (hh : Refer t h shm pm cb rpc) (hlib : e.lib = some lib) (hf : 10 ≤ fuel) :
    ∃ t5 t' : Table, startChild fuel e t h = (.exec (dropWrite e t'), ⟨-1, h.pagemap, -1, -1⟩) ∧
      (∀ i, t' i = wanted t5 shm pm cb lib rpc i) ∧
      (∀ i, t i ≠ none → t5 i = t i) ∧
      (∀ i, i < 8 → t i = none → t5 i = none ∨ ∃ o, t5 i = some o ∧
        (o = shm ∨ o = pm ∨ o = cb ∨ o = rpc ∨ o = lib)) ∧
      (∀ i, i < 8 → t5 i = (t i).or (some (stray h shm pm cb rpc lib))) := by
  obtain ⟨b, h8, hb, hl⟩ := hr
  obtain ⟨y1, t1, e1, g1, o1, x1, b1⟩ := moveFd_at (lim := e.lim) hh.shm h8 hb (by omega) hf
  obtain ⟨y2, t2, e2, g2, o2, x2, b2⟩ := moveFd_at (lim := e.lim) (x1.at hh.pm) (b := b + 1) (by omega) b1 (by omega) hf
  obtain ⟨y3, t3, e3, g3, o3, x3, b3⟩ :=
    moveFd_at (lim := e.lim) (x2.at (x1.at hh.cb)) (b := b + 2) (by omega) b2 (by omega) hf
  obtain ⟨y4, t4, e4, g4, o4, x4, b4⟩ :=
    moveFd_at (lim := e.lim) (x3.at (x2.at (x1.at hh.rpc))) (b := b + 3) (by omega) b3 (by omega) hf
  obtain ⟨n, hc, hn, hnone, hfull⟩ := create_room (lim := e.lim) (o := lib) (b := b + 4) (by omega) b4
  have hx5 : Ext lib t4 (t4.put n (some lib)) := ext_put hnone
  -- the library descriptor is new, or is moved
  obtain ⟨y5, t5, e5, g5, o5, x5⟩ : ∃ (y : Nat) (t' : Table),
      moveFd e.lim fuel (t4.put n (some lib)) (n : Int) = some ((y : Int), t') ∧ 8 ≤ y ∧
        t' y = some lib ∧ Ext lib (t4.put n (some lib)) t' := by
    by_cases hn8 : n < 8
    · obtain ⟨y, t', a1, a2, a3, a4, -⟩ := moveFd_at (lim := e.lim) (fuel := fuel) (o := lib)
        (t := t4.put n (some lib)) (x := (n : Int)) (b := b + 4)
        (by rw [at_nat]; simp) (by omega)
        (fun i hi => by rw [put_ne _ _ (by omega)]; exact b4 i hi) (by omega) hf
      exact ⟨y, t', a1, a2, a3, a4⟩
    · refine ⟨n, t4.put n (some lib), ?_, by omega, by simp, Ext.refl _ _⟩
      cases fuel with
      | zero => omega
      | succ fuel =>
        unfold moveFd
        rw [if_neg (by simp [lastFd]; omega)]
  have x45 := hx5.trans x5
  -- the moved descriptors are still there at the end
  have k1 : t5 y1 = some shm := by
    rw [x45.keep _ (by rw [x4.keep _ (by rw [x3.keep _ (by rw [x2.keep _ (by simp [o1])]; simp [o1])]
                                         rw [x2.keep _ (by simp [o1])]; simp [o1])]
                       rw [x3.keep _ (by rw [x2.keep _ (by simp [o1])]; simp [o1])]
                       rw [x2.keep _ (by simp [o1])]; simp [o1])]
    rw [x4.keep _ (by rw [x3.keep _ (by rw [x2.keep _ (by simp [o1])]; simp [o1])]
                      rw [x2.keep _ (by simp [o1])]; simp [o1])]
    rw [x3.keep _ (by rw [x2.keep _ (by simp [o1])]; simp [o1])]
    rw [x2.keep _ (by simp [o1]), o1]
  have k2 : t5 y2 = some pm := by
    rw [x45.keep _ (by rw [x4.keep _ (by rw [x3.keep _ (by simp [o2])]; simp [o2])]
                       rw [x3.keep _ (by simp [o2])]; simp [o2])]
    rw [x4.keep _ (by rw [x3.keep _ (by simp [o2])]; simp [o2])]
    rw [x3.keep _ (by simp [o2]), o2]
  have k3 : t5 y3 = some cb := by
    rw [x45.keep _ (by rw [x4.keep _ (by simp [o3])]; simp [o3])]
    rw [x4.keep _ (by simp [o3]), o3]
  have k4 : t5 y4 = some rpc := by rw [x45.keep _ (by simp [o4]), o4]
  refine ⟨t5, closefrom (dup2 (dup2 (dup2 (dup2 (dup2 t5 y1 3) y2 4) y3 5) y5 6) y4 7) lastFd,
    ?_, ?_, ?_, ?_, ?_⟩
  · unfold startChild
    simp only [e1, e2, e3, e4, hlib, hc, e5]
    rw [if_neg (by omega)]
  · intro i
    rw [dup2_nat 3 k1, dup2_nat (o := pm) 4 (by rw [put_ne _ _ (by omega)]; exact k2),
      dup2_nat (o := cb) 5 (by rw [put_ne _ _ (by omega), put_ne _ _ (by omega)]; exact k3),
      dup2_nat (o := lib) 6
        (by rw [put_ne _ _ (by omega), put_ne _ _ (by omega), put_ne _ _ (by omega)]; exact o5),
      dup2_nat (o := rpc) 7
        (by rw [put_ne _ _ (by omega), put_ne _ _ (by omega), put_ne _ _ (by omega),
              put_ne _ _ (by omega)]; exact k4)]
    unfold closefrom lastFd Table.put
    rcases i with _ | _ | _ | _ | _ | _ | _ | _ | i <;> simp [wanted]
    intro; omega
  · intro i hi
    have a1 := x1.keep i hi
    have a2 := x2.keep i (by rw [a1]; exact hi)
    have a3 := x3.keep i (by rw [a2, a1]; exact hi)
    have a4 := x4.keep i (by rw [a3, a2, a1]; exact hi)
    have a5 := x45.keep i (by rw [a4, a3, a2, a1]; exact hi)
    rw [a5, a4, a3, a2, a1]
  · intro i hi hn0
    have key : ∀ {o : Obj} {s s' : Table}, Ext o s s' → ∀ {a}, s i = some a → s' i = some a := by
      intro o s s' hx a ha
      rw [hx.keep i (by simp [ha]), ha]
    rcases x1.low i hi hn0 with c1 | c1
    · rcases x2.low i hi c1 with c2 | c2
      · rcases x3.low i hi c2 with c3 | c3
        · rcases x4.low i hi c3 with c4 | c4
          · rcases x45.low i hi c4 with c5 | c5
            · exact .inl c5
            · exact .inr ⟨_, c5, by simp⟩
          · exact .inr ⟨_, key x45 c4, by simp⟩
        · exact .inr ⟨_, key x45 (key x4 c3), by simp⟩
      · exact .inr ⟨_, key x45 (key x4 (key x3 c2)), by simp⟩
    · exact .inr ⟨_, key x45 (key x4 (key x3 (key x2 c1))), by simp⟩
  · intro i hi
    have f1 := moveFd_low_at hh.shm e1 i hi
    have f2 := moveFd_low_at (x1.at hh.pm) e2 i hi
    have f3 := moveFd_low_at (x2.at (x1.at hh.cb)) e3 i hi
    have f4 := moveFd_low_at (x3.at (x2.at (x1.at hh.rpc))) e4 i hi
    have f5 := moveFd_low_at (o := lib) (by rw [at_nat]; simp) e5 i hi
    have f45 : t5 i = (t4 i).or (some lib) := by
      rw [f5]
      by_cases en : i = n
      · subst en
        simp [hnone]
      · rw [put_ne _ _ en]
        split
        · rfl
        · have := hfull i (by omega)
          cases hti : t4 i with
          | none => exact absurd hti this
          | some a => rfl
    rw [f45, f4, f3, f2, f1]
    unfold stray
    cases t i <;> (repeat' split) <;> rfl

/-- `dropWrite` on a table with nothing at 8 and above. -/
theorem dropWrite_spec {e : Env} {t : Table} {pm} (h4 : t 4 = some pm) (h8 : t 8 = none)
    (hl : 9 ≤ e.lim) :
    dropWrite e t = fun i => if i = 4 then some (if e.proc then ⟨pm.id, false⟩ else pm) else t i := by
  unfold dropWrite
  cases hp : e.proc with
  | false =>
    funext i
    simp [dup2, Table.at, close]
    intro hi; subst hi; exact h4
  | true =>
    obtain ⟨n, hn, hle⟩ := lowest_le (t := t) (lim := e.lim) (m := 8) (by omega) h8
    have hs := lowest_some.1 hn
    have hne : n ≠ 4 := by rintro rfl; simp [h4] at hs
    simp only [h4, create, hn]
    rw [dup2_nat (o := ⟨pm.id, false⟩) 4 (by simp)]
    funext i
    unfold close Table.put
    by_cases h1 : i = n
    · subst h1; simp [hne, hs.2.1]
    · by_cases h2 : i = 4
      · subst h2; simp [h1]
      · simp [h1, h2]

/-- The descriptor `i` of the program that is executed. -/
def execAt : Out × Handles → Nat → Option (Option Obj)
  | (.exec t, _), i => some (t i)
  | _, _ => none

theorem execAt_some {o : Out × Handles} {i a} (h : execAt o i = some a) :
    ∃ t' hs, o = (.exec t', hs) ∧ t' i = a := by
  obtain ⟨o, hs⟩ := o
  cases o with
  | exec t' => exact ⟨t', hs, rfl, by simpa [execAt] using h⟩
  | _ => simp [execAt] at h

theorem moveFd_full {lim : Nat} {t : Table} {x : Int} (hfull : ∀ i, i < lim → t i ≠ none)
    (hx : x < 8) : ∀ fuel, moveFd lim fuel t x = none
  | 0 => rfl
  | fuel + 1 => by
    unfold moveFd
    rw [if_pos (by simpa [lastFd] using hx)]
    have : dup lim t x = (-1, t) := by
      unfold dup create
      rw [lowest_none.2 hfull]
      cases t.at x <;> rfl
    simp only [this]
    exact moveFd_neg lim t fuel

end Verif.Start
