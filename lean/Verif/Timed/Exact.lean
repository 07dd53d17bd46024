import Verif.Timed.Props

/-!
# When exactly a caller on Linux is told that the sandbox has ended: theorems (C105)
-/

namespace Verif.Timed

/-! ### Specification -/

/-- `e` is the end of the first stretch of time after `t` that is as long as `timeout` and without signals
(`include/process_sandbox/platform/onebitsem_futex.h:48-76`). -/
def FirstPause (sig : Nat → Bool) (timeout t e : Nat) : Prop :=
  t + timeout ≤ e ∧ Quiet sig (e - timeout) e ∧ ∀ e', t + timeout ≤ e' → e' < e → ¬ Quiet sig (e' - timeout) e'

/-- A caller that begins to wait at `t` is told at `e` of a sandbox that ends at `d`: pauses follow one another, the last is
the first to end after the sandbox (`src/libsandbox.cc:971-977`). -/
inductive Told (sig : Nat → Bool) (d : Nat) : Nat → Nat → Prop where
  | now {t e : Nat} (h : FirstPause sig 100 t e) (hd : d ≤ e) : Told sig d t e
  | later {t e1 e : Nat} (h : FirstPause sig 100 t e1) (hd : e1 < d) (h2 : Told sig d e1 e) : Told sig d t e

/-! ### Lemmas -/

theorem futexWait_mono (sig : Nat → Bool) (timeout : Nat) : ∀ c t e, futexWait sig timeout c t = some e →
    ∀ k, futexWait sig timeout (c + k) t = some e := by
  intro c
  induction c with
  | zero => intro t e h; simp [futexWait] at h
  | succ c ih =>
    intro t e h k
    rw [show c + 1 + k = c + k + 1 by omega]
    rw [futexWait] at h ⊢
    split at h
    · exact ih _ _ h k
    · exact h

theorem callerTold_mono (sig exited : Nat → Bool) (timeout : Nat) : ∀ k t e c,
    callerTold (futexWait sig timeout c) exited k t = some e →
    ∀ j, callerTold (futexWait sig timeout (c + j)) exited k t = some e := by
  intro k
  induction k with
  | zero => intro t e c h; simp [callerTold] at h
  | succ k ih =>
    intro t e c h j
    simp only [callerTold] at h ⊢
    cases hw : futexWait sig timeout c t with
    | none => simp [hw] at h
    | some e1 =>
      simp only [hw] at h
      simp only [futexWait_mono sig timeout c t e1 hw j]
      split
      · rename_i hx; simpa [hx] using h
      · rename_i hx
        simp only [hx] at h
        exact ih _ _ _ (by simpa using h) j

/-! ## C105 -/

/-- **C105, Linux: when a wait ends, exactly.**  It ends, after however many system calls, at the end of the first stretch
without signals that is as long as the timeout; if there is no such stretch, never. -/
theorem futex_wait_iff (sig : Nat → Bool) (timeout t e : Nat) :
    (∃ calls, futexWait sig timeout calls t = some e) ↔ FirstPause sig timeout t e := by
  constructor
  · rintro ⟨c, h⟩
    exact futex_exact sig timeout c t e h
  · rintro ⟨h1, h2, h3⟩
    obtain ⟨c, e', hc, he⟩ := futex_ends sig timeout t e h1 h2
    obtain ⟨g1, g2, _⟩ := futex_exact sig timeout c t e' hc
    have : ¬ e' < e := fun hlt => h3 e' g1 hlt g2
    exact ⟨c, by rw [hc, show e' = e by omega]⟩

/-- **C105, Linux: when a caller is told, exactly.** -/
theorem caller_told_iff (sig exited : Nat → Bool) (d t e : Nat) (hd : EndsAt exited d) :
    (∃ calls turns, callerTold (futexWait sig sendTimeout calls) exited turns t = some e) ↔ Told sig d t e := by
  constructor
  · rintro ⟨c, k, h⟩
    induction k generalizing t with
    | zero => simp [callerTold] at h
    | succ k ih =>
      simp only [callerTold] at h
      cases hw : futexWait sig sendTimeout c t with
      | none => simp [hw] at h
      | some e1 =>
        have hp := (futex_wait_iff sig sendTimeout t e1).1 ⟨c, hw⟩
        simp only [hw] at h
        by_cases hx : exited e1 = true
        · rw [if_pos hx] at h
          cases h
          exact .now hp ((hd e).1 hx)
        · rw [if_neg hx] at h
          exact .later hp (Nat.lt_of_not_le fun h => hx ((hd e1).2 h)) (ih e1 h)
  · intro h
    induction h with
    | @now t e h hde =>
      obtain ⟨c, hc⟩ := (futex_wait_iff sig sendTimeout t e).2 h
      exact ⟨c, 1, by simp [callerTold, hc, (hd e).2 hde]⟩
    | @later t e1 e h hde _ ih =>
      obtain ⟨c, hc⟩ := (futex_wait_iff sig sendTimeout t e1).2 h
      obtain ⟨c2, k, h2⟩ := ih
      have hx : exited e1 = false := by
        cases hx : exited e1 with
        | false => rfl
        | true => exact absurd ((hd e1).1 hx) (by omega)
      refine ⟨c + c2, k + 1, ?_⟩
      simp only [callerTold, futexWait_mono sig sendTimeout c t e1 hc c2, hx]
      rw [Nat.add_comm c c2]
      simpa using callerTold_mono sig exited sendTimeout k e1 e c2 h2 c

/-- **C105, Linux: a sandbox that has already ended.**  A caller that begins to wait for it is told at some time exactly if
the signals at some time leave a pause of a tenth of a second. -/
theorem ended_told_iff (sig exited : Nat → Bool) (d t : Nat) (hd : EndsAt exited d) (hdt : d ≤ t) :
    (∃ calls turns e, callerTold (futexWait sig sendTimeout calls) exited turns t = some e) ↔
    ∃ p, t ≤ p ∧ Quiet sig p (p + 100) := by
  constructor
  · rintro ⟨c, k, e, h⟩
    cases (caller_told_iff sig exited d t e hd).1 ⟨c, k, h⟩ with
    | now h _ => exact ⟨e - 100, by have := h.1; omega, by rw [show e - 100 + 100 = e by have := h.1; omega]; exact h.2.1⟩
    | later h hlt _ => have := h.1; omega
  · rintro ⟨p, hp, hq⟩
    obtain ⟨c, k, e, h, _⟩ := futex_told_partial sig exited d t p hd (by omega) hp hq
    exact ⟨c, k, e, h⟩

/-! ### Examples -/

/-- A signal at 150 and every 50 after: a sandbox that ends at 120, when its caller has begun its second wait, is never
reported, although there were 100 quiet milliseconds that ended with its death. -/
example : (∀ calls turns e, callerTold (futexWait (fun s => decide (150 ≤ s ∧ s % 50 = 0)) sendTimeout calls)
    (fun s => decide (120 ≤ s)) turns 0 ≠ some e) ∧ Quiet (fun s => decide (150 ≤ s ∧ s % 50 = 0)) 20 120 := by
  have hq : ∀ e, 200 ≤ e → ¬ Quiet (fun s => decide (150 ≤ s ∧ s % 50 = 0)) (e - 100) e := by
    intro e he h
    have h1 := h (e - e % 50) (by omega) (by omega)
    simp at h1
    omega
  constructor
  · intro c k e h
    have hp : FirstPause (fun s => decide (150 ≤ s ∧ s % 50 = 0)) 100 0 100 :=
      ⟨by omega, fun s _ h2 => by simp; omega, fun e' h1 h2 => by omega⟩
    have uniq : ∀ e1, FirstPause (fun s => decide (150 ≤ s ∧ s % 50 = 0)) 100 0 e1 → e1 = 100 := by
      intro e1 h1
      have a : ¬ 100 < e1 := fun hlt => h1.2.2 100 (by omega) hlt hp.2.1
      have := h1.1
      omega
    have no : ∀ e, ¬ Told (fun s => decide (150 ≤ s ∧ s % 50 = 0)) 120 100 e := by
      intro e h
      cases h with
      | now h _ => exact hq e h.1 h.2.1
      | @later _ e1 _ h _ _ => exact hq e1 h.1 h.2.1
    cases (caller_told_iff _ _ 120 0 e (fun e => by simp)).1 ⟨c, k, h⟩ with
    | now h hd => have := uniq _ h; omega
    | later h _ h2 => rw [uniq _ h] at h2; exact no e h2
  · intro s h1 h2
    simp
    omega

/-- A caller that waits for a sandbox that has ended at 5, with a signal at 30: told at 130. -/
example : Told (fun s => s == 30) 5 0 130 := by
  refine .now ⟨by omega, fun s h1 _ => by simp; omega, fun e' h1 h2 h => ?_⟩ (by omega)
  have := h 30 (by omega) (by omega)
  simp at this

example : ∃ calls turns e, callerTold (futexWait (fun s => s == 30) sendTimeout calls) (fun s => decide (5 ≤ s)) turns 10 = some e :=
  (ended_told_iff _ _ 5 10 (fun e => by simp) (by decide)).2 ⟨40, by decide, fun s h _ => by simp; omega⟩

end Verif.Timed
