import Verif.Timed.Spec

/-!
# How long the host waits (property C105)
-/

namespace Verif.Timed

/-! ### A single sleep -/

private theorem sleep_spec (sig : Nat → Bool) : ∀ (n : Nat) (t : Nat),
    ((sleep sig t n).2 = true → t < (sleep sig t n).1 ∧ (sleep sig t n).1 ≤ t + n ∧ sig (sleep sig t n).1 = true) ∧
    ((sleep sig t n).2 = false → (sleep sig t n).1 = t + n ∧ Quiet sig t (t + n))
  | 0, t => by
    refine ⟨by simp [sleep], fun _ => ⟨rfl, ?_⟩⟩
    intro s h1 h2
    omega
  | n + 1, t => by
    simp only [sleep]
    split
    · rename_i h
      exact ⟨fun _ => ⟨by simp, by simp, h⟩, by simp⟩
    · rename_i h
      obtain ⟨a, b⟩ := sleep_spec sig n (t + 1)
      refine ⟨fun h1 => ?_, fun h1 => ?_⟩
      · obtain ⟨x, y, z⟩ := a h1
        exact ⟨by omega, by omega, z⟩
      · obtain ⟨x, y⟩ := b h1
        refine ⟨by omega, ?_⟩
        intro s h2 h3
        by_cases e : s = t + 1
        · subst e; simpa using h
        · exact y s (by omega) (by omega)

/-! ## The semaphore of FreeBSD -/

/-- **C105, FreeBSD.**  Whatever signals arrive, a wait lasts exactly its timeout. -/
theorem umtx_exact (sig : Nat → Bool) (timeout : Nat) (t : Nat) :
    ∃ calls, umtxWait sig calls timeout t = some (t + timeout) := by
  induction timeout using Nat.strongRecOn generalizing t with
  | _ n ih =>
    obtain ⟨a, b⟩ := sleep_spec sig n t
    rcases hs : sleep sig t n with ⟨e, i⟩
    rw [hs] at a b
    cases i with
    | false => exact ⟨1, by simp [umtxWait, hs]; exact (b rfl).1⟩
    | true =>
      obtain ⟨x, y, -⟩ := a rfl
      simp only at x y
      obtain ⟨c, hc⟩ := ih (t + n - e) (by omega) e
      refine ⟨c + 1, ?_⟩
      simp only [umtxWait, hs, hc]
      congr 1
      omega

/-! ## The semaphore of Linux -/

/-- **C105, Linux: the exact length of a wait.**  A wait ends with the first stretch of time without signals that is as long
as the timeout: there is no signal in its last `timeout` milliseconds, and every earlier stretch of that length has one. -/
theorem futex_exact (sig : Nat → Bool) (timeout : Nat) : ∀ (calls : Nat) (t e : Nat),
    futexWait sig timeout calls t = some e →
    t + timeout ≤ e ∧ Quiet sig (e - timeout) e ∧ ∀ e', t + timeout ≤ e' → e' < e → ¬ Quiet sig (e' - timeout) e'
  | 0, t, e, h => by simp [futexWait] at h
  | calls + 1, t, e, h => by
    obtain ⟨a, b⟩ := sleep_spec sig timeout t
    rcases hs : sleep sig t timeout with ⟨e1, i⟩
    rw [hs] at a b
    simp only [futexWait, hs] at h
    cases i with
    | false =>
      simp only [Option.some.injEq] at h
      subst h
      obtain ⟨x, y⟩ := b rfl
      simp only at x
      subst x
      exact ⟨Nat.le_refl _, by simpa using y, fun e' h1 h2 => absurd h1 (by omega)⟩
    | true =>
      obtain ⟨x, y, z⟩ := a rfl
      simp only at x y z h
      obtain ⟨p, q, r⟩ := futex_exact sig timeout calls e1 e h
      refine ⟨by omega, q, ?_⟩
      intro e' h1 h2
      by_cases h3 : e1 + timeout ≤ e'
      · exact r e' h3 h2
      · intro hq
        rw [hq e1 (by omega) (by omega)] at z
        cases z

/-- **C105, Linux: when a wait ends.**  If there is a stretch without signals as long as the timeout, then the wait ends, at
the latest with the stretch. -/
theorem futex_ends (sig : Nat → Bool) (timeout : Nat) (t e : Nat) (h : t + timeout ≤ e) (hq : Quiet sig (e - timeout) e) :
    ∃ calls e', futexWait sig timeout calls t = some e' ∧ e' ≤ e := by
  obtain ⟨k, hk⟩ : ∃ k, k = e - t := ⟨_, rfl⟩
  induction k using Nat.strongRecOn generalizing t with
  | _ k ih =>
    obtain ⟨a, b⟩ := sleep_spec sig timeout t
    rcases hs : sleep sig t timeout with ⟨e1, i⟩
    rw [hs] at a b
    cases i with
    | false =>
      refine ⟨1, e1, by simp [futexWait, hs], ?_⟩
      have := (b rfl).1
      simp only at this
      omega
    | true =>
      obtain ⟨x, y, z⟩ := a rfl
      simp only at x y z
      have h1 : e1 + timeout ≤ e := by
        refine Classical.byContradiction fun hn => ?_
        rw [hq e1 (by omega) (by omega)] at z
        cases z
      obtain ⟨c, e', hc, he⟩ := ih (e - e1) (by omega) e1 h1 rfl
      exact ⟨c + 1, e', by simp [futexWait, hs, hc], he⟩

/-- **C105, Linux: when it does not.**  If signals keep arriving at intervals that are not longer than the timeout, the wait
never returns, however often the system call is made. -/
theorem futex_never (sig : Nat → Bool) (timeout : Nat) (t : Nat)
    (hd : ∀ e, t + timeout ≤ e → ¬ Quiet sig (e - timeout) e) (calls : Nat) : futexWait sig timeout calls t = none := by
  cases h : futexWait sig timeout calls t with
  | none => rfl
  | some e =>
    obtain ⟨a, b, -⟩ := futex_exact sig timeout calls t e h
    exact absurd b (hd e a)

/-! ## The loop of `send` -/

/-- **C105, FreeBSD.**  A caller that waits when the sandbox ends is told less than a timeout later (a tenth of a
second), or after its first wait; whatever signals arrive. -/
theorem umtx_told (sig exited : Nat → Bool) (d t : Nat) (hd : EndsAt exited d) :
    ∃ calls turns e, callerTold (umtxWait sig calls sendTimeout) exited turns t = some e ∧ d ≤ e ∧
      (e < d + sendTimeout ∨ e = t + sendTimeout) := by
  -- all waits need a number of calls, which are at most 101
  have mono : ∀ c n t e, umtxWait sig c n t = some e → umtxWait sig (c + 1) n t = some e := by
    intro c
    induction c with
    | zero => intro n t e h; simp [umtxWait] at h
    | succ c ih =>
      intro n t e h
      rw [umtxWait] at h ⊢
      split at h
      · exact ih _ _ _ h
      · exact h
  have bound : ∀ n t, umtxWait sig (n + 1) n t = some (t + n) := by
    intro n
    induction n using Nat.strongRecOn with
    | _ n ih =>
      intro t
      obtain ⟨a, b⟩ := sleep_spec sig n t
      rcases hs : sleep sig t n with ⟨e, i⟩
      rw [hs] at a b
      cases i with
      | false => simp only [umtxWait, hs]; simpa using (b rfl).1
      | true =>
        obtain ⟨x, y, -⟩ := a rfl
        simp only at x y
        have h1 := ih (t + n - e) (by omega) e
        have h2 : ∀ k, umtxWait sig (t + n - e + 1 + k) (t + n - e) e = some (e + (t + n - e)) := by
          intro k
          induction k with
          | zero => exact h1
          | succ k ihk => exact mono _ _ _ _ ihk
        have h3 := h2 (n - (t + n - e + 1))
        rw [show t + n - e + 1 + (n - (t + n - e + 1)) = n by omega] at h3
        simp only [umtxWait, hs, h3]
        congr 1
        omega
  refine ⟨sendTimeout + 1, ?_⟩
  obtain ⟨k, hk⟩ : ∃ k, k = d - t := ⟨_, rfl⟩
  induction k using Nat.strongRecOn generalizing t with
  | _ k ih =>
    have hw := bound sendTimeout t
    by_cases he : d ≤ t + sendTimeout
    · exact ⟨1, t + sendTimeout, by simp [callerTold, hw, (hd _).2 he], he, Or.inr rfl⟩
    · have hpos : sendTimeout = 100 := rfl
      obtain ⟨turns, e, h1, h2, h3⟩ := ih (d - (t + sendTimeout)) (by omega) (t + sendTimeout) rfl
      refine ⟨turns + 1, e, ?_, h2, Or.inl (by omega)⟩
      have hn : exited (t + sendTimeout) = false := by
        cases hx : exited (t + sendTimeout) with
        | false => rfl
        | true => exact absurd ((hd _).1 hx) he
      simp [callerTold, hw, hn, h1]

/-- **C105, Linux** (partial: if the signals leave a pause).  A caller is told at the latest at the end of the first tenth
of a second without signals after the sandbox has ended.  Without the pause it is false: `death_unnoticed`. -/
theorem futex_told_partial (sig exited : Nat → Bool) (d t p : Nat) (hd : EndsAt exited d) (hp : d ≤ p) (ht : t ≤ p)
    (hq : Quiet sig p (p + sendTimeout)) :
    ∃ calls turns e, callerTold (futexWait sig sendTimeout calls) exited turns t = some e ∧ d ≤ e ∧ e ≤ p + sendTimeout := by
  have hpos : sendTimeout = 100 := rfl
  have mono : ∀ c t e, futexWait sig sendTimeout c t = some e → ∀ k, futexWait sig sendTimeout (c + k) t = some e := by
    intro c
    induction c with
    | zero => intro t e h; simp [futexWait] at h
    | succ c ih =>
      intro t e h k
      rw [show c + 1 + k = c + k + 1 by omega]
      rw [futexWait] at h ⊢
      split at h
      · exact ih _ _ h k
      · exact h
  have tmono : ∀ k t e c, callerTold (futexWait sig sendTimeout c) exited k t = some e →
      ∀ j, callerTold (futexWait sig sendTimeout (c + j)) exited k t = some e := by
    intro k
    induction k with
    | zero => intro t e c h; simp [callerTold] at h
    | succ k ih =>
      intro t e c h j
      simp only [callerTold] at h ⊢
      cases hw : futexWait sig sendTimeout c t with
      | none => simp [hw] at h
      | some e1 =>
        simp only [hw] at h
        simp only [mono c t e1 hw j]
        split
        · rename_i hx; simpa [hx] using h
        · rename_i hx
          simp only [hx] at h
          exact ih _ _ _ (by simpa using h) j
  obtain ⟨k, hk⟩ : ∃ k, k = p - t := ⟨_, rfl⟩
  induction k using Nat.strongRecOn generalizing t with
  | _ k ih =>
    obtain ⟨c, e, hc, he⟩ := futex_ends sig sendTimeout t (p + sendTimeout) (by omega) (by simpa using hq)
    obtain ⟨h1, -, -⟩ := futex_exact sig sendTimeout c t e hc
    by_cases hx : exited e = true
    · exact ⟨c, 1, e, by simp [callerTold, hc, hx], (hd e).1 hx, he⟩
    · have hlt : e < d := Nat.lt_of_not_le fun h => hx ((hd e).2 h)
      obtain ⟨c2, k2, e2, h2, h3, h4⟩ := ih (p - e) (by omega) e (by omega) rfl
      refine ⟨c + c2, k2 + 1, e2, ?_, h3, h4⟩
      have hx' : exited e = false := by simpa using hx
      simp only [callerTold, mono c t e hc c2, hx']
      rw [Nat.add_comm c c2]
      simpa using tmono k2 e e2 c2 h2 c

/-- **C105**, the negation on Linux.  If a signal arrives at least every tenth of a second, a profiling timer for example, the
death of the sandbox is never noticed: the caller waits for ever, although the sandbox has long ended. -/
theorem death_unnoticed (sig exited : Nat → Bool) (t : Nat)
    (hs : ∀ a, ¬ Quiet sig a (a + sendTimeout)) (calls turns : Nat) :
    callerTold (futexWait sig sendTimeout calls) exited turns t = none := by
  have h := futex_never sig sendTimeout t (fun e he hq => hs (e - sendTimeout) (by
    rwa [Nat.sub_add_cancel (by omega)])) calls
  cases turns with
  | zero => rfl
  | succ k => simp [callerTold, h]

/-! ### Examples -/

/-- A signal every 10 milliseconds. -/
def exTimer (s : Nat) : Bool := s % 10 == 0

theorem exTimer_dense (a : Nat) : ¬ Quiet exTimer a (a + sendTimeout) := by
  intro h
  have h1 := h ((a / 10 + 1) * 10) (by omega) (by simp only [sendTimeout]; omega)
  simp [exTimer] at h1

/-- The caller is told on FreeBSD, and not on Linux. -/
example : (∃ calls turns e, callerTold (umtxWait exTimer calls sendTimeout) (fun e => decide (250 ≤ e)) turns 5 = some e ∧
      250 ≤ e ∧ (e < 350 ∨ e = 105)) ∧
    ∀ calls turns, callerTold (futexWait exTimer sendTimeout calls) (fun e => decide (250 ≤ e)) turns 5 = none :=
  ⟨umtx_told exTimer _ 250 5 (by intro e; simp), fun c k => death_unnoticed exTimer _ 5 exTimer_dense c k⟩

/-- Three signals and then none: the waits of a caller end at 105 (no signal before), 300 (interrupted at 150 and 200), and
the death at 250 is reported then. -/
def exThree (s : Nat) : Bool := s == 150 || s == 200 || s == 500

example : callerTold (futexWait exThree sendTimeout 9) (fun e => decide (250 ≤ e)) 9 5 = some 300 ∧
    callerTold (umtxWait exThree 9 sendTimeout) (fun e => decide (250 ≤ e)) 9 5 = some 305 := by decide +kernel

example : ∃ calls turns e, callerTold (futexWait exThree sendTimeout calls) (fun e => decide (250 ≤ e)) turns 5 = some e ∧
    250 ≤ e ∧ e ≤ 350 :=
  futex_told_partial exThree _ 250 5 250 (by intro e; simp) (by decide) (by decide) (by
    intro s h1 h2
    simp only [sendTimeout] at h2
    simp only [exThree, Bool.or_eq_false_iff, beq_eq_false_iff_ne]
    omega)

end Verif.Timed
