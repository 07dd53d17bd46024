import Verif.FreeBsd.Props
import Verif.Syscall.Ends

/-!
# When the emulation of a call trapped by Capsicum does not end properly (property C72)
-/

namespace Verif.FreeBsd

open Verif.Syscall (CInt Request Answer Env Done Reply helper taken helper_taken)

/-- The call that a signal tells of.  Before FreeBSD 14 the signal does not tell the number, and `rax` is taken for it. -/
def told (i : Info) (r : Regs) : Call :=
  match i.syscall with
  | some code => asks code r
  | none => ⟨r.rax.setWidth 32, [r.rdi, r.rsi, r.rdx, r.r10, r.r8, r.r9]⟩

/-- The request that the child makes for a call. -/
inductive Asks (v : Env) : Call → Request → Prop where
  | direct (c : Call) (q : Request) : c.nr ≠ 499 → wanted c = some q → Asks v c q
  | relative (d p f m : Word) (l : List Word) (s : List Byte) (q : Request) : p ≠ 0 → v.str p = some s → s.head? ≠ some 47 →
      wanted ⟨499, d :: p :: f :: m :: l⟩ = some q → Asks v ⟨499, d :: p :: f :: m :: l⟩ q
  | absolute (d p f m : Word) (l : List Word) (s : List Byte) (q : Request) : p ≠ 0 → v.str p = some s → s.head? = some 47 →
      wanted ⟨5, [p, f, m, 0]⟩ = some q → Asks v ⟨499, d :: p :: f :: m :: l⟩ q

/-- The number that the child gives for a call. -/
inductive Gets (v : Env) : Call → CInt → Prop where
  | host (c : Call) (q : Request) : Asks v c q → Gets v c (taken (v.host q))
  | null (d f m : Word) (l : List Word) : Gets v ⟨499, d :: 0 :: f :: m :: l⟩ (-22)

/-- An `openat` whose path is neither null nor a readable string. -/
def Unreadable (v : Env) (c : Call) : Prop :=
  ∃ d p f m l, c = ⟨499, d :: p :: f :: m :: l⟩ ∧ p ≠ 0 ∧ v.str p = none

theorem number_told (i : Info) (r : Regs) : number i r = (told i r).nr := by
  cases h : i.syscall with
  | some code => rw [number_asks h]; simp only [told, h]
  | none => simp only [number, told, h]; rfl

theorem extract_told (i : Info) (r : Regs) (n : Nat) (hn : n ≤ 5) : extractArgs i r n = .ok ((told i r).args.take n) := by
  cases h : i.syscall with
  | some code => rw [extract_asks h r n hn]; simp only [told, h]
  | none => rw [extract_old h r n hn]; simp only [told, h]; rfl

theorem told_args (i : Info) (r : Regs) : ∃ a b c d l, (told i r).args = a :: b :: c :: d :: l := by
  unfold told
  split
  · unfold asks
    split
    · exact ⟨_, _, _, _, _, rfl⟩
    · exact ⟨_, _, _, _, _, rfl⟩
  · exact ⟨_, _, _, _, _, rfl⟩

/-- What the entry for a call gives, for each call. -/
theorem entry_gives (v : Env) (c : Call) (hl : ∃ a b x d l, c.args = a :: b :: x :: d :: l) (n : Nat) (hn : n < 6)
    (h : syscallNumbers[n]? = some c.nr) :
    (callEntry v n (c.args.take (arity n)) = .ub ∧ Unreadable v c ∧ ∀ x, ¬ Gets v c x) ∨
    (∃ y, callEntry v n (c.args.take (arity n)) = .ok y ∧ Gets v c y.result ∧ (∀ x, Gets v c x → x = y.result) ∧
      ¬ Unreadable v c) := by
  obtain ⟨nr, args⟩ := c
  obtain ⟨a, b, x, d, l, rfl⟩ := hl
  simp only at h
  have direct : ∀ q, nr ≠ 499 → wanted ⟨nr, a :: b :: x :: d :: l⟩ = some q →
      callEntry v n ((a :: b :: x :: d :: l).take (arity n)) = .ok (helper v q) →
      (∃ y, callEntry v n ((a :: b :: x :: d :: l).take (arity n)) = .ok y ∧ Gets v ⟨nr, a :: b :: x :: d :: l⟩ y.result ∧
        (∀ z, Gets v ⟨nr, a :: b :: x :: d :: l⟩ z → z = y.result) ∧ ¬ Unreadable v ⟨nr, a :: b :: x :: d :: l⟩) := by
    intro q h1 h2 h3
    refine ⟨_, h3, ?_, ?_, ?_⟩
    · rw [helper_taken]; exact .host _ q (.direct _ q h1 h2)
    · intro z hz
      rw [helper_taken]
      cases hz with
      | host _ q' ha =>
        cases ha with
        | direct _ _ _ h5 => rw [h2] at h5; cases h5; rfl
        | relative => exact absurd rfl h1
        | absolute => exact absurd rfl h1
      | null => exact absurd rfl h1
    · rintro ⟨_, _, _, _, _, h5, -⟩
      cases h5
      exact h1 rfl
  have hcases : n = 0 ∨ n = 1 ∨ n = 2 ∨ n = 3 ∨ n = 4 ∨ n = 5 := by omega
  rcases hcases with rfl | rfl | rfl | rfl | rfl | rfl <;> simp [syscallNumbers] at h <;> subst h
  · exact .inr (direct _ (by decide) rfl rfl)
  · exact .inr (direct _ (by decide) rfl rfl)
  · exact .inr (direct _ (by decide) rfl rfl)
  · by_cases h0 : b = 0
    · subst h0
      refine .inr ⟨⟨-22, []⟩, rfl, .null a x d l, ?_, ?_⟩
      · intro z hz
        cases hz with
        | host _ q' ha =>
          cases ha with
          | direct _ _ h5 => exact absurd rfl h5
          | relative _ _ _ _ _ _ _ h5 => exact absurd rfl h5
          | absolute _ _ _ _ _ _ _ h5 => exact absurd rfl h5
        | null => rfl
      · rintro ⟨_, _, _, _, _, h5, h6, -⟩
        cases h5
        exact h6 rfl
    · cases hs : v.str b with
      | none =>
        refine .inl ⟨?_, ⟨a, b, x, d, l, rfl, h0, hs⟩, ?_⟩
        · simp only [arity, List.take, callEntry, openat, if_neg h0, hs]
        · intro z hz
          cases hz with
          | host _ q' ha =>
            cases ha with
            | direct _ _ h5 => exact absurd rfl h5
            | relative _ _ _ _ _ _ _ _ h5 => rw [hs] at h5; cases h5
            | absolute _ _ _ _ _ _ _ _ h5 => rw [hs] at h5; cases h5
          | null => exact absurd rfl h0
      | some s =>
        right
        have hun : ¬ Unreadable v ⟨499, a :: b :: x :: d :: l⟩ := by
          rintro ⟨_, _, _, _, _, h5, -, h6⟩
          cases h5
          rw [hs] at h6; cases h6
        by_cases hh : s.head? = some 47
        · refine ⟨Syscall.open v b (Syscall.toInt x) (toMode d), ?_, ?_, ?_, hun⟩
          · simp only [arity, List.take, callEntry, openat, if_neg h0, hs, if_pos hh]
          · rw [Syscall.open, helper_taken]
            exact .host _ _ (.absolute a b x d l s _ h0 hs hh rfl)
          · intro z hz
            rw [Syscall.open, helper_taken]
            cases hz with
            | host _ q' ha =>
              cases ha with
              | direct _ _ h5 => exact absurd rfl h5
              | relative _ _ _ _ _ s' _ _ h4 h5 => rw [hs] at h4; cases h4; exact absurd hh h5
              | absolute _ _ _ _ _ _ _ _ _ _ h5 => cases h5; rfl
            | null => exact absurd rfl h0
        · refine ⟨helper v ⟨3, [.int (Syscall.toInt a), .cstr b, .int (Syscall.toInt x), .int (toMode d)], Syscall.toInt a⟩,
            ?_, ?_, ?_, hun⟩
          · simp only [arity, List.take, callEntry, openat, if_neg h0, hs, if_neg hh]
          · rw [helper_taken]
            exact .host _ _ (.relative a b x d l s _ h0 hs hh rfl)
          · intro z hz
            rw [helper_taken]
            cases hz with
            | host _ q' ha =>
              cases ha with
              | direct _ _ h5 => exact absurd rfl h5
              | absolute _ _ _ _ _ s' _ _ h4 h5 => rw [hs] at h4; cases h4; exact absurd h5 hh
              | relative _ _ _ _ _ _ _ _ _ _ h5 => cases h5; rfl
            | null => exact absurd rfl h0
  · exact .inr (direct _ (by decide) rfl rfl)
  · exact .inr (direct _ (by decide) rfl rfl)

theorem dispatch_at {v : Env} {i : Info} {r : Regs} {n : Nat} (h : syscallNumbers[n]? = some (number i r)) (hn : n < 6) :
    dispatch v i r 6 = dispatch v i r (n + 1) := by
  have hmiss : ∀ m, m < 6 → m ≠ n → syscallNumbers[m]? ≠ some (number i r) := by
    intro m hm hne e
    rw [← h] at e
    have key : ∀ a b : Fin 6, syscallNumbers[(a : Nat)]? = syscallNumbers[(b : Nat)]? → a = b := by decide
    have := key ⟨m, hm⟩ ⟨n, hn⟩ e
    simp at this
    exact hne this
  have up : ∀ k, n + 1 + k ≤ 6 → dispatch v i r (n + 1 + k) = dispatch v i r (n + 1) := by
    intro k
    induction k with
    | zero => exact fun _ => rfl
    | succ k ih =>
      intro hk
      have : n + 1 + (k + 1) = (n + 1 + k) + 1 := by omega
      rw [this, dispatch, if_neg (hmiss _ (by omega) (by omega))]
      exact ih (by omega)
  have := up (5 - n) (by omega)
  rwa [show n + 1 + (5 - n) = 6 by omega] at this

/-- **C72, what comes of every signal.**  Whatever the signal, the registers and the host are: the handler neither aborts nor
throws; its behaviour is undefined exactly if the signal tells of a refused call, and either it is an `openat` whose path
is neither null nor a readable string, or the number given for the call is `INT_MIN`; otherwise the program goes on with
that number, and nothing else is changed. -/
theorem emulate_ends_iff (v : Env) (i : Info) (r : Regs) :
    emulate v i r ≠ .abort ∧ emulate v i r ≠ .throws ∧
    (emulate v i r = .ub ↔ i.code = 5 ∧ (Unreadable v (told i r) ∨ Gets v (told i r) (BitVec.intMin 32))) ∧
    (∀ x, i.code = 5 → Gets v (told i r) x → x ≠ BitVec.intMin 32 →
      ∃ asked, emulate v i r = .ok (resumed r x, asked) ∧ OnlyResult r (resumed r x)) := by
  by_cases hc : i.code = 5
  · have hargs := told_args i r
    by_cases hm : ∃ n, n < 6 ∧ syscallNumbers[n]? = some (number i r)
    · obtain ⟨n, hn, h⟩ := hm
      have ha := extract_told i r (arity n) (by have := arity_le n; omega)
      have h' : syscallNumbers[n]? = some (told i r).nr := by rw [← number_told]; exact h
      rcases entry_gives v (told i r) hargs n hn h' with ⟨h1, h2, h3⟩ | ⟨d, h1, h2, h3, h4⟩
      · have hu : emulate v i r = .ub := by
          rw [emulate, if_pos (show i.code = trapCap from hc), dispatch_at h hn, dispatch, if_pos h, ha]
          simp only [h1]
        rw [hu]
        exact ⟨(nomatch ·), (nomatch ·), ⟨fun _ => ⟨hc, .inl h2⟩, fun _ => rfl⟩, fun x _ hx => absurd hx (h3 x)⟩
      · by_cases hd : d.result = BitVec.intMin 32
        · rw [min_answer_undefined (show i.code = trapCap from hc) h ha h1 hd hn]
          refine ⟨(nomatch ·), (nomatch ·), ⟨fun _ => ⟨hc, .inr (hd ▸ h2)⟩, fun _ => rfl⟩, ?_⟩
          intro x _ hx hne
          exact absurd ((h3 x hx).trans hd) hne
        · have hok : emulate v i r = .ok (resumed r d.result, d.asked) := by
            rw [emulate, if_pos (show i.code = trapCap from hc)]; exact dispatch_hit h ha h1 hd hn
          rw [hok]
          refine ⟨(nomatch ·), (nomatch ·), ⟨(nomatch ·), ?_⟩, ?_⟩
          · rintro ⟨-, h5 | h5⟩
            · exact absurd h5 h4
            · exact absurd (h3 _ h5).symm hd
          · intro x _ hx _
            rw [h3 x hx]
            exact ⟨_, rfl, resumed_only _ _⟩
    · have hmiss : emulate v i r = .ok (r, []) := by
        rw [emulate, if_pos (show i.code = trapCap from hc)]
        exact dispatch_miss v i r 6 (fun m hm' e => hm ⟨m, hm', e⟩)
      have n1 : (told i r).nr ≠ 499 := fun e => hm ⟨3, by omega, by rw [number_told, e]; rfl⟩
      have hun : ¬ Unreadable v (told i r) := by
        rintro ⟨_, _, _, _, _, h5, -⟩
        rw [h5] at n1
        exact n1 rfl
      have hnone : ∀ x, ¬ Gets v (told i r) x := by
        intro x hx
        obtain ⟨c, hcc⟩ : ∃ c, c = told i r := ⟨_, rfl⟩
        have num : ∀ k m, syscallNumbers[k]? = some m → k < 6 → c.nr ≠ m := by
          intro k m h1 h2 e
          exact hm ⟨k, h2, by rw [number_told, ← hcc, e, h1]⟩
        rw [← hcc] at hx n1
        cases hx with
        | host _ q ha =>
          cases ha with
          | direct _ _ _ h5 =>
            simp only [wanted] at h5
            split at h5
            · simp only [if_neg n1, if_neg (num 0 5 rfl (by omega)), if_neg (num 1 188 rfl (by omega)),
                if_neg (num 2 33 rfl (by omega)), if_neg (num 4 104 rfl (by omega)), if_neg (num 5 98 rfl (by omega))] at h5
              cases h5
            · cases h5
          | relative => exact n1 rfl
          | absolute => exact n1 rfl
        | null => exact n1 rfl
      rw [hmiss]
      refine ⟨(nomatch ·), (nomatch ·), ⟨(nomatch ·), ?_⟩, fun x _ hx => absurd hx (hnone x)⟩
      rintro ⟨-, h5 | h5⟩
      · exact absurd h5 hun
      · exact absurd h5 (hnone _)
  · have : emulate v i r = .ok (r, []) := by rw [emulate, if_neg (show ¬ i.code = trapCap from hc)]
    rw [this]
    exact ⟨(nomatch ·), (nomatch ·), ⟨(nomatch ·), fun h => absurd h.1 hc⟩, fun _ h => absurd h hc⟩

/-- A host that answers `INT_MIN` to an `access` that an older system tells of in `rax`. -/
example : emulate ⟨fun _ => ⟨0x80000000, none⟩, 7, fun _ => none, fun x => x⟩ ⟨5, none⟩
    ⟨33, 0x1000, 4, 0, 0, 0, 0, 0x500, 0x203⟩ = .ub :=
  (emulate_ends_iff _ _ _).2.2.1.2 ⟨rfl, .inr (.host _ ⟨2, [.cstr 0x1000, .int 4], -1⟩ (.direct _ _ (by decide) rfl))⟩

/-- A host that answers 5 to the same call. -/
example : Gets ⟨fun _ => ⟨5, none⟩, 7, fun _ => none, fun x => x⟩ (told ⟨5, none⟩ ⟨33, 0x1000, 4, 0, 0, 0, 0, 0x500, 0x203⟩) 5 ∧
    (5 : CInt) ≠ BitVec.intMin 32 :=
  ⟨.host _ ⟨2, [.cstr 0x1000, .int 4], -1⟩ (.direct _ _ (by decide) rfl), by decide⟩

end Verif.FreeBsd
