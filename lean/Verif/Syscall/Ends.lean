import Verif.Syscall.Props

/-!
# When the emulation of a trapped system call does not end properly (property C42)
-/

namespace Verif.Syscall

/-- The path `s` is taken for descriptor `x` of process `pid`: the directory, white space, a sign, digits, and anything
that is no digit. -/
def OwnPath (pid : Nat) (s : List Byte) (x : CInt) : Prop :=
  ∃ ws sg ds rest, s = fdDir pid ++ (ws ++ (signBytes sg ++ (ds ++ rest))) ∧
    (∀ b ∈ ws, b ∈ [32, 9, 10, 11, 12, 13]) ∧ ds ≠ [] ∧ (∀ d ∈ ds, 48 ≤ d ∧ d ≤ 57) ∧
    (∀ d, rest.head? = some d → ¬ (48 ≤ d ∧ d ≤ 57)) ∧
    x = if sg = some true then -(BitVec.ofNat 32 (decimal ds)) else BitVec.ofNat 32 (decimal ds)

/-- The request that the child makes for a trapped call with number `nr`. -/
inductive Asks (v : Env) (nr : Int) (r : Regs) : Request → Prop where
  | direct (q : Request) : nr ≠ 257 → wanted nr (abi r) = some q → Asks v nr r q
  | relative (s : List Byte) (q : Request) : nr = 257 → v.str r.rsi = some s → (∀ x, ¬ OwnPath v.pid s x) → r.rsi ≠ 0 →
      s.head? ≠ some 47 → wanted 257 (abi r) = some q → Asks v nr r q
  | absolute (s : List Byte) (q : Request) : nr = 257 → v.str r.rsi = some s → (∀ x, ¬ OwnPath v.pid s x) → r.rsi ≠ 0 →
      s.head? = some 47 → wanted 2 [r.rsi, r.rdx, r.r10, 0] = some q → Asks v nr r q

/-- What the child makes of an answer: the descriptor if a proper one came with it, and otherwise the low half of the
number. -/
def taken (p : Reply) : CInt :=
  match p.fd with
  | some f => if 0 ≤ f.toInt then f else p.response.setWidth 32
  | none => p.response.setWidth 32

/-- The number that the child gives for the call: the answer of the host, or that of `dup`. -/
inductive Gets (v : Env) (nr : Int) (r : Regs) : CInt → Prop where
  | host (q : Request) : Asks v nr r q → Gets v nr r (taken (v.host q))
  | own (s : List Byte) (x : CInt) : nr = 257 → v.str r.rsi = some s → OwnPath v.pid s x → Gets v nr r (v.dup x)
  | null (s : List Byte) : nr = 257 → r.rsi = 0 → v.str 0 = some s → (∀ x, ¬ OwnPath v.pid s x) → Gets v nr r (-22)

theorem scan_own_iff (pid : Nat) (s : List Byte) (x : CInt) : scanProc pid s = some x ↔ OwnPath pid s x := scan_iff pid s x

theorem scan_none_iff (pid : Nat) (s : List Byte) : scanProc pid s = none ↔ ∀ x, ¬ OwnPath pid s x := by
  constructor
  · intro h x hx
    rw [(scan_own_iff pid s x).2 hx] at h
    cases h
  · intro h
    cases hs : scanProc pid s with
    | none => rfl
    | some x => exact absurd ((scan_own_iff pid s x).1 hs) (h x)

theorem helper_taken (v : Env) (q : Request) : helper v q = ⟨taken (v.host q), [q]⟩ := by
  simp only [helper, taken, toInt]
  cases hf : (v.host q).fd with
  | none => rfl
  | some f =>
    by_cases h : 0 ≤ f.toInt
    · have : f.slt 0 = false := by rw [BitVec.slt]; simpa using h
      simp only [this, h, if_true]; rfl
    · have : f.slt 0 = true := by rw [BitVec.slt]; simpa using h
      simp only [this, h, if_true, if_false]

/-- What the entry for a call gives, for each call. -/
theorem entry_gives (v : Env) (r : Regs) (n : Nat) (hn : n < 6) (nr : Int) (h : syscallNumbers[n]? = some nr) :
    (callEntry v n r = .ub ∧ nr = 257 ∧ v.str r.rsi = none) ∨
    (∃ d, callEntry v n r = .ok d ∧ Gets v nr r d.result ∧ (∀ x, Gets v nr r x → x = d.result) ∧
      (nr = 257 → v.str r.rsi ≠ none)) := by
  have hcases : n = 0 ∨ n = 1 ∨ n = 2 ∨ n = 3 ∨ n = 4 ∨ n = 5 := by omega
  have direct : ∀ q, nr ≠ 257 → wanted nr (abi r) = some q → callEntry v n r = .ok (helper v q) →
      (∃ d, callEntry v n r = .ok d ∧ Gets v nr r d.result ∧ (∀ x, Gets v nr r x → x = d.result) ∧
        (nr = 257 → v.str r.rsi ≠ none)) := by
    intro q h1 h2 h3
    refine ⟨_, h3, ?_, ?_, fun h => absurd h h1⟩
    · rw [helper_taken]; exact .host q (.direct q h1 h2)
    · intro x hx
      rw [helper_taken]
      cases hx with
      | host q' ha =>
        cases ha with
        | direct _ _ h5 => rw [h2] at h5; cases h5; rfl
        | relative _ _ h5 => exact absurd h5 h1
        | absolute _ _ h5 => exact absurd h5 h1
      | own _ _ h5 => exact absurd h5 h1
      | null _ h5 => exact absurd h5 h1
  rcases hcases with rfl | rfl | rfl | rfl | rfl | rfl <;> simp [syscallNumbers] at h <;> subst h
  · exact .inr (direct _ (by decide) rfl rfl)
  · exact .inr (direct _ (by decide) rfl rfl)
  · exact .inr (direct _ (by decide) rfl rfl)
  · cases hs : v.str r.rsi with
    | none => exact .inl ⟨by simp only [callEntry, openat, Regs.arg, hs], rfl, rfl⟩
    | some s =>
      right
      cases hp : scanProc v.pid s with
      | some x =>
        have ho := (scan_own_iff _ _ _).1 hp
        refine ⟨⟨v.dup x, []⟩, by simp only [callEntry, openat, Regs.arg, hs, hp], .own s x rfl hs ho, ?_, fun _ h => nomatch h⟩
        intro y hy
        have no : ∀ s', v.str r.rsi = some s' → (∀ z, ¬ OwnPath v.pid s' z) → False := by
          intro s' h1 h2
          rw [hs] at h1; cases h1
          exact h2 x ho
        cases hy with
        | host q' ha =>
          cases ha with
          | direct _ h5 => exact absurd rfl h5
          | relative s' _ _ h5 h6 => exact absurd h6 (fun h => no s' h5 h)
          | absolute s' _ _ h5 h6 => exact absurd h6 (fun h => no s' h5 h)
        | own s' z _ h5 h6 =>
          rw [hs] at h5; cases h5
          have := (scan_own_iff _ _ _).2 h6
          rw [hp] at this; cases this; rfl
        | null s' _ h5 h6 h7 => rw [← h5] at h6; exact absurd h7 (fun h => no s' h6 h)
      | none =>
        have hno := (scan_none_iff _ _).1 hp
        have noown : ∀ s' z, v.str r.rsi = some s' → ¬ OwnPath v.pid s' z := by
          intro s' z h1
          rw [hs] at h1; cases h1
          exact hno z
        by_cases h0 : r.rsi = 0
        · refine ⟨⟨-22, []⟩, ?_, .null s rfl h0 (by rw [← h0]; exact hs) hno, ?_, fun _ h => nomatch h⟩
          · simp only [callEntry, openat, Regs.arg, hs, hp, if_pos h0]
            rfl
          · intro y hy
            cases hy with
            | host q' ha =>
              cases ha with
              | direct _ h5 => exact absurd rfl h5
              | relative _ _ _ _ _ h5 => exact absurd h0 h5
              | absolute _ _ _ _ _ h5 => exact absurd h0 h5
            | own s' z _ h5 h6 => exact absurd h6 (noown s' z h5)
            | null => rfl
        · by_cases hh : s.head? = some 47
          · refine ⟨«open» v r.rsi (toInt r.rdx) (toInt r.r10), ?_, ?_, ?_, fun _ h => nomatch h⟩
            · simp only [callEntry, openat, Regs.arg, hs, hp, if_neg h0, if_pos hh]
            · rw [«open», helper_taken]
              exact .host _ (.absolute s _ rfl hs hno h0 hh rfl)
            · intro y hy
              rw [«open», helper_taken]
              cases hy with
              | host q' ha =>
                cases ha with
                | direct _ h5 => exact absurd rfl h5
                | relative s' _ _ h4 _ _ h5 => rw [hs] at h4; cases h4; exact absurd hh h5
                | absolute _ _ _ _ _ _ _ h5 => cases h5; rfl
              | own s' z _ h5 h6 => exact absurd h6 (noown s' z h5)
              | null s' _ h5 => exact absurd h5 h0
          · refine ⟨helper v ⟨3, [.int (toInt r.rdi), .cstr r.rsi, .int (toInt r.rdx), .int (toInt r.r10)], toInt r.rdi⟩,
              ?_, ?_, ?_, fun _ h => nomatch h⟩
            · simp only [callEntry, openat, Regs.arg, hs, hp, if_neg h0, if_neg hh]
            · rw [helper_taken]
              exact .host _ (.relative s _ rfl hs hno h0 hh rfl)
            · intro y hy
              rw [helper_taken]
              cases hy with
              | host q' ha =>
                cases ha with
                | direct _ h5 => exact absurd rfl h5
                | absolute s' _ _ h4 _ _ h5 => rw [hs] at h4; cases h4; exact absurd h5 hh
                | relative _ _ _ _ _ _ _ h5 => cases h5; rfl
              | own s' z _ h5 h6 => exact absurd h6 (noown s' z h5)
              | null s' _ h5 => exact absurd h5 h0
  · exact .inr (direct _ (by decide) rfl rfl)
  · exact .inr (direct _ (by decide) rfl rfl)

theorem dispatch_at {v : Env} {i : Info} {r : Regs} {n : Nat} (h : syscallNumbers[n]? = some i.syscall) (hn : n < 6) :
    dispatch v i r 6 = dispatch v i r (n + 1) := by
  have hmiss : ∀ m, m < 6 → m ≠ n → syscallNumbers[m]? ≠ some i.syscall := by
    intro m hm hne e
    rw [← h] at e
    have key : ∀ a b : Fin 6, syscallNumbers[(a : Nat)]? = syscallNumbers[(b : Nat)]? → a = b := by decide
    have := key ⟨m, hm⟩ ⟨n, hn⟩ e
    simp at this
    exact hne this
  have up : ∀ k, n + 1 + k ≤ 6 → dispatch v i r (n + 1 + k) = dispatch v i r (n + 1) := by
    intro k
    induction k with
    | zero => exact fun _ => rfl
    | succ k ih =>
      intro hk
      have : n + 1 + (k + 1) = (n + 1 + k) + 1 := by omega
      rw [this, dispatch, if_neg (hmiss _ (by omega) (by omega))]
      exact ih (by omega)
  have := up (5 - n) (by omega)
  rwa [show n + 1 + (5 - n) = 6 by omega] at this

/-- **C42, what comes of every trap.**  Whatever the signal, the registers and the host are: the handler neither aborts
nor throws; its behaviour is undefined exactly if the signal is a trap, and either the path of an `openat` is not a
readable string, or the number given for the call is `INT_MIN`, which it then negates; and the program goes on with that
number otherwise. -/
theorem emulate_ends_iff (v : Env) (i : Info) (r : Regs) :
    emulate v i r ≠ .abort ∧ emulate v i r ≠ .throws ∧
    (emulate v i r = .ub ↔ i.code = 1 ∧
      ((i.syscall = 257 ∧ v.str r.rsi = none) ∨ Gets v i.syscall r (BitVec.intMin 32))) ∧
    (∀ x, i.code = 1 → Gets v i.syscall r x → x ≠ BitVec.intMin 32 →
      ∃ r' asked, emulate v i r = .ok (r', asked) ∧ r'.rip = i.callAddr ∧ r'.rax.toInt = x.toInt) := by
  by_cases hc : i.code = 1
  · by_cases hm : ∃ n, n < 6 ∧ syscallNumbers[n]? = some i.syscall
    · obtain ⟨n, hn, h⟩ := hm
      have he : emulate v i r = dispatch v i r (n + 1) := by rw [emulate, if_pos hc, dispatch_at h hn]
      rcases entry_gives v r n hn i.syscall h with ⟨h1, h2, h3⟩ | ⟨d, h1, h2, h3, h4⟩
      · have hu : emulate v i r = .ub := by rw [he, dispatch, if_pos h, h1]
        rw [hu]
        refine ⟨(nomatch ·), (nomatch ·), ⟨fun _ => ⟨hc, .inl ⟨h2, h3⟩⟩, fun _ => rfl⟩, ?_⟩
        intro x _ hx _
        exfalso
        cases hx with
        | host q ha =>
          cases ha with
          | direct _ h5 => exact h5 h2
          | relative s _ _ h5 => rw [h3] at h5; cases h5
          | absolute s _ _ h5 => rw [h3] at h5; cases h5
        | own s _ _ h5 => rw [h3] at h5; cases h5
        | null s _ h5 h6 => rw [← h5, h3] at h6; cases h6
      · by_cases hd : d.result = BitVec.intMin 32
        · have hu : emulate v i r = .ub := by
            rw [he, dispatch, if_pos h, h1]
            have hs : (BitVec.intMin 32).slt 0 = true := by decide
            simp only [hd, hs, if_true]
          rw [hu]
          refine ⟨(nomatch ·), (nomatch ·), ⟨fun _ => ⟨hc, .inr (hd ▸ h2)⟩, fun _ => rfl⟩, ?_⟩
          intro x _ hx hne
          exact absurd ((h3 x hx).trans hd) hne
        · have hok : emulate v i r = .ok (resumed i r d.result, d.asked) := by
            rw [emulate, if_pos hc]; exact dispatch_hit h h1 hd hn
          rw [hok]
          refine ⟨(nomatch ·), (nomatch ·), ⟨(nomatch ·), ?_⟩, ?_⟩
          · rintro ⟨-, ⟨h5, h6⟩ | h5⟩
            · exact absurd h6 (h4 h5)
            · exact absurd (h3 _ h5).symm hd
          · intro x _ hx _
            refine ⟨_, _, rfl, rfl, ?_⟩
            rw [h3 x hx]
            exact stored d.result hd
    · have hmiss : emulate v i r = .ok (r, []) := by
        rw [emulate, if_pos hc]
        exact dispatch_miss v i r 6 (fun m hm' e => hm ⟨m, hm', e⟩)
      have hnone : ∀ x, ¬ Gets v i.syscall r x := by
        have n1 : i.syscall ≠ 257 := fun e => hm ⟨3, by omega, by rw [e]; rfl⟩
        intro x hx
        cases hx with
        | host q ha =>
          cases ha with
          | direct _ _ h5 =>
            simp only [abi, wanted] at h5
            have n2 : i.syscall ≠ 2 := fun e => hm ⟨0, by omega, by rw [e]; rfl⟩
            have n3 : i.syscall ≠ 4 := fun e => hm ⟨1, by omega, by rw [e]; rfl⟩
            have n4 : i.syscall ≠ 21 := fun e => hm ⟨2, by omega, by rw [e]; rfl⟩
            have n5 : i.syscall ≠ 49 := fun e => hm ⟨4, by omega, by rw [e]; rfl⟩
            have n6 : i.syscall ≠ 42 := fun e => hm ⟨5, by omega, by rw [e]; rfl⟩
            simp only [if_neg n1, if_neg n2, if_neg n3, if_neg n4, if_neg n5, if_neg n6] at h5
            cases h5
          | relative _ _ h5 => exact n1 h5
          | absolute _ _ h5 => exact n1 h5
        | own _ _ h5 => exact n1 h5
        | null _ h5 => exact n1 h5
      rw [hmiss]
      refine ⟨(nomatch ·), (nomatch ·), ⟨(nomatch ·), ?_⟩, fun x _ hx => absurd hx (hnone x)⟩
      rintro ⟨-, ⟨h5, -⟩ | h5⟩
      · exact absurd h5 (fun e => hm ⟨3, by omega, by rw [e]; rfl⟩)
      · exact absurd h5 (hnone _)
  · rw [other_signal v i r hc]
    exact ⟨(nomatch ·), (nomatch ·), ⟨(nomatch ·), fun h => absurd h.1 hc⟩, fun _ h => absurd h hc⟩

/-- A host that answers `INT_MIN` to everything. -/
def exMin : Env := ⟨fun _ => ⟨0x80000000, none⟩, 7, fun _ => some [], fun x => x⟩

/-- The undefined case is met: such a host answers an `access`. -/
example : emulate exMin ⟨1, 21, 0x500⟩ ⟨21, 0x1000, 4, 0, 0, 0, 0, 0⟩ = .ub :=
  (emulate_ends_iff exMin _ _).2.2.1.2 ⟨rfl, .inr (.host ⟨2, [.cstr 0x1000, .int 4], -1⟩ (.direct _ (by decide) rfl))⟩

/-- And so is the other: the host answers 5, and `dup` of the process's own descriptor 5 gives 5. -/
example : Gets ⟨fun _ => ⟨5, none⟩, 7, fun _ => some [], fun x => x⟩ 21 ⟨21, 0x1000, 4, 0, 0, 0, 0, 0⟩ 5 ∧
    (5 : CInt) ≠ BitVec.intMin 32 :=
  ⟨.host ⟨2, [.cstr 0x1000, .int 4], -1⟩ (.direct _ (by decide) rfl), by decide⟩

end Verif.Syscall
