import Verif.FreeBsd.Spec
import Verif.Syscall.Props

/-!
# Emulation of system calls trapped by Capsicum (property C72)
-/

namespace Verif.FreeBsd

open Verif.Syscall (CInt Request Answer Env Done Arrives found helper helper_arrives asInt toInt_asInt proper_ne_min)

/-! ### Arguments -/

theorem isSyscall_true {i : Info} {code : CInt} (h : i.syscall = some code) (hc : code = 0 ∨ code = 198) :
    isSyscall i = true := by
  rcases hc with rfl | rfl <;> simp [isSyscall, h]

theorem isSyscall_false {i : Info} {code : CInt} (h : i.syscall = some code) (hc : ¬(code = 0 ∨ code = 198)) :
    isSyscall i = false := by
  simp only [isSyscall, h, Bool.or_eq_false_iff, beq_eq_false_iff_ne, ne_eq, Option.some.injEq]
  exact ⟨fun e => hc (.inl e), fun e => hc (.inr e)⟩

/-- The handler takes the arguments that the program gave. -/
theorem extract_asks {i : Info} {code : CInt} (h : i.syscall = some code) (r : Regs) (n : Nat) (hn : n ≤ 5) :
    extractArgs i r n = .ok ((asks code r).args.take n) := by
  have hcs : n = 0 ∨ n = 1 ∨ n = 2 ∨ n = 3 ∨ n = 4 ∨ n = 5 := by omega
  by_cases hc : code = 0 ∨ code = 198
  · have hi := isSyscall_true h hc
    rw [asks, if_pos hc]
    rcases hcs with rfl | rfl | rfl | rfl | rfl | rfl <;> simp [extractArgs, getArg, hi, argRegs]
  · have hi := isSyscall_false h hc
    rw [asks, if_neg hc]
    rcases hcs with rfl | rfl | rfl | rfl | rfl | rfl <;> simp [extractArgs, getArg, hi, argRegs]

/-- On older systems the arguments are those of a direct call. -/
theorem extract_old {i : Info} (h : i.syscall = none) (r : Regs) (n : Nat) (hn : n ≤ 5) :
    extractArgs i r n = .ok ((argRegs r).take n) := by
  have hi : isSyscall i = false := by simp [isSyscall, h]
  have : n = 0 ∨ n = 1 ∨ n = 2 ∨ n = 3 ∨ n = 4 ∨ n = 5 := by omega
  rcases this with rfl | rfl | rfl | rfl | rfl | rfl <;> simp [extractArgs, getArg, hi, argRegs]

theorem arity_le (n : Nat) : arity n ≤ 4 := by unfold arity; split <;> omega

/-- The handler looks for the call that the program made. -/
theorem number_asks {i : Info} {code : CInt} (h : i.syscall = some code) (r : Regs) :
    number i r = (asks code r).nr := by
  simp only [number, h]
  by_cases hc : code = 0 ∨ code = 198
  · rw [isSyscall_true h hc, asks, if_pos hc]; rfl
  · rw [isSyscall_false h hc, asks, if_neg hc]; rfl

/-! ### Results -/

/-- The registers after a result has been put back. -/
def resumed (r : Regs) (x : CInt) : Regs := if x.slt 0 then setError r (-x) else setSuccess r x

theorem resumed_only (r : Regs) (x : CInt) : OnlyResult r (resumed r x) := by
  unfold resumed
  split
  · refine ⟨rfl, rfl, rfl, rfl, rfl, rfl, rfl, fun k hk => ?_⟩
    simp [setError, hk]
  · refine ⟨rfl, rfl, rfl, rfl, rfl, rfl, rfl, fun k hk => ?_⟩
    simp only [setSuccess, BitVec.getLsbD_and, BitVec.getLsbD_not]
    by_cases h : k < 64
    · simp [hk, h]
    · have : r.rflags.getLsbD k = false := BitVec.getLsbD_of_ge _ _ (by omega)
      simp [this]

theorem libc_resumed {a : Answer} (hp : a.Proper) (r : Regs) :
    libc (resumed r (BitVec.ofInt 32 (asInt a))) = found a := by
  have hx := toInt_asInt hp
  have hs : (BitVec.ofInt 32 (asInt a)).slt 0 = decide (asInt a < 0) := by
    rw [BitVec.slt_eq_decide, hx]; rfl
  have pos : ∀ n : Nat, n < 2 ^ 31 → asInt a = n → found a = ((n : Int), none) →
      libc (resumed r (BitVec.ofInt 32 (asInt a))) = found a := by
    intro n hn h1 h2
    unfold resumed
    rw [hs, h1, if_neg (by simp), h2]
    have hc : (setSuccess r (BitVec.ofInt 32 (n : Int))).rflags.getLsbD 0 = false := by
      simp [setSuccess]
    rw [libc, hc]
    simp only [Bool.false_eq_true, if_false, setSuccess]
    rw [BitVec.toInt_signExtend_of_le (by omega), ← h1, hx, h1]
  cases a with
  | value n => exact pos n hp rfl rfl
  | descriptor n => exact pos n hp rfl rfl
  | error e =>
    simp only [Answer.Proper] at hp
    unfold resumed
    rw [hs, if_pos (by simp [asInt]; omega)]
    have hc : (setError r (-BitVec.ofInt 32 (asInt (.error e)))).rflags.getLsbD 0 = true := by
      simp [setError]
    rw [libc, hc]
    simp only [if_true, found, Prod.mk.injEq, true_and, Option.some.injEq, setError]
    have hneg : -BitVec.ofInt 32 (asInt (.error e)) = BitVec.ofNat 32 e := by
      simp only [asInt]
      rw [BitVec.ofInt_neg, BitVec.neg_neg, BitVec.ofInt_natCast]
    rw [hneg]
    have hnn : (BitVec.ofNat 32 e).msb = false := by
      rw [BitVec.msb_eq_false_iff_two_mul_lt]
      simp
      omega
    rw [BitVec.signExtend_eq_setWidth_of_msb_false hnn]
    simp
    omega

/-! ### Dispatch -/

theorem dispatch_hit {v : Env} {i : Info} {r : Regs} {n : Nat} {args : List Word} {d : Done}
    (h : syscallNumbers[n]? = some (number i r)) (ha : extractArgs i r (arity n) = .ok args)
    (hc : callEntry v n args = .ok d) (hd : d.result ≠ BitVec.intMin 32) (hn : n < 6) :
    dispatch v i r 6 = .ok (resumed r d.result, d.asked) := by
  have step : dispatch v i r (n + 1) = .ok (resumed r d.result, d.asked) := by
    rw [dispatch, if_pos h, ha]
    simp only [hc, resumed]
    by_cases hs : d.result.slt 0
    · simp only [hs, if_true, if_neg hd]
    · simp only [hs]; rfl
  have hmiss : ∀ m, m < 6 → m ≠ n → syscallNumbers[m]? ≠ some (number i r) := by
    intro m hm hne e
    rw [← h] at e
    have key : ∀ a b : Fin 6, syscallNumbers[(a : Nat)]? = syscallNumbers[(b : Nat)]? → a = b := by decide
    have := key ⟨m, hm⟩ ⟨n, hn⟩ e
    simp at this
    exact hne this
  have up : ∀ k, n + 1 + k ≤ 6 → dispatch v i r (n + 1 + k) = .ok (resumed r d.result, d.asked) := by
    intro k
    induction k with
    | zero => exact fun _ => step
    | succ k ih =>
      intro hk
      have : n + 1 + (k + 1) = (n + 1 + k) + 1 := by omega
      rw [this, dispatch, if_neg (hmiss _ (by omega) (by omega))]
      exact ih (by omega)
  have := up (5 - n) (by omega)
  rwa [show n + 1 + (5 - n) = 6 by omega] at this

theorem dispatch_miss (v : Env) (i : Info) (r : Regs) :
    ∀ n, (∀ m, m < n → syscallNumbers[m]? ≠ some (number i r)) → dispatch v i r n = .ok (r, [])
  | 0, _ => rfl
  | n + 1, h => by
    rw [dispatch, if_neg (h n (by omega))]
    exact dispatch_miss v i r n fun m hm => h m (by omega)

/-- What each entry does with the arguments. -/
theorem entry_wanted {v : Env} {c : Call} {q : Request} {a : Answer} (hl : 5 ≤ c.args.length)
    (hw : wanted c = some q)
    (hrel : c.nr = 499 → ∃ p s, c.args[1]? = some p ∧ p ≠ 0 ∧ v.str p = some s ∧ s.head? ≠ some 47)
    (hp : a.Proper) (ha : Arrives a (v.host q)) :
    ∃ n, n < 6 ∧ syscallNumbers[n]? = some c.nr ∧
      callEntry v n (c.args.take (arity n)) = .ok ⟨BitVec.ofInt 32 (asInt a), [q]⟩ := by
  obtain ⟨nr, args⟩ := c
  rcases args with _ | ⟨a0, _ | ⟨a1, _ | ⟨a2, _ | ⟨a3, rest⟩⟩⟩⟩
  · simp at hl
  · simp at hl
  · simp at hl
  · simp at hl
  have hh := helper_arrives hp ha
  simp only [wanted] at hw
  simp only at hrel
  by_cases h5 : nr = 5
  · subst h5
    simp at hw; subst hw
    exact ⟨0, by omega, rfl, congrArg Outcome.ok hh⟩
  by_cases h188 : nr = 188
  · subst h188
    simp at hw; subst hw
    exact ⟨1, by omega, rfl, congrArg Outcome.ok hh⟩
  by_cases h33 : nr = 33
  · subst h33
    simp at hw; subst hw
    exact ⟨2, by omega, rfl, congrArg Outcome.ok hh⟩
  by_cases h499 : nr = 499
  · obtain ⟨p, s, e1, e2, e3, e4⟩ := hrel h499
    subst h499
    simp at hw e1; subst hw; subst e1
    refine ⟨3, by omega, rfl, ?_⟩
    simp only [arity, List.take, callEntry, openat, if_neg e2, e3, if_neg e4]
    exact congrArg Outcome.ok hh
  by_cases h104 : nr = 104
  · subst h104
    simp at hw; subst hw
    exact ⟨4, by omega, rfl, congrArg Outcome.ok hh⟩
  by_cases h98 : nr = 98
  · subst h98
    simp at hw; subst hw
    exact ⟨5, by omega, rfl, congrArg Outcome.ok hh⟩
  · rw [if_neg h5, if_neg h188, if_neg h33, if_neg h499, if_neg h104, if_neg h98] at hw
    cases hw

theorem asks_length (code : CInt) (r : Regs) : 5 ≤ (asks code r).args.length := by
  unfold asks; split <;> simp

/-! ## C72 -/

/-- **C72, calls that go to the host.**  A call that Capsicum refused, made directly or through `syscall` or
`__syscall`, makes one request to the host, with its kind and its arguments in order; the program finds the host's
answer, error numbers included, and nothing else is changed. -/
theorem trapped_faithful {v : Env} {i : Info} {r : Regs} {code : CInt} {q : Request} {a : Answer}
    (hcode : i.code = trapCap) (hi : i.syscall = some code) (hw : wanted (asks code r) = some q)
    (hrel : (asks code r).nr = 499 →
      ∃ p s, (asks code r).args[1]? = some p ∧ p ≠ 0 ∧ v.str p = some s ∧ s.head? ≠ some 47)
    (hp : a.Proper) (ha : Arrives a (v.host q)) :
    ∃ r', emulate v i r = .ok (r', [q]) ∧ libc r' = found a ∧ OnlyResult r r' := by
  obtain ⟨n, h1, h2, h3⟩ := entry_wanted (asks_length code r) hw hrel hp ha
  refine ⟨resumed r (BitVec.ofInt 32 (asInt a)), ?_, libc_resumed hp r, resumed_only r _⟩
  rw [emulate, if_pos hcode, dispatch_hit (by rw [number_asks hi]; exact h2)
    (extract_asks hi r _ (by have := arity_le n; omega)) h3 (proper_ne_min hp (toInt_asInt hp)) h1]

/-- **C72, systems without `si_syscall`.**  There the same holds for calls made directly; calls made through
`syscall` or `__syscall` are not emulated. -/
theorem trapped_faithful_old {v : Env} {i : Info} {r : Regs} {q : Request} {a : Answer}
    (hcode : i.code = trapCap) (hi : i.syscall = none) (hw : wanted ⟨r.rax.setWidth 32, argRegs r⟩ = some q)
    (hrel : r.rax.setWidth 32 = 499#32 → ∃ s, r.rsi ≠ 0 ∧ v.str r.rsi = some s ∧ s.head? ≠ some 47)
    (hp : a.Proper) (ha : Arrives a (v.host q)) :
    ∃ r', emulate v i r = .ok (r', [q]) ∧ libc r' = found a ∧ OnlyResult r r' := by
  obtain ⟨n, h1, h2, h3⟩ := entry_wanted (c := ⟨r.rax.setWidth 32, argRegs r⟩) (by simp [argRegs]) hw
    (fun h => by obtain ⟨s, e1, e2, e3⟩ := hrel h; exact ⟨r.rsi, s, rfl, e1, e2, e3⟩) hp ha
  refine ⟨resumed r (BitVec.ofInt 32 (asInt a)), ?_, libc_resumed hp r, resumed_only r _⟩
  rw [emulate, if_pos hcode, dispatch_hit (by simp only [number, hi]; exact h2)
    (extract_old hi r _ (by have := arity_le n; omega)) h3 (proper_ne_min hp (toInt_asInt hp)) h1]

/-- **C72, `openat` of an absolute path** is served as `open` of that path. -/
theorem openat_absolute {v : Env} {i : Info} {r : Regs} {code : CInt} {d p f m : Word} {l : List Word} {s : List Byte}
    {a : Answer} (hcode : i.code = trapCap) (hi : i.syscall = some code)
    (hc : asks code r = ⟨499, d :: p :: f :: m :: l⟩) (hz : p ≠ 0) (hs : v.str p = some s) (habs : s.head? = some 47)
    (hp : a.Proper) (ha : Arrives a (v.host ⟨0, [.cstr p, .int (f.setWidth 32), .int ((m.setWidth 16).setWidth 32)], -1⟩)) :
    ∃ r', emulate v i r = .ok (r', [⟨0, [.cstr p, .int (f.setWidth 32), .int ((m.setWidth 16).setWidth 32)], -1⟩]) ∧
      libc r' = found a ∧ OnlyResult r r' := by
  refine ⟨resumed r (BitVec.ofInt 32 (asInt a)), ?_, libc_resumed hp r, resumed_only r _⟩
  have h3 : callEntry v 3 ((asks code r).args.take (arity 3)) = .ok ⟨BitVec.ofInt 32 (asInt a),
      [⟨0, [.cstr p, .int (f.setWidth 32), .int ((m.setWidth 16).setWidth 32)], -1⟩]⟩ := by
    simp only [hc, arity, List.take, callEntry, openat, if_neg hz, hs, habs, if_true]
    exact congrArg Outcome.ok (helper_arrives hp ha)
  rw [emulate, if_pos hcode, dispatch_hit (n := 3) (by rw [number_asks hi, hc]; rfl)
    (extract_asks hi r _ (by decide)) h3 (proper_ne_min hp (toInt_asInt hp)) (by omega)]

/-- **C72, a null path.**  The host is not asked; the program finds `EINVAL`. -/
theorem openat_null {v : Env} {i : Info} {r : Regs} {code : CInt} {d f m : Word} {l : List Word}
    (hcode : i.code = trapCap) (hi : i.syscall = some code) (hc : asks code r = ⟨499, d :: 0 :: f :: m :: l⟩) :
    ∃ r', emulate v i r = .ok (r', []) ∧ libc r' = (-1, some 22) ∧ OnlyResult r r' := by
  have hp : (Answer.error 22).Proper := by simp [Answer.Proper]
  refine ⟨resumed r (BitVec.ofInt 32 (asInt (.error 22))), ?_, libc_resumed hp r, resumed_only r _⟩
  have h3 : callEntry v 3 ((asks code r).args.take (arity 3)) = .ok ⟨BitVec.ofInt 32 (asInt (.error 22)), []⟩ := by
    simp only [hc, arity, List.take, callEntry, openat, if_true]
    rfl
  rw [emulate, if_pos hcode, dispatch_hit (n := 3) (by rw [number_asks hi, hc]; rfl)
    (extract_asks hi r _ (by decide)) h3 (proper_ne_min hp (toInt_asInt hp)) (by omega)]

/-- **C72, a path that cannot be read.**  The handler reads the first byte of the path itself, so that the program crashes
where the system would have answered `EFAULT`. -/
theorem openat_unreadable {v : Env} {i : Info} {r : Regs} {code : CInt} {d p f m : Word} {l : List Word}
    (hcode : i.code = trapCap) (hi : i.syscall = some code) (hc : asks code r = ⟨499, d :: p :: f :: m :: l⟩)
    (hz : p ≠ 0) (hs : v.str p = none) : emulate v i r = .ub := by
  have h3 : callEntry v 3 ((asks code r).args.take (arity 3)) = .ub := by
    simp only [hc, arity, List.take, callEntry, openat, if_neg hz, hs]
  have hn : number i r = 499 := by rw [number_asks hi, hc]
  have e4 : ¬ syscallNumbers[5]? = some (number i r) := by rw [hn]; decide
  have e5 : ¬ syscallNumbers[4]? = some (number i r) := by rw [hn]; decide
  have e6 : syscallNumbers[3]? = some (number i r) := by rw [hn]; rfl
  rw [emulate, if_pos hcode, dispatch, if_neg e4, dispatch, if_neg e5, dispatch, if_pos e6,
    extract_asks hi r _ (by decide)]
  simp only [h3]

/-- `openat(3, 0x1000, 0, 0)` where nothing is mapped at `0x1000`. -/
example : emulate ⟨fun _ => ⟨0, some 9⟩, 7, fun _ => none, fun x => x⟩ ⟨5, some 499⟩
    ⟨94, 3, 0x1000, 0, 0, 0, 0, 0x500, 0x203⟩ = .ub :=
  openat_unreadable (d := 3) (p := 0x1000) (f := 0) (m := 0) (l := [0, 0]) rfl rfl rfl (by decide) rfl

/-- **C72, an answer without a negation.**  If the host answered `INT_MIN`, the handler would negate it, which is undefined.  No
error number is that large, so no host built from this library does. -/
theorem min_answer_undefined {v : Env} {i : Info} {r : Regs} {n : Nat} {args : List Word} {d : Done} (hcode : i.code = trapCap)
    (h : syscallNumbers[n]? = some (number i r)) (ha : extractArgs i r (arity n) = .ok args)
    (hc : callEntry v n args = .ok d) (hd : d.result = BitVec.intMin 32) (hn : n < 6) : emulate v i r = .ub := by
  have step : dispatch v i r (n + 1) = .ub := by
    rw [dispatch, if_pos h, ha]
    simp only [hc, hd]
    rfl
  have hmiss : ∀ m, m < 6 → m ≠ n → syscallNumbers[m]? ≠ some (number i r) := by
    intro m hm hne e
    rw [← h] at e
    have key : ∀ a b : Fin 6, syscallNumbers[(a : Nat)]? = syscallNumbers[(b : Nat)]? → a = b := by decide
    have := key ⟨m, hm⟩ ⟨n, hn⟩ e
    simp at this
    exact hne this
  have up : ∀ k, n + 1 + k ≤ 6 → dispatch v i r (n + 1 + k) = .ub := by
    intro k
    induction k with
    | zero => exact fun _ => step
    | succ k ih =>
      intro hk
      have : n + 1 + (k + 1) = (n + 1 + k) + 1 := by omega
      rw [this, dispatch, if_neg (hmiss _ (by omega) (by omega))]
      exact ih (by omega)
  have := up (5 - n) (by omega)
  rw [show n + 1 + (5 - n) = 6 by omega] at this
  rw [emulate, if_pos hcode, this]

/-- `access` answered with `-2³¹`. -/
example : emulate ⟨fun _ => ⟨BitVec.ofInt 64 (-2 ^ 31), none⟩, 7, fun _ => none, fun x => x⟩ ⟨5, some 33⟩
    ⟨94, 0x1000, 4, 0, 0, 0, 0, 0x500, 0x203⟩ = .ub :=
  min_answer_undefined (n := 2) (args := [0x1000, 4]) (d := ⟨BitVec.intMin 32, [⟨2, [.cstr 0x1000, .int 4], -1⟩]⟩)
    rfl rfl rfl rfl rfl (by omega)

/-- **C72, everything else.**  A signal for another reason, and a refused call that is not emulated, change nothing:
the program finds the error that the kernel has given. -/
theorem not_emulated_unchanged {v : Env} {i : Info} {r : Regs} {code : CInt}
    (h : i.code ≠ trapCap ∨ (Entered i r code ∧
      (asks code r).nr ∉ [5, 188, 33, 499, 104, 98] ∧ code ∉ [5, 188, 33, 499, 104, 98])) :
    emulate v i r = .ok (r, []) := by
  unfold emulate
  split
  · rename_i hc
    rcases h with h | ⟨h1, h2, h3⟩
    · exact absurd hc h
    · apply dispatch_miss
      intro m hm he
      have hmem : number i r ∈ syscallNumbers := List.mem_of_getElem? he
      rcases h1 with h1 | ⟨h1, h4⟩
      · rw [number_asks h1] at hmem; exact h2 hmem
      · simp only [number, h1] at hmem
        rw [show Syscall.toInt r.rax = code from h4] at hmem
        exact h3 hmem
  · rfl

/-- **C72, no exception.**  Whatever the registers are, the arguments are there: the `at` in `get_arg` never throws,
although it would for the sixth argument of a call made through `syscall`. -/
theorem never_throws (i : Info) (r : Regs) (n : Nat) :
    (∃ args, extractArgs i r (arity n) = .ok args ∧ args.length = arity n) ∧
      (isSyscall i = true → getArg i r 5 = .throws) := by
  constructor
  · have ha := arity_le n
    cases hs : i.syscall with
    | none =>
      refine ⟨_, extract_old hs r _ (by omega), ?_⟩
      simp [argRegs]; omega
    | some code =>
      refine ⟨_, extract_asks hs r _ (by omega), ?_⟩
      have := asks_length code r
      simp; omega
  · intro h
    simp [getArg, h, argRegs]

/-! ### Examples -/

/-- `syscall(SYS_access, "/etc", 4)` answered with `ENOENT`. -/
example :
    let v : Env := ⟨fun _ => ⟨BitVec.ofInt 64 (-2), none⟩, 7, fun _ => some [47], fun x => x⟩
    let r : Regs := ⟨94, 33, 0x1000, 4, 0, 0, 0, 0x500, 0x203⟩
    ∃ r', emulate v ⟨5, some 0⟩ r = .ok (r', [⟨2, [.cstr 0x1000, .int 4], -1⟩]) ∧ libc r' = (-1, some 2) ∧
      OnlyResult r r' :=
  trapped_faithful (a := .error 2) rfl rfl rfl (fun h => absurd h (by decide)) (by simp [Answer.Proper]) (by simp [Arrives])

/-- `open("/etc", 0, 0)` on an older system, answered with a descriptor. -/
example :
    let v : Env := ⟨fun _ => ⟨0, some 9⟩, 7, fun _ => some [47], fun x => x⟩
    let r : Regs := ⟨5, 0x1000, 0, 0, 0, 0, 0, 0x500, 0x203⟩
    ∃ r', emulate v ⟨5, none⟩ r = .ok (r', [⟨0, [.cstr 0x1000, .int 0, .int 0], -1⟩]) ∧ libc r' = (9, none) ∧
      OnlyResult r r' :=
  trapped_faithful_old (a := .descriptor 9) rfl rfl rfl (fun h => absurd h (by decide)) (by simp [Answer.Proper]) (by simp [Arrives])

/-- `openat(3, "/etc", 0, 0)` and `openat(3, NULL, 0, 0)`. -/
example :
    let v : Env := ⟨fun _ => ⟨0, some 9⟩, 7, fun _ => some [47], fun x => x⟩
    (∃ r', emulate v ⟨5, some 499⟩ ⟨94, 3, 0x1000, 0, 0, 0, 0, 0x500, 0x203⟩ =
        .ok (r', [⟨0, [.cstr 0x1000, .int 0, .int 0], -1⟩]) ∧ libc r' = (9, none) ∧
        OnlyResult ⟨94, 3, 0x1000, 0, 0, 0, 0, 0x500, 0x203⟩ r') ∧
      ∃ r', emulate v ⟨5, some 499⟩ ⟨94, 3, 0, 0, 0, 0, 0, 0x500, 0x203⟩ = .ok (r', []) ∧ libc r' = (-1, some 22) ∧
        OnlyResult ⟨94, 3, 0, 0, 0, 0, 0, 0x500, 0x203⟩ r' :=
  ⟨openat_absolute (a := .descriptor 9) (d := 3) (p := 0x1000) (f := 0) (m := 0) (l := [0, 0]) (s := [47]) rfl rfl rfl
      (by decide) rfl rfl (by simp [Answer.Proper]) (by simp [Arrives]),
    openat_null (d := 3) (f := 0) (m := 0) (l := [0, 0]) rfl rfl rfl⟩

/-- `kldload` (304) is not emulated: the error `ECAPMODE` (94) and the carry flag stay. -/
example (v : Env) :
    emulate v ⟨5, some 304⟩ ⟨94, 0x1000, 0, 0, 0, 0, 0, 0x500, 0x203⟩ =
      .ok (⟨94, 0x1000, 0, 0, 0, 0, 0, 0x500, 0x203⟩, []) :=
  not_emulated_unchanged (code := 304) (.inr ⟨.inl rfl, by decide, by decide⟩)

end Verif.FreeBsd
