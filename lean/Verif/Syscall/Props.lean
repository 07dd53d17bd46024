import Verif.Syscall.Spec
import Verif.Seccomp.Model
import Verif.Seccomp.Spec

/-!
# Emulation of trapped system calls: theorems
-/

namespace Verif.Syscall

/-! ### Numbers -/

/-- The `int` that an emulation returns for an answer. -/
def asInt : Answer → Int
  | .value v => v
  | .descriptor f => f
  | .error e => -(e : Int)

theorem helper_arrives {v : Env} {q : Request} {a : Answer} (hp : a.Proper) (h : Arrives a (v.host q)) :
    helper v q = ⟨BitVec.ofInt 32 (asInt a), [q]⟩ := by
  unfold helper
  cases a with
  | value n =>
    obtain ⟨h1, h2⟩ := h
    simp only [h1, h2, toInt, asInt]
    congr 1
    apply BitVec.eq_of_toNat_eq
    simp
  | descriptor f =>
    simp only [Arrives] at h
    simp only [Answer.Proper] at hp
    have hs : (BitVec.ofNat 32 f).slt 0 = false := by
      have : (BitVec.ofNat 32 f).toInt = f := by
        rw [BitVec.toInt_ofNat', Int.bmod_eq_of_le (by omega) (by omega)]
      rw [BitVec.slt_eq_decide, this]
      simp
    simp only [h, hs, asInt]
    simp
  | error e =>
    obtain ⟨h1, h2⟩ := h
    simp only [h1, h2, toInt, asInt]
    congr 1
    apply BitVec.eq_of_toInt_eq
    simp only [Answer.Proper] at hp
    have hr : (-(e : Int) % ((2 ^ 64 : Nat) : Int)).toNat = 2 ^ 64 - e := by omega
    rw [BitVec.toInt_setWidth, BitVec.toNat_ofInt, BitVec.toInt_ofInt, hr,
      Int.bmod_def, Int.bmod_def]
    omega

theorem toInt_asInt {a : Answer} (hp : a.Proper) : (BitVec.ofInt 32 (asInt a)).toInt = asInt a := by
  rw [BitVec.toInt_ofInt, Int.bmod_eq_of_le]
  · cases a <;> simp only [Answer.Proper, asInt] at hp ⊢ <;> omega
  · cases a <;> simp only [Answer.Proper, asInt] at hp ⊢ <;> omega

/-- Storing a result and reading it back. -/
theorem stored (x : CInt) (hx : x ≠ BitVec.intMin 32) :
    (if x.slt 0 then 0 - (-x).signExtend 64 else x.signExtend 64).toInt = x.toInt := by
  by_cases h : x.slt 0
  · rw [if_pos h]
    have hn : (-x).toInt = -x.toInt := by
      rw [BitVec.toInt_neg_of_ne_intMin hx]
    rw [BitVec.toInt_sub, BitVec.toInt_signExtend_of_le (by omega), hn]
    have := BitVec.toInt_lt (x := x)
    have := BitVec.le_toInt (x := x)
    simp
    rw [Int.bmod_eq_of_le (by omega) (by omega)]
  · rw [if_neg h, BitVec.toInt_signExtend_of_le (by omega)]

theorem libc_asInt {a : Answer} (hp : a.Proper) {w : Word} (h : w.toInt = asInt a) : libc w = found a := by
  cases a <;> simp only [Answer.Proper, asInt, found] at hp h ⊢ <;> rw [libc, h]
  · rw [if_neg (by omega)]
  · rw [if_neg (by omega)]
  · rw [if_pos (by omega)]
    congr 2
    omega

theorem told_asInt {a : Answer} (hp : a.Proper) {x : CInt} (h : x.toInt = asInt a) :
    told (syscallReturn x) = found a := by
  have hs : x.slt 0 = decide (x.toInt < 0) := by rw [BitVec.slt_eq_decide]; rfl
  cases a <;> simp only [Answer.Proper, asInt, found, told] at hp h ⊢ <;> rw [syscallReturn, hs, h]
  · rw [if_neg (by simp)]
    simp [h]
  · rw [if_neg (by simp)]
    simp [h]
  · rename_i e
    rw [if_pos (by simp; omega)]
    have : x = BitVec.ofInt 32 (-(e : Int)) := by
      apply BitVec.eq_of_toInt_eq
      rw [h, BitVec.toInt_ofInt, Int.bmod_eq_of_le (by omega) (by omega)]
    subst this
    simp
    omega

theorem proper_ne_min {a : Answer} (hp : a.Proper) {x : CInt} (h : x.toInt = asInt a) :
    x ≠ BitVec.intMin 32 := by
  rintro rfl
  have : (BitVec.intMin 32).toInt = -2147483648 := by decide
  rw [this] at h
  cases a <;> simp only [Answer.Proper, asInt] at hp h <;> omega

/-! ### Dispatch -/

/-- The registers after a result has been put back. -/
def resumed (i : Info) (r : Regs) (x : CInt) : Regs :=
  { r with
    rax := if x.slt 0 then 0 - (-x).signExtend 64 else x.signExtend 64
    rip := i.callAddr }

theorem dispatch_hit {v : Env} {i : Info} {r : Regs} {n : Nat} {d : Done}
    (h : syscallNumbers[n]? = some i.syscall) (hc : callEntry v n r = .ok d)
    (hd : d.result ≠ BitVec.intMin 32) (hn : n < 6) :
    dispatch v i r 6 = .ok (resumed i r d.result, d.asked) := by
  have step : dispatch v i r (n + 1) = .ok (resumed i r d.result, d.asked) := by
    rw [dispatch, if_pos h, hc]
    simp only [resumed]
    by_cases hs : d.result.slt 0
    · simp only [hs, if_true, if_neg hd]; rfl
    · simp only [hs]; rfl
  have hmiss : ∀ m, m < 6 → m ≠ n → syscallNumbers[m]? ≠ some i.syscall := by
    intro m hm hne e
    rw [← h] at e
    have hlen : syscallNumbers.length = 6 := rfl
    have key : ∀ a b : Fin 6, syscallNumbers[(a : Nat)]? = syscallNumbers[(b : Nat)]? → a = b := by decide
    have := key ⟨m, hm⟩ ⟨n, hn⟩ e
    simp at this
    exact hne this
  have up : ∀ k, n + 1 + k ≤ 6 → dispatch v i r (n + 1 + k) = .ok (resumed i r d.result, d.asked) := by
    intro k
    induction k with
    | zero => exact fun _ => step
    | succ k ih =>
      intro hk
      have : n + 1 + (k + 1) = (n + 1 + k) + 1 := by omega
      rw [this, dispatch, if_neg (hmiss _ (by omega) (by omega))]
      exact ih (by omega)
  have := up (5 - n) (by omega)
  rwa [show n + 1 + (5 - n) = 6 by omega] at this

/-! ### Paths of the process's own descriptors -/

theorem procDir_eq (pid : Nat) : procDir pid = fdDir pid := by
  simp [procDir, fdDir, bytes, toString]

theorem scan_outside {pid : Nat} {s : List Byte} (h : ¬ fdDir pid <+: s) : scanProc pid s = none := by
  rw [scanProc, if_neg]
  rw [procDir_eq, List.isPrefixOf_iff_prefix]
  exact h

theorem fdDir_head (pid : Nat) : (fdDir pid).head? = some 47 := by
  rw [← procDir_eq, procDir, show bytes "/proc/" = [47, 112, 114, 111, 99, 47] by decide +kernel]
  rfl

theorem scan_relative {pid : Nat} {s : List Byte} (h : s.head? ≠ some 47) : scanProc pid s = none := by
  apply scan_outside
  rintro ⟨t, rfl⟩
  apply h
  have := fdDir_head pid
  cases hd : fdDir pid with
  | nil => rw [hd] at this; simp at this
  | cons a l => rw [hd] at this; simpa using this

theorem digitsVal_eq (ds : List Byte) : digitsVal ds = decimal ds := by
  have key : ∀ (ds : List Byte) (n : Nat),
      ds.foldl (fun n d => n * 10 + (d.toNat - 48)) n = n * 10 ^ ds.length + decimal ds := by
    intro ds
    induction ds with
    | nil => simp [decimal]
    | cons d ds ih =>
      intro n
      rw [List.foldl_cons, ih, decimal, List.length_cons, Nat.pow_succ]
      grind
  rw [digitsVal, key]
  simp

theorem scan_own {pid n : Nat} {s : List Byte} (h : NamesOwn pid n s) :
    scanProc pid s = some (BitVec.ofNat 32 n) := by
  obtain ⟨ds, rest, rfl, hne, hd, hr, rfl⟩ := h
  rw [scanProc, procDir_eq, if_pos (by simp [List.isPrefixOf_iff_prefix, List.append_assoc]),
    List.append_assoc, List.drop_left]
  have hdig : ∀ d ∈ ds, isDigit d = true := by
    intro d hm
    have := hd d hm
    simpa [isDigit] using this
  have htake : (ds ++ rest).takeWhile isDigit = ds := by
    rw [List.takeWhile_append_of_pos hdig]
    cases rest with
    | nil => simp
    | cons a l =>
      have := hr a rfl
      have : isDigit a = false := by simpa [isDigit] using this
      simp [this]
  cases hds : ds with
  | nil => exact absurd hds hne
  | cons d l =>
    have h1 := hd d (by rw [hds]; exact List.mem_cons_self)
    have hsp : isSpace d = false := by
      simp only [isSpace]
      grind
    rw [hds] at htake
    have h45 : d ≠ 45 := by grind
    have h43 : d ≠ 43 := by grind
    rw [scanInt]
    simp only [List.cons_append, List.dropWhile_cons, hsp]
    rw [List.cons_append] at htake
    simp only [Bool.false_eq_true, if_false]
    split
    · rename_i heq
      exact absurd (List.cons.inj heq).1 h45
    · rename_i heq
      exact absurd (List.cons.inj heq).1 h43
    · simp only [htake, digitsVal_eq]
      simp

/-- The sign that may come before the digits. -/
def signBytes : Option Bool → List Byte
  | none => []
  | some false => [43]
  | some true => [45]

/-- **C42, the paths that are taken for descriptors of the process.**  A path is taken for one exactly if it begins with
the directory of the process's descriptors, followed by any white space, at most one sign, and at least one digit;
whatever comes after the digits is ignored. -/
theorem scan_iff (pid : Nat) (s : List Byte) (x : CInt) : scanProc pid s = some x ↔
    ∃ ws sg ds rest, s = fdDir pid ++ (ws ++ (signBytes sg ++ (ds ++ rest))) ∧
      (∀ b ∈ ws, b ∈ [32, 9, 10, 11, 12, 13]) ∧ ds ≠ [] ∧ (∀ d ∈ ds, 48 ≤ d ∧ d ≤ 57) ∧
      (∀ d, rest.head? = some d → ¬ (48 ≤ d ∧ d ≤ 57)) ∧
      x = if sg = some true then -(BitVec.ofNat 32 (decimal ds)) else BitVec.ofNat 32 (decimal ds) := by
  have hspace : ∀ b : Byte, isSpace b = true ↔ b ∈ ([32, 9, 10, 11, 12, 13] : List Byte) := by
    intro b
    have : ∀ n, n < 256 → (isSpace (UInt8.ofNat n) = true ↔ UInt8.ofNat n ∈ ([32, 9, 10, 11, 12, 13] : List Byte)) := by
      decide +kernel
    have h := this b.toNat b.toNat_lt
    rwa [UInt8.ofNat_toNat] at h
  have hdigit : ∀ b : Byte, isDigit b = true ↔ 48 ≤ b ∧ b ≤ 57 := by
    intro b; simp [isDigit]
  constructor
  · intro h
    by_cases hp : fdDir pid <+: s
    · obtain ⟨t, rfl⟩ := hp
      rw [scanProc, procDir_eq, if_pos (by simp [List.isPrefixOf_iff_prefix]), List.drop_left] at h
      rw [scanInt] at h
      have hsplit : t = t.takeWhile isSpace ++ t.dropWhile isSpace := (List.takeWhile_append_dropWhile).symm
      have hws : ∀ b ∈ t.takeWhile isSpace, b ∈ ([32, 9, 10, 11, 12, 13] : List Byte) := fun b hb =>
        (hspace b).1 (List.all_eq_true.1 (List.all_takeWhile) b hb)
      have tail : ∀ sg u, t.dropWhile isSpace = signBytes sg ++ u →
          (if u.takeWhile isDigit = [] then none
            else some (if decide (sg = some true) then -BitVec.ofNat 32 (digitsVal (u.takeWhile isDigit))
              else BitVec.ofNat 32 (digitsVal (u.takeWhile isDigit)))) = some x →
          ∃ ws sg ds rest, fdDir pid ++ t = fdDir pid ++ (ws ++ (signBytes sg ++ (ds ++ rest))) ∧
            (∀ b ∈ ws, b ∈ ([32, 9, 10, 11, 12, 13] : List Byte)) ∧ ds ≠ [] ∧ (∀ d ∈ ds, 48 ≤ d ∧ d ≤ 57) ∧
            (∀ d, rest.head? = some d → ¬ (48 ≤ d ∧ d ≤ 57)) ∧
            x = if sg = some true then -(BitVec.ofNat 32 (decimal ds)) else BitVec.ofNat 32 (decimal ds) := by
        intro sg u hu hx
        split at hx
        · cases hx
        · rename_i hne
          refine ⟨t.takeWhile isSpace, sg, u.takeWhile isDigit, u.dropWhile isDigit, ?_, hws, hne, ?_, ?_, ?_⟩
          · rw [List.takeWhile_append_dropWhile, ← hu, ← hsplit]
          · exact fun d hd => (hdigit d).1 (List.all_eq_true.1 (List.all_takeWhile) d hd)
          · intro d hd hd'
            have := List.head?_dropWhile_not isDigit u
            rw [hd] at this
            simp only at this
            rw [(hdigit d).2 hd'] at this
            cases this
          · cases hx
            simp only [digitsVal_eq, decide_eq_true_eq]
      simp only at h
      split at h
      · rename_i u hu
        exact tail (some true) u hu h
      · rename_i u hu
        exact tail (some false) u hu h
      · rename_i u _ _
        exact tail none _ rfl h
    · rw [scan_outside hp] at h; cases h
  · rintro ⟨ws, sg, ds, rest, rfl, hws, hne, hd, hr, rfl⟩
    rw [scanProc, procDir_eq, if_pos (by simp [List.isPrefixOf_iff_prefix]), List.drop_left]
    have hdig : ∀ d ∈ ds, isDigit d = true := fun d hm => (hdigit d).2 (hd d hm)
    have htake : (ds ++ rest).takeWhile isDigit = ds := by
      rw [List.takeWhile_append_of_pos hdig]
      cases rest with
      | nil => simp
      | cons a l =>
        have : isDigit a = false := by
          cases h : isDigit a with
          | false => rfl
          | true => exact absurd ((hdigit a).1 h) (hr a rfl)
        simp [this]
    obtain ⟨d, l, rfl⟩ : ∃ d l, ds = d :: l := by
      cases ds with
      | nil => exact absurd rfl hne
      | cons d l => exact ⟨d, l, rfl⟩
    have h1 := hd d List.mem_cons_self
    have hsp : isSpace d = false := by
      simp only [isSpace]
      grind
    have h45 : d ≠ 45 := by grind
    have h43 : d ≠ 43 := by grind
    rw [List.cons_append] at htake
    have hdrop : ∀ u : List Byte, (∀ b, u.head? = some b → isSpace b = false) → (ws ++ u).dropWhile isSpace = u := by
      intro u hu
      rw [List.dropWhile_append_of_pos (fun b hb => (hspace b).2 (hws b hb))]
      cases u with
      | nil => rfl
      | cons b u => simp [hu b rfl]
    cases sg with
    | none =>
      have hdw := hdrop (d :: (l ++ rest)) (by intro b hb; cases hb; exact hsp)
      simp only [signBytes, List.nil_append, List.cons_append, scanInt, hdw]
      split
      · rename_i heq
        exact absurd (List.cons.inj heq).1 h45
      · rename_i heq
        exact absurd (List.cons.inj heq).1 h43
      · simp only [htake, digitsVal_eq]
        simp
    | some b =>
      cases b with
      | false =>
        have hdw := hdrop (43 :: d :: (l ++ rest)) (by intro b hb; cases hb; rfl)
        simp only [signBytes, List.nil_append, List.cons_append, scanInt, hdw, htake, digitsVal_eq]
        simp
      | true =>
        have hdw := hdrop (45 :: d :: (l ++ rest)) (by intro b hb; cases hb; rfl)
        simp only [signBytes, List.nil_append, List.cons_append, scanInt, hdw, htake, digitsVal_eq]
        simp

/-- Spaces, a sign, and more after the digits. -/
example : scanProc 7 (bytes "/proc/7/fd/ \t-5x") = some (-5) := by decide +kernel

/-! ## C42 -/

/-- **C42, arguments.**  `get_arg` finds every one of the six arguments where the ABI puts it, also those that no call of
the table has. -/
theorem arg_abi (r : Regs) (k : Nat) (h : k < 6) : (abi r)[k]? = some (r.arg k) := by
  rcases k with _ | _ | _ | _ | _ | _ | k <;> first | rfl | omega

example : (abi ⟨0, 1, 2, 3, 4, 5, 6, 0⟩)[4]? = some 5 := by decide

/-- **C42, calls that go to the host.**  A trapped `open`, `stat`, `access`, `bind` or `connect`, and a trapped
`openat` of a relative path, makes one request to the host, with its kind and the call's arguments in order; the
program goes on after the call and finds the host's answer, error numbers included; and no other register
changes. -/
theorem emulate_faithful {v : Env} {i : Info} {r : Regs} {q : Request} {a : Answer}
    (hcode : i.code = 1) (hw : wanted i.syscall (abi r) = some q)
    (hrel : i.syscall = 257 → ∃ s, v.str r.rsi = some s ∧ r.rsi ≠ 0 ∧ s.head? ≠ some 47)
    (hp : a.Proper) (ha : Arrives a (v.host q)) :
    ∃ r', emulate v i r = .ok (r', [q]) ∧ libc r'.rax = found a ∧ r'.rip = i.callAddr ∧
      abi r' = abi r := by
  have hx := toInt_asInt hp
  have hmin := proper_ne_min hp hx
  have fin : ∀ n, n < 6 → syscallNumbers[n]? = some i.syscall →
      callEntry v n r = .ok ⟨BitVec.ofInt 32 (asInt a), [q]⟩ →
      ∃ r', emulate v i r = .ok (r', [q]) ∧ libc r'.rax = found a ∧ r'.rip = i.callAddr ∧
        abi r' = abi r := by
    intro n hn h1 h2
    refine ⟨resumed i r (BitVec.ofInt 32 (asInt a)), ?_, ?_, rfl, rfl⟩
    · rw [emulate, if_pos hcode, dispatch_hit h1 h2 hmin hn]
    · apply libc_asInt hp
      rw [resumed]
      simp only
      rw [stored _ hmin, hx]
  have hh := helper_arrives hp ha
  simp only [abi, wanted] at hw
  by_cases h2 : i.syscall = 2
  · simp only [h2, if_true, Option.some.injEq] at hw
    subst hw
    exact fin 0 (by omega) (by rw [h2]; rfl) (congrArg Outcome.ok hh)
  by_cases h4 : i.syscall = 4
  · simp only [h4] at hw
    simp at hw
    subst hw
    exact fin 1 (by omega) (by rw [h4]; rfl) (congrArg Outcome.ok hh)
  by_cases h21 : i.syscall = 21
  · simp only [h21] at hw
    simp at hw
    subst hw
    exact fin 2 (by omega) (by rw [h21]; rfl) (congrArg Outcome.ok hh)
  by_cases h257 : i.syscall = 257
  · obtain ⟨s, hs, hnz, habs⟩ := hrel h257
    have hscan := scan_relative (pid := v.pid) habs
    simp only [h257] at hw
    simp at hw
    subst hw
    refine fin 3 (by omega) (by rw [h257]; rfl) ?_
    simp only [callEntry, openat, Regs.arg, hs, hscan, if_neg hnz, if_neg habs]
    exact congrArg Outcome.ok hh
  by_cases h49 : i.syscall = 49
  · simp only [h49] at hw
    simp at hw
    subst hw
    exact fin 4 (by omega) (by rw [h49]; rfl) (congrArg Outcome.ok hh)
  by_cases h42 : i.syscall = 42
  · simp only [h42] at hw
    simp at hw
    subst hw
    exact fin 5 (by omega) (by rw [h42]; rfl) (congrArg Outcome.ok hh)
  · simp [h2, h4, h21, h257, h49, h42] at hw

/-- A call that meets the conditions: `access("/etc", 4)` answered with `ENOENT`. -/
example :
    let v : Env := ⟨fun _ => ⟨BitVec.ofInt 64 (-2), none⟩, 7, fun _ => some [47], fun x => x⟩
    let r : Regs := ⟨21, 0x1000, 4, 0, 0, 0, 0, 0x500⟩
    wanted 21 (abi r) = some ⟨2, [.cstr 0x1000, .int 4], -1⟩ ∧ (Answer.error 2).Proper ∧
      Arrives (.error 2) (v.host ⟨2, [.cstr 0x1000, .int 4], -1⟩) :=
  ⟨rfl, by simp [Answer.Proper], by simp [Arrives]⟩

/-- **C42, `openat` of an absolute path** outside the process's own descriptors is served as `open` of that path:
the directory plays no part. -/
theorem openat_absolute {v : Env} {i : Info} {r : Regs} {a : Answer} {s : List Byte}
    (hcode : i.code = 1) (hn : i.syscall = 257) (hs : v.str r.rsi = some s) (hz : r.rsi ≠ 0)
    (hout : ¬ fdDir v.pid <+: s) (habs : s.head? = some 47) (hp : a.Proper)
    (ha : Arrives a (v.host ⟨0, [.cstr r.rsi, .int (r.rdx.setWidth 32), .int (r.r10.setWidth 32)], -1⟩)) :
    ∃ r', emulate v i r = .ok (r', [⟨0, [.cstr r.rsi, .int (r.rdx.setWidth 32),
        .int (r.r10.setWidth 32)], -1⟩]) ∧
      libc r'.rax = found a ∧ r'.rip = i.callAddr ∧ abi r' = abi r := by
  have hscan := scan_outside hout
  have hx := toInt_asInt hp
  have hmin := proper_ne_min hp hx
  refine ⟨resumed i r (BitVec.ofInt 32 (asInt a)), ?_, ?_, rfl, rfl⟩
  · rw [emulate, if_pos hcode]
    have hc : callEntry v 3 r = .ok ⟨BitVec.ofInt 32 (asInt a), [⟨0, [.cstr r.rsi,
        .int (r.rdx.setWidth 32), .int (r.r10.setWidth 32)], -1⟩]⟩ := by
      simp only [callEntry, openat, Regs.arg, hs, hscan, if_neg hz, if_pos habs]
      exact congrArg Outcome.ok (helper_arrives hp ha)
    rw [dispatch_hit (n := 3) (by rw [hn]; rfl) hc hmin (by omega)]
  · apply libc_asInt hp
    rw [resumed]
    simp only
    rw [stored _ hmin, hx]

/-- A path that meets the conditions: `/proc/8/fd/5` in process 7. -/
example : ¬ fdDir 7 <+: bytes "/proc/8/fd/5" ∧ (bytes "/proc/8/fd/5").head? = some 47 := by
  rw [← List.isPrefixOf_iff_prefix]
  decide +kernel

/-- **C42, the process's own descriptors.**  A trapped `openat` of a path that names descriptor `n` of the process
gives the program a duplicate of `n`; the host is asked nothing. -/
theorem openat_own {v : Env} {i : Info} {r : Regs} {s : List Byte} {n f : Nat} (hcode : i.code = 1)
    (hn : i.syscall = 257) (hs : v.str r.rsi = some s) (hown : NamesOwn v.pid n s) (hf : f < 2 ^ 31)
    (hdup : v.dup (BitVec.ofNat 32 n) = BitVec.ofNat 32 f) :
    ∃ r', emulate v i r = .ok (r', []) ∧ libc r'.rax = ((f : Int), none) ∧ r'.rip = i.callAddr ∧ abi r' = abi r := by
  have hp : (Answer.descriptor f).Proper := hf
  have hx : (BitVec.ofNat 32 f).toInt = asInt (.descriptor f) := by
    simp only [asInt, BitVec.toInt_ofNat']
    exact Int.bmod_eq_of_le (by omega) (by omega)
  have hmin := proper_ne_min hp hx
  refine ⟨resumed i r (BitVec.ofNat 32 f), ?_, ?_, rfl, rfl⟩
  · have hc : callEntry v 3 r = .ok ⟨BitVec.ofNat 32 f, []⟩ := by
      simp only [callEntry, openat, Regs.arg, hs, scan_own hown, hdup]
    rw [emulate, if_pos hcode, dispatch_hit (n := 3) (by rw [hn]; rfl) hc hmin (by omega)]
  · refine (libc_asInt hp ?_).trans rfl
    simp only [resumed]
    rw [stored _ hmin, hx]

/-- Such a path: `/proc/7/fd/25` names descriptor 25 of process 7. -/
example : NamesOwn 7 25 (bytes "/proc/7/fd/25") :=
  ⟨bytes "25", [], by decide +kernel, by decide +kernel, by decide +kernel, by simp, by decide +kernel⟩

/-- **C42, the C functions.**  `open` gives the same answer as the trapped call; it passes its mode only if
`O_CREAT` is set. -/
theorem cOpen_faithful {v : Env} {path : Word} {flags mode : CInt} {a : Answer} (hp : a.Proper)
    (ha : Arrives a (v.host ⟨0, [.cstr path, .int flags,
      .int (if flags &&& oCreat = oCreat then mode else 0)], -1⟩)) :
    told (cOpen v path flags mode).1 = found a ∧
      (cOpen v path flags mode).2 = [⟨0, [.cstr path, .int flags,
        .int (if flags &&& oCreat = oCreat then mode else 0)], -1⟩] := by
  unfold cOpen «open»
  rw [helper_arrives hp ha]
  exact ⟨told_asInt hp (toInt_asInt hp), rfl⟩

/-- **C42, the C functions `bind` and `connect`.** -/
theorem cBindOrConnect_faithful {v : Env} {kind : Nat} {s len : CInt} {addr : Word} {a : Answer}
    (hp : a.Proper) (ha : Arrives a (v.host ⟨kind, [.int s, .raw addr, .int len], s⟩)) :
    told (cBindOrConnect v kind s addr len).1 = found a ∧
      (cBindOrConnect v kind s addr len).2 = [⟨kind, [.int s, .raw addr, .int len], s⟩] := by
  unfold cBindOrConnect bindOrConnect
  rw [helper_arrives hp ha]
  exact ⟨told_asInt hp (toInt_asInt hp), rfl⟩

/-- **C42, the C function `openat`**, for a relative path. -/
theorem cOpenat_faithful {v : Env} {dirfd flags mode : CInt} {path : Word} {s : List Byte} {a : Answer}
    (hs : v.str path = some s) (hz : path ≠ 0) (hrel : s.head? ≠ some 47)
    (hp : a.Proper)
    (ha : Arrives a (v.host ⟨3, [.int dirfd, .cstr path, .int flags, .int mode], dirfd⟩)) :
    ∃ t, cOpenat v dirfd path flags mode =
        .ok (t, [⟨3, [.int dirfd, .cstr path, .int flags, .int mode], dirfd⟩]) ∧ told t = found a := by
  refine ⟨_, ?_, told_asInt hp (toInt_asInt hp)⟩
  simp only [cOpenat, openat, hs, scan_relative hrel, if_neg hz, if_neg hrel, helper_arrives hp ha]

/-- A signal that is not a violation of the policy changes nothing. -/
theorem other_signal (v : Env) (i : Info) (r : Regs) (h : i.code ≠ 1) : emulate v i r = .ok (r, []) := by
  rw [emulate, if_neg h]

/-- **C42, scanning comes first.**  Opening an absent path through `openat` is not refused, as the code means
to, but undefined. -/
theorem openat_null (v : Env) (h : v.str 0 = none) (dirfd flags mode : CInt) :
    openat v dirfd 0 flags mode = .ub := by
  rw [openat, h]

/-- **C42, the same seen from the program.**  An `openat` stopped by the filter whose path is not a readable string,
the null pointer among them, makes the handler itself undefined, where the kernel would have answered `EFAULT`. -/
theorem openat_unreadable {v : Env} {i : Info} {r : Regs} (hcode : i.code = 1) (hn : i.syscall = 257)
    (h : v.str r.rsi = none) : emulate v i r = .ub := by
  have hc : callEntry v 3 r = .ub := by simp only [callEntry, openat, Regs.arg, h]
  simp [emulate, hcode, dispatch, syscallNumbers, hn, hc]

example : emulate ⟨fun _ => ⟨0, none⟩, 7, fun _ => none, fun x => x⟩ ⟨1, 257, 0x500⟩ ⟨257, 0, 0, 0, 0, 0, 0, 0⟩ = .ub :=
  openat_unreadable rfl rfl rfl

/-- **C42 fails** for the process's own descriptors: if `dup` fails, whatever the reason, the program is told
`EPERM`. -/
theorem proc_error_lost {v : Env} {i : Info} {r : Regs} {s : List Byte} {n : Nat} (hcode : i.code = 1)
    (hn : i.syscall = 257) (hs : v.str r.rsi = some s) (hown : NamesOwn v.pid n s)
    (hdup : v.dup (BitVec.ofNat 32 n) = -1) :
    ∃ r', emulate v i r = .ok (r', []) ∧ libc r'.rax = (-1, some 1) := by
  have hc : callEntry v 3 r = .ok ⟨-1, []⟩ := by
    simp only [callEntry, openat, Regs.arg, hs, scan_own hown, hdup]
  refine ⟨resumed i r (-1), ?_, show libc (0 - (- -1#32).signExtend 64) = _ by decide⟩
  rw [emulate, if_pos hcode, dispatch_hit (n := 3) (by rw [hn]; rfl) hc (by decide) (by omega)]

/-- Such a path: `/proc/7/fd/5` of process 7.  What follows the number is not looked at. -/
example : scanProc 7 (bytes "/proc/7/fd/5") = some 5 ∧
    scanProc 7 (bytes "/proc/7/fd/5/../../../etc/passwd") = some 5 ∧
    scanProc 7 (bytes "/proc/8/fd/5") = none ∧ scanProc 7 (bytes "/proc/7/fd/x") = none := by
  decide +kernel

/-! ## C52: trapped calls without an emulation -/

theorem dispatch_miss (v : Env) (i : Info) (r : Regs) : ∀ n, (∀ m, m < n → syscallNumbers[m]? ≠ some i.syscall) →
    dispatch v i r n = .ok (r, []) := by
  intro n
  induction n with
  | zero => intro _; rfl
  | succ n ih =>
    intro h
    rw [dispatch, if_neg (h n (by omega))]
    exact ih (fun m hm => h m (by omega))

/-- A trapped call without emulation changes nothing. -/
theorem not_emulated_unchanged (v : Env) (i : Info) (r : Regs) (h : i.syscall ∉ syscallNumbers) :
    emulate v i r = .ok (r, []) := by
  unfold emulate
  split
  · exact dispatch_miss v i r 6 (fun m _ e => h (List.mem_of_getElem? e))
  · rfl

/-- **C52 fails.**  When a call traps, the kernel leaves its number in the result register.  A call that the
policy traps and the child does not emulate therefore seems to have succeeded, with its own number as the
result: every one of them. -/
theorem not_emulated_succeeds (v : Env) (i : Info) (r : Regs) (p : String × Nat) (hp : p ∈ Seccomp.trapped)
    (hx : p ∉ Seccomp.emulated) (hi : i.syscall = p.2) (hk : r.rax = BitVec.ofNat 64 p.2) :
    ∃ r', emulate v i r = .ok (r', []) ∧ libc r'.rax = ((p.2 : Int), none) := by
  have hall : Seccomp.trapped.all (fun p => Seccomp.emulated.contains p ||
      (!syscallNumbers.contains (p.2 : Int) && decide (p.2 < 4096))) = true := by decide +kernel
  have := List.all_eq_true.1 hall p hp
  simp only [Bool.or_eq_true, List.contains_iff_mem] at this
  rcases this with h | h
  · exact absurd h hx
  · simp at h
    refine ⟨r, not_emulated_unchanged v i r (by rw [hi]; exact h.1), ?_⟩
    have ht : (BitVec.ofNat 64 p.2).toInt = p.2 := by
      rw [BitVec.toInt_ofNat', Int.bmod_eq_of_le (by omega) (by omega)]
    rw [hk, libc, ht, if_neg (by omega)]

/-- There are many such calls, `kill`, `readlink` and `newfstatat` among them. -/
example : ("kill", 62) ∈ Seccomp.trapped ∧ ("readlink", 89) ∈ Seccomp.trapped ∧
    ("newfstatat", 262) ∈ Seccomp.trapped ∧
    (Seccomp.trapped.filter (fun p => !Seccomp.emulated.contains p)).length = 57 := by decide +kernel

/-- The emulated calls are exactly those of the policy's emulated list, and each traps. -/
theorem emulated_are_trapped : Seccomp.emulated.map (fun p => (p.2 : Int)) = [2, 4, 21, 257, 49, 42] ∧
    syscallNumbers = [2, 4, 21, 257, 49, 42] ∧
    Seccomp.emulated.all (fun p => Seccomp.trapped.contains p) = true := by
  refine ⟨by decide, rfl, by decide +kernel⟩

end Verif.Syscall
