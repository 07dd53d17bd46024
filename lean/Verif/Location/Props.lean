import Verif.Location.Model

/-!
# Passing the heap's location to the child: theorems

The specification is the pair of numbers itself: what the child finds is what the parent put in.
-/

namespace Verif.Location

theorem hexChar_digit : ∀ d, d < 16 → digit (hexChar d) = some d := by decide

theorem hexText_length (k : Nat) : ∀ n, n < 16 ^ (k + 1) → (hexText n).length ≤ k + 1 := by
  induction k with
  | zero =>
    intro n h
    rw [hexText, if_pos (by simpa using h)]
    simp
  | succ k ih =>
    intro n h
    rw [hexText]
    split
    · simp
    · have hlt : n / 16 < 16 ^ (k + 1) := by
        rw [Nat.div_lt_iff_lt_mul (by omega)]
        rw [Nat.pow_succ] at h
        exact h
      have := ih (n / 16) hlt
      simp; omega

theorem digits_hexText : ∀ (n v k : Nat) (s : List Char),
    ∃ j, 0 < j ∧ digits v k (hexText n ++ s) = digits (v * 16 ^ j + n) (k + j) s := by
  intro n
  induction n using Nat.strongRecOn with
  | _ n ih =>
    intro v k s
    rw [hexText]
    split
    · rename_i h
      refine ⟨1, by omega, ?_⟩
      simp [digits, hexChar_digit n h]
    · rename_i h
      obtain ⟨j, hj, e⟩ := ih (n / 16) (by omega) v k (hexChar (n % 16) :: s)
      refine ⟨j + 1, by omega, ?_⟩
      rw [List.append_assoc, List.singleton_append, e]
      simp only [digits, hexChar_digit _ (Nat.mod_lt n (by omega))]
      have h1 : (v * 16 ^ j + n / 16) * 16 + n % 16 = v * 16 ^ (j + 1) + n := by
        rw [Nat.pow_succ, Nat.add_mul, Nat.mul_assoc]
        omega
      rw [h1, Nat.add_assoc]

theorem hexText_head (n : Nat) : ∃ d rest, d < 16 ∧ hexText n = hexChar d :: rest ∧ (d = 0 → rest = []) := by
  induction n using Nat.strongRecOn with
  | _ n ih =>
    rw [hexText]
    split
    · rename_i h
      exact ⟨n, [], h, rfl, fun _ => rfl⟩
    · rename_i h
      obtain ⟨d, rest, h1, h2, h3⟩ := ih (n / 16) (by omega)
      refine ⟨d, rest ++ [hexChar (n % 16)], h1, by simp [h2], fun hd => ?_⟩
      exfalso
      have hr := h3 hd
      subst hr hd
      -- a text of one digit 0 is that of 0
      have h0 : n / 16 < 16 := by
        by_cases hlt : n / 16 < 16
        · exact hlt
        · rw [hexText, if_neg hlt] at h2
          have hl := congrArg List.length h2
          obtain ⟨d', r', -, e', -⟩ := hexText_head' (n / 16 / 16)
          simp [e'] at hl
      rw [hexText, if_pos h0] at h2
      have : digit (hexChar (n / 16)) = digit (hexChar 0) := by simp at h2; rw [h2]
      rw [hexChar_digit _ h0, hexChar_digit 0 (by omega)] at this
      simp at this
      omega
where
  hexText_head' (m : Nat) : ∃ d rest, d < 16 ∧ hexText m = hexChar d :: rest ∧ True := by
    induction m using Nat.strongRecOn with
    | _ m ih =>
      rw [hexText]
      split
      · rename_i h; exact ⟨m, [], h, rfl, trivial⟩
      · obtain ⟨d, rest, h1, h2, -⟩ := ih (m / 16) (by omega)
        exact ⟨d, rest ++ [hexChar (m % 16)], h1, by simp [h2], trivial⟩

theorem hexChar_plain : ∀ d, d < 16 → isSpace (hexChar d) = false ∧ hexChar d ≠ '-' ∧ hexChar d ≠ '+' ∧
    (hexChar d = '0' → d = 0) := by decide

/-- Reading a printed number gives it back and stops at the first character that is not a digit. -/
theorem strtoull_hexText (w : Word) (s : List Char) (hs : s = [] ∨ ∃ c t, s = c :: t ∧ digit c = none ∧
    c ≠ 'x' ∧ c ≠ 'X') : strtoull (hexText w.toNat ++ s) = (w, s) := by
  obtain ⟨d, rest, hd, he, hz⟩ := hexText_head w.toNat
  obtain ⟨p1, p2, p3, p4⟩ := hexChar_plain d hd
  have hdw : (hexText w.toNat ++ s).dropWhile isSpace = hexText w.toNat ++ s := by
    rw [he, List.cons_append, List.dropWhile_cons, p1]; rfl
  have hsg : sign (hexText w.toNat ++ s) = (false, hexText w.toNat ++ s) := by
    rw [he, List.cons_append]
    unfold sign
    split <;> simp_all
  have hsk : skip0x (hexText w.toNat ++ s) = hexText w.toNat ++ s := by
    rw [he, List.cons_append]
    unfold skip0x
    split
    · rename_i x d' s' heq
      simp only [List.cons.injEq] at heq
      obtain ⟨h1, h2⟩ := heq
      have hr := hz (p4 h1)
      subst hr
      simp only [List.nil_append] at h2
      rcases hs with hs | ⟨c, t, hs, -, hc1, hc2⟩
      · simp [hs] at h2
      · rw [hs] at h2
        simp only [List.cons.injEq] at h2
        obtain ⟨rfl, h2⟩ := h2
        simp [hc1, hc2, h1, hs, h2]
    · rfl
  obtain ⟨j, hj, hdg⟩ := digits_hexText w.toNat 0 0 s
  have hstop : ∀ v k, digits v k s = (v, k, s) := by
    intro v k
    rcases hs with hs | ⟨c, t, hs, hc, -⟩
    · subst hs; rfl
    · subst hs; simp [digits, hc]
  unfold strtoull
  rw [hdw, hsg]
  simp only [hsk, hdg, hstop]
  have hlt : w.toNat < 2 ^ 64 := w.isLt
  rw [if_neg (by omega), if_neg (by omega)]
  simp

/-! ## C36 -/

/-- **C36, the text fits.**  For every address and size the text and its NUL fit the 52-byte buffer, so
nothing is cut off and the check after `snprintf` holds. -/
theorem location_fits (addr size : Word) :
    (location addr size).2 < 52 ∧ (location addr size).1 = fullText addr size := by
  have h1 := hexText_length 15 addr.toNat (by have := addr.isLt; simpa using this)
  have h2 := hexText_length 15 size.toNat (by have := size.isLt; simpa using this)
  have h3 : name.length = 17 := by decide
  have hl : (fullText addr size).length ≤ 50 := by simp [fullText, h3]; omega
  exact ⟨by simp only [location]; omega, List.take_of_length_le (by omega)⟩

/-- **C36, round trip.**  For every address and size that are not zero, the child finds exactly them,
whatever other variables come before (without this name) or after. -/
theorem location_roundtrip (addr size : Word) (ha : addr ≠ 0) (hs : size ≠ 0)
    (before after : List (List Char)) (hb : ∀ e ∈ before, e.take name.length ≠ name) :
    bootstrap (before ++ (location addr size).1 :: after) = .place addr size := by
  induction before with
  | nil =>
    rw [(location_fits addr size).2]
    have ht : (fullText addr size).take name.length = name := by
      simp [fullText, List.append_assoc]
    have hd : (fullText addr size).drop name.length = hexText addr.toNat ++ ':' :: hexText size.toNat := by
      simp [fullText, List.append_assoc]
    simp only [List.nil_append, bootstrap]
    rw [if_pos ht, hd, strtoull_hexText addr _ (.inr ⟨':', _, rfl, by decide, by decide, by decide⟩)]
    have := strtoull_hexText size [] (.inl rfl)
    rw [List.append_nil] at this
    simp only [this]
    rw [if_neg fun h => h.elim ha hs]
  | cons e es ih =>
    have he := hb e (by simp)
    simp only [List.cons_append, bootstrap]
    rw [if_neg he]
    exact ih fun x hx => hb x (by simp [hx])

/-- Distinct places have distinct texts: nothing about the place is lost. -/
theorem location_injective {a₁ s₁ a₂ s₂ : Word} (h : (location a₁ s₁).1 = (location a₂ s₂).1) :
    a₁ = a₂ ∧ s₁ = s₂ := by
  rw [(location_fits _ _).2, (location_fits _ _).2] at h
  unfold fullText at h
  rw [List.append_assoc, List.append_assoc] at h
  have h := List.append_cancel_left h
  have e1 := strtoull_hexText a₁ (':' :: hexText s₁.toNat)
    (.inr ⟨':', _, rfl, by decide, by decide, by decide⟩)
  have e2 := strtoull_hexText a₂ (':' :: hexText s₂.toNat)
    (.inr ⟨':', _, rfl, by decide, by decide, by decide⟩)
  rw [h, e2] at e1
  simp only [Prod.mk.injEq, List.cons.injEq, true_and] at e1
  refine ⟨e1.1.symm, ?_⟩
  have f1 := strtoull_hexText s₁ [] (.inl rfl)
  have f2 := strtoull_hexText s₂ [] (.inl rfl)
  simp only [List.append_nil] at f1 f2
  rw [← e1.2, f2] at f1
  simp at f1
  exact f1.symm

/-- An address or a size of zero is refused by the child. -/
theorem zero_refused (addr size : Word) (h : addr = 0 ∨ size = 0) (after : List (List Char)) :
    bootstrap ((location addr size).1 :: after) = .notFound := by
  rw [(location_fits addr size).2]
  have ht : (fullText addr size).take name.length = name := by
    simp [fullText, List.append_assoc]
  have hd : (fullText addr size).drop name.length = hexText addr.toNat ++ ':' :: hexText size.toNat := by
    simp [fullText, List.append_assoc]
  simp only [bootstrap]
  rw [if_pos ht, hd, strtoull_hexText addr _ (.inr ⟨':', _, rfl, by decide, by decide, by decide⟩)]
  have := strtoull_hexText size [] (.inl rfl)
  rw [List.append_nil] at this
  simp only [this]
  rw [if_pos h]

/-- Without the variable the child stops. -/
theorem missing_refused (env : List (List Char)) (h : ∀ e ∈ env, e.take name.length ≠ name) :
    bootstrap env = .notFound := by
  induction env with
  | nil => rfl
  | cons e es ih =>
    simp only [bootstrap]
    rw [if_neg (h e (by simp)), ih fun x hx => h x (by simp [hx])]

/-! ### Reading any number -/

/-- The characters that C's `isspace` accepts. -/
def spaces : List Char := [' ', '\t', '\n', '\x0b', '\x0c', '\r']

/-- The hexadecimal digit `c` with value `d`. -/
def IsDigit (c : Char) (d : Nat) : Prop :=
  "0123456789abcdef".toList[d]? = some c ∨ "0123456789ABCDEF".toList[d]? = some c

/-- The text of some digits. -/
inductive Digits : List Char → List Nat → Prop where
  | nil : Digits [] []
  | cons {c : Char} {d : Nat} {txt : List Char} {ds : List Nat} : IsDigit c d → Digits txt ds →
      Digits (c :: txt) (d :: ds)

/-- The text of a sign: none, `+`, or `-`. -/
def signText : Option Bool → List Char
  | none => []
  | some true => ['-']
  | some false => ['+']

/-- The text before the digits: none, or `0` and the given letter. -/
def prefixText : Option Char → List Char
  | none => []
  | some x => ['0', x]

/-- The value of a text of digits, most significant first. -/
def value : List Nat → Nat := List.foldl (fun v d => v * 16 + d) 0

theorem isDigit_lt {c : Char} {d : Nat} (h : IsDigit c d) : d < 16 := by
  rcases h with h | h <;> exact (List.getElem?_eq_some_iff.1 h).1

theorem digit_of {c : Char} {d : Nat} (h : IsDigit c d) : digit c = some d ∧ isSpace c = false ∧ c ≠ '-' ∧ c ≠ '+' ∧
    c ≠ 'x' ∧ c ≠ 'X' := by
  have low : ∀ d, d < 16 → ∀ c ∈ "0123456789abcdef".toList[d]?, digit c = some d ∧ isSpace c = false ∧ c ≠ '-' ∧
      c ≠ '+' ∧ c ≠ 'x' ∧ c ≠ 'X' := by decide
  have up : ∀ d, d < 16 → ∀ c ∈ "0123456789ABCDEF".toList[d]?, digit c = some d ∧ isSpace c = false ∧ c ≠ '-' ∧
      c ≠ '+' ∧ c ≠ 'x' ∧ c ≠ 'X' := by decide
  have hl := isDigit_lt h
  rcases h with h | h
  · exact low d hl c h
  · exact up d hl c h

/-- The characters that are digits, and no others. -/
theorem digit_iff (c : Char) (d : Nat) : digit c = some d ↔ IsDigit c d := by
  refine ⟨fun h => ?_, fun h => (digit_of h).1⟩
  have low : ∀ n, n < 128 → ∀ d, digit (Char.ofNat n) = some d → d < 16 ∧ IsDigit (Char.ofNat n) d := by
    intro n hn d hd
    have key : ∀ n, n < 128 → ∀ d ∈ digit (Char.ofNat n), d < 16 ∧ ("0123456789abcdef".toList[d]? = some (Char.ofNat n) ∨
        "0123456789ABCDEF".toList[d]? = some (Char.ofNat n)) := by decide +kernel
    exact key n hn d hd
  have hn : c.toNat < 128 := by
    have tn : ∀ x : Char, c ≤ x → c.toNat ≤ x.toNat := fun x hx => hx
    unfold digit at h
    split at h
    · rename_i hx; have := tn _ hx.2; exact Nat.lt_of_le_of_lt this (by decide)
    split at h
    · rename_i hx; have := tn _ hx.2; exact Nat.lt_of_le_of_lt this (by decide)
    split at h
    · rename_i hx; have := tn _ hx.2; exact Nat.lt_of_le_of_lt this (by decide)
    · cases h
  have := low c.toNat hn d (by rw [Char.ofNat_toNat]; exact h)
  rw [Char.ofNat_toNat] at this
  exact this.2

/-- **C36, where a number ends.**  The child reads digits as far as the first character that is none: whatever that character is, the
rest of the text is left, and is refused unless it begins with the separator. -/
theorem digits_stop {txt : List Char} {ds : List Nat} (h : Digits txt ds) (c : Char) (t : List Char)
    (hc : ∀ d, ¬ IsDigit c d) : ∀ v k, digits v k (txt ++ c :: t) =
      (ds.foldl (fun v d => v * 16 + d) v, k + ds.length, c :: t) := by
  have hn : digit c = none := by
    cases hd : digit c with
    | none => rfl
    | some d => exact absurd ((digit_iff c d).1 hd) (hc d)
  induction h with
  | nil =>
    intro v k
    simp only [List.nil_append, digits, hn]
    rfl
  | cons hx _ ih =>
    intro v k
    simp only [List.cons_append, digits, (digit_of hx).1, ih, List.foldl_cons, List.length_cons]
    congr 2
    omega

/-- `g` is no digit, so that `1fg:` is read as `1f`. -/
example : digits 0 0 "1fg:".toList = (31, 2, "g:".toList) :=
  digits_stop (ds := [1, 15]) (.cons (.inl rfl) (.cons (.inl rfl) .nil)) 'g' [':'] (by
    intro d hd
    have := (digit_iff 'g' d).2 hd
    revert this
    rw [show digit 'g' = none by decide]
    exact nofun) 0 0

theorem digits_value {txt : List Char} {ds : List Nat} (h : Digits txt ds) (s : List Char)
    (hs : s = [] ∨ ∃ t, s = ':' :: t) : ∀ v k, digits v k (txt ++ s) =
      (ds.foldl (fun v d => v * 16 + d) v, k + ds.length, s) := by
  induction h with
  | nil =>
    intro v k
    rcases hs with rfl | ⟨t, rfl⟩
    · rfl
    · rfl
  | cons hc _ ih =>
    intro v k
    simp only [List.cons_append, digits, (digit_of hc).1, ih, List.foldl_cons, List.length_cons]
    congr 2
    omega

/-- **C36, what the child reads.**  Whatever the value of the variable: spaces, a sign and `0x` may come before the
digits, which may be of either case; a value that does not fit becomes the largest one, and a minus sign negates. -/
theorem strtoull_reads {ws txt s : List Char} {ds : List Nat} (hws : ∀ c ∈ ws, c ∈ spaces) (neg : Option Bool)
    (pre : Option Char) (hpre : ∀ x ∈ pre, x = 'x' ∨ x = 'X') (h : Digits txt ds) (hne : txt ≠ [])
    (hs : s = [] ∨ ∃ t, s = ':' :: t) :
    strtoull (ws ++ (signText neg ++
        (prefixText pre ++ (txt ++ s)))) =
      (if 2 ^ 64 ≤ value ds then BitVec.ofNat 64 (2 ^ 64 - 1)
        else if neg = some true then - BitVec.ofNat 64 (value ds) else BitVec.ofNat 64 (value ds), s) := by
  obtain ⟨c, txt', rfl⟩ : ∃ c t, txt = c :: t := by
    cases txt with
    | nil => exact absurd rfl hne
    | cons c t => exact ⟨c, t, rfl⟩
  obtain ⟨d, ds', rfl⟩ : ∃ d t, ds = d :: t := by
    cases h with | cons _ _ => exact ⟨_, _, rfl⟩
  have hc : IsDigit c d := by cases h with | cons h _ => exact h
  obtain ⟨c1, c2, c3, c4, c5, c6⟩ := digit_of hc
  have hw : ∀ c ∈ spaces, isSpace c = true := by decide
  have hdrop : ∀ t : List Char, (∀ x t', t = x :: t' → isSpace x = false) → (ws ++ t).dropWhile isSpace = t := by
    intro t ht
    rw [List.dropWhile_append_of_pos (fun x hx => hw x (hws x hx))]
    cases t with
    | nil => rfl
    | cons x t' => rw [List.dropWhile_cons, ht x t' rfl]; rfl
  have hskip : skip0x (c :: txt' ++ s) = c :: txt' ++ s := by
    rw [List.cons_append]
    unfold skip0x
    split
    · rename_i x d' s' heq
      simp only [List.cons.injEq] at heq
      obtain ⟨h1, h2⟩ := heq
      have hx : x ≠ 'x' ∧ x ≠ 'X' := by
        cases h with
        | cons _ ht =>
          cases ht with
          | nil =>
            rcases hs with rfl | ⟨t, rfl⟩
            · cases h2
            · simp only [List.nil_append, List.cons.injEq] at h2
              rw [← h2.1]; decide
          | cons hy _ =>
            simp only [List.cons_append, List.cons.injEq] at h2
            rw [← h2.1]
            exact ⟨(digit_of hy).2.2.2.2.1, (digit_of hy).2.2.2.2.2⟩
      simp [hx.1, hx.2, h1, h2]
    · rfl
  have hpreskip : skip0x (prefixText pre ++ (c :: txt' ++ s)) = c :: txt' ++ s := by
    cases pre with
    | none => exact hskip
    | some x =>
      have hx : (x == 'x' || x == 'X') = true := by
        rcases hpre x rfl with rfl | rfl <;> rfl
      simp [prefixText, skip0x, hx, c1]
  have hsign : ∀ t : List Char, (∃ y t', t = y :: t' ∧ isSpace y = false ∧ y ≠ '-' ∧ y ≠ '+') →
      sign ((ws ++ (signText neg ++ t)).dropWhile isSpace) =
        (decide (neg = some true), t) := by
    rintro t ⟨y, t', rfl, hy, hy1, hy2⟩
    cases neg with
    | none =>
      rw [hdrop _ (by intro x t'' he; cases he; exact hy)]
      simp only [signText, List.nil_append]
      unfold sign
      split <;> simp_all
    | some n =>
      rw [hdrop _ (by intro x t'' he; cases n <;> cases he <;> decide)]
      cases n <;> rfl
  have hstart : ∃ y t', prefixText pre ++ (c :: txt' ++ s) = y :: t' ∧
      isSpace y = false ∧ y ≠ '-' ∧ y ≠ '+' := by
    cases pre with
    | none => exact ⟨c, _, rfl, c2, c3, c4⟩
    | some x => exact ⟨'0', _, rfl, by decide, by decide, by decide⟩
  unfold strtoull
  rw [hsign _ hstart]
  simp only [hpreskip, digits_value h s hs]
  rw [if_neg (by simp)]
  show (if 2 ^ 64 ≤ value (d :: ds') then _ else _) = _
  split
  · rfl
  · by_cases hn : neg = some true
    · simp only [hn, decide_true, if_true]; rfl
    · simp only [hn, decide_false, Bool.false_eq_true, if_false]; rfl

/-- A text with spaces, sign and prefix. -/
example : strtoull " \t+0xFf:1".toList = (255, ":1".toList) := by
  have h : Digits "Ff".toList [15, 15] := .cons (.inr rfl) (.cons (.inl rfl) .nil)
  exact strtoull_reads (ws := " \t".toList) (txt := "Ff".toList) (by decide) (some false) (some 'x') (by decide) h
    (by decide) (.inr ⟨"1".toList, rfl⟩)

example : bootstrap ["PATH=/bin".toList, (location 0x7f0000000000 0x40000000).1] =
    .place 0x7f0000000000 0x40000000 :=
  location_roundtrip 0x7f0000000000 0x40000000 (by decide) (by decide) ["PATH=/bin".toList] []
    (by decide)

example : (location 0x7f0000000000 0x40000000).1 = "SANDBOX_LOCATION=7f0000000000:40000000".toList := by
  decide +kernel

/-! ### A value that is not a place -/

theorem digits_mem (x : Char) : ∀ (s : List Char) (v k : Nat), x ∈ (digits v k s).2.2 → x ∈ s
  | [], v, k, h => by simp [digits] at h
  | c :: s, v, k, h => by
    unfold digits at h
    split at h
    · exact List.mem_cons_of_mem _ (digits_mem x s _ _ h)
    · exact h

theorem strtoull_mem (x : Char) (s : List Char) (h : x ∈ (strtoull s).2) : x ∈ s := by
  have h1 : ∀ t : List Char, x ∈ skip0x t → x ∈ t := by
    intro t ht
    unfold skip0x at ht
    split at ht
    · split at ht
      · exact List.mem_cons_of_mem _ (List.mem_cons_of_mem _ ht)
      · exact ht
    · exact ht
  have h2 : ∀ t : List Char, x ∈ (sign t).2 → x ∈ t := by
    intro t ht
    unfold sign at ht
    split at ht
    · exact List.mem_cons_of_mem _ ht
    · exact List.mem_cons_of_mem _ ht
    · exact ht
  unfold strtoull at h
  simp only at h
  have h3 := digits_mem x (skip0x (sign (s.dropWhile isSpace)).2) 0 0
  rcases hd : digits 0 0 (skip0x (sign (s.dropWhile isSpace)).2) with ⟨v, k, rest⟩
  rw [hd] at h h3
  simp only at h h3
  have key : x ∈ rest → x ∈ s := fun hr => (List.dropWhile_sublist isSpace).subset (h2 _ (h1 _ (h3 hr)))
  split at h
  · exact h
  · split at h
    · exact key h
    · exact key h

/-- **C36, a value that is not a place.**  If the first variable of that name has no colon in its value, the child stops at the invariant, whatever else there is. -/
theorem no_colon_refused (before after : List (List Char)) (v : List Char) (hb : ∀ e ∈ before, e.take name.length ≠ name) (hv : ':' ∉ v) :
    bootstrap (before ++ (name ++ v) :: after) = .badSeparator := by
  induction before with
  | nil =>
    simp only [List.nil_append, bootstrap]
    rw [if_pos (by simp), List.drop_left]
    split
    · rename_i addr s hs
      exact absurd (strtoull_mem ':' v (by rw [hs]; simp)) hv
    · rfl
  | cons e es ih =>
    simp only [List.cons_append, bootstrap]
    rw [if_neg (hb e (by simp))]
    exact ih fun x hx => hb x (by simp [hx])

example : bootstrap ["PATH=/bin".toList, "SANDBOX_LOCATION=7f0000".toList, (location 0x7f0000000000 0x40000000).1] = .badSeparator :=
  no_colon_refused ["PATH=/bin".toList] [(location 0x7f0000000000 0x40000000).1] "7f0000".toList (by decide) (by decide)

end Verif.Location
