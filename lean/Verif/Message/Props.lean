import Verif.Message.Model

/-!
# Failed invariants and their messages: property C62
-/

namespace Verif.Message

/-! ### Specification -/

/-- Text without braces. -/
def Plain (t : List Char) : Prop := '{' ∉ t ∧ '}' ∉ t

instance (t : List Char) : Decidable (Plain t) := inferInstanceAs (Decidable ('{' ∉ t ∧ '}' ∉ t))

/-- A message with placeholders: text, then placeholders each followed by text. -/
def template (t : List Char) : List (List Char) → List Char
  | [] => t
  | u :: us => t ++ '{' :: '}' :: template u us

/-- The message with its placeholders filled. -/
def filled (t : List Char) : List (List Char) → List (List Char) → List Char
  | u :: us, a :: as => t ++ a ++ filled u us as
  | _, _ => t

/-- What the comment on `invariant` promises (`helpers.h:131-134`): a condition that does not hold ends the process with a message, one
that holds has no effect. -/
def Kept (enabled cond : Bool) (o : Outcome) : Prop :=
  (enabled = true → cond = false → ∃ m, o = .abort m) ∧ (enabled = false ∨ cond = true → o = .pass)

/-- When each kind of invariant is tested. -/
def tested : Enable → Bool → Bool
  | .debugOnly, isRelease => !isRelease
  | .debugAndRelease, _ => true
  | .releaseOnly, isRelease => isRelease

/-! ### C62 -/

theorem isEnabled_eq (e : Enable) (r : Bool) : isEnabled e r = tested e r := by
  cases e <;> cases r <;> rfl

theorem vformat_plain (t : List Char) (ht : Plain t) (r : List Char) (as : List (List Char)) :
    vformat (t ++ r) as = (vformat r as).map (t ++ ·) := by
  induction t with
  | nil => simp
  | cons c t ih =>
    obtain ⟨h1, h2⟩ := ht
    simp only [List.mem_cons, not_or] at h1 h2
    have := ih ⟨h1.2, h2.2⟩
    rw [List.cons_append, vformat]
    · rw [this, Option.map_map]
      rfl
    all_goals grind

theorem vformat_end (t : List Char) (ht : Plain t) (as : List (List Char)) : vformat t as = some t := by
  have := vformat_plain t ht [] as
  simpa [vformat] using this

theorem vformat_template (us : List (List Char)) : ∀ (t : List Char), Plain t → (∀ u ∈ us, Plain u) → ∀ as : List (List Char),
    vformat (template t us) as = if us.length ≤ as.length then some (filled t us as) else none := by
  induction us with
  | nil =>
    intro t ht _ as
    rw [template, vformat_end t ht]
    simp [filled]
  | cons u us ih =>
    intro t ht hus as
    rw [template, vformat_plain t ht]
    cases as with
    | nil => simp [vformat]
    | cons a as =>
      rw [vformat, ih u (hus u List.mem_cons_self) (fun v hv => hus v (List.mem_cons_of_mem _ hv)) as]
      simp only [List.length_cons, Nat.add_le_add_iff_right]
      split <;> simp [filled]

theorem final_message (sl : Place) (user : List Char) :
    vformat finalFormat [sl.file, sl.line, sl.fn, user] =
      some (sl.file ++ ':' :: sl.line ++ " in ".toList ++ sl.fn ++ ": ".toList ++ user ++ ['\n']) := by
  have h := vformat_template [[':'], " in ".toList, ": ".toList, ['\n']] [] (by decide) (by decide) [sl.file, sl.line, sl.fn, user]
  simp only [template, filled] at h
  have he : finalFormat = [] ++ '{' :: '}' :: ([':'] ++ '{' :: '}' :: (" in ".toList ++ '{' :: '}' :: (": ".toList ++ '{' :: '}' :: ['\n']))) := by
    decide +kernel
  rw [he, h]
  simp

/-- **C62, the general fact.**  An invariant with a message of `us.length` placeholders, given `args`: it is silent when it holds or
is not built in; otherwise the process ends with the place and the message when there are enough arguments, and an exception is thrown when
there are not. -/
theorem invariant_outcome (e : Enable) (r cond : Bool) (t : List Char) (us : List (List Char)) (ht : Plain t) (hus : ∀ u ∈ us, Plain u)
    (sl : Place) (args : List (List Char)) :
    invariant e r cond (template t us) sl args =
      if tested e r = false ∨ cond = true then .pass
      else if us.length ≤ args.length then
        .abort (sl.file ++ ':' :: sl.line ++ " in ".toList ++ sl.fn ++ ": ".toList ++ filled t us args ++ ['\n'])
      else .throws := by
  rw [invariant, isEnabled_eq]
  cases tested e r <;> cases cond <;> try (simp; done)
  simp only [invariantFail, vformat_template us t ht hus, if_true, Bool.false_eq_true, if_false, Bool.true_eq_false, or_self]
  by_cases h : us.length ≤ args.length
  · simp only [h, if_true, final_message]
  · simp only [h, if_false]

example : Plain "Execve failed: ".toList ∧ template "Execve failed: ".toList [[]] = "Execve failed: {}".toList := by decide +kernel

/-- Text with each brace doubled, as `fmt` wants braces written that are to be printed. -/
def escaped : List Char → List Char
  | [] => []
  | c :: t => if c = '{' ∨ c = '}' then c :: c :: escaped t else c :: escaped t

theorem vformat_escaped (t r : List Char) (as : List (List Char)) :
    vformat (escaped t ++ r) as = (vformat r as).map (t ++ ·) := by
  induction t with
  | nil => simp [escaped]
  | cons c t ih =>
    unfold escaped
    split
    · rename_i h
      rcases h with rfl | rfl <;> (rw [List.cons_append, List.cons_append, vformat, ih, Option.map_map]; rfl)
    · rename_i h
      rw [List.cons_append, vformat]
      · rw [ih, Option.map_map]
        rfl
      all_goals grind

/-- **C62, braces in a message.**  A message in which every brace is doubled is printed with single braces, whatever it says and
whatever arguments are given. -/
theorem escaped_message (e : Enable) (r : Bool) (h : tested e r = true) (t : List Char) (sl : Place) (args : List (List Char)) :
    invariant e r false (escaped t) sl args =
      .abort (sl.file ++ ':' :: sl.line ++ " in ".toList ++ sl.fn ++ ": ".toList ++ t ++ ['\n']) := by
  have hv : vformat (escaped t) args = some t := by
    have := vformat_escaped t [] args
    simpa [vformat] using this
  rw [invariant, isEnabled_eq, h]
  simp only [invariantFail, hv, if_true, Bool.false_eq_true, if_false, final_message]

example : escaped "a{}b".toList = "a{{}}b".toList ∧ tested .debugAndRelease true = true := by decide +kernel

/-- **C62, a brace on its own** that ends a message, after text without braces: an exception is thrown instead. -/
theorem lone_brace_throws (e : Enable) (r : Bool) (h : tested e r = true) (t : List Char) (ht : Plain t) (b : Char)
    (hb : b = '{' ∨ b = '}') (sl : Place) (args : List (List Char)) :
    invariant e r false (t ++ [b]) sl args = .throws := by
  have hv : vformat (t ++ [b]) args = none := by
    rw [vformat_plain t ht]
    rcases hb with rfl | rfl <;> simp [vformat]
  rw [invariant, isEnabled_eq, h]
  simp only [invariantFail, hv, if_true, Bool.false_eq_true, if_false]

example : Plain "a".toList ∧ tested .debugOnly false = true := by decide

/-- **C62 (partial).**  A use whose message has at most one placeholder does as promised.  What is missing: the messages with more,
see `throwing_uses`. -/
theorem invariant_kept_partial (u : Use) (t : List Char) (us : List (List Char)) (hm : u.msg.toList = template t us) (ht : Plain t)
    (hus : ∀ v ∈ us, Plain v) (h1 : us.length ≤ 1) (isRelease cond : Bool) (sl : Place) :
    Kept (tested u.enable isRelease) cond (u.run isRelease cond sl) := by
  rw [Use.run, hm, invariant_outcome u.enable isRelease cond t us ht hus sl]
  simp only [List.length_singleton, h1, if_true]
  constructor
  · intro h h'
    simp [h, h']
  · intro h
    simp [h]

example : ∃ u ∈ uses, ∃ t us, u.msg.toList = template t us ∧ Plain t ∧ (∀ v ∈ us, Plain v) ∧ us.length = 1 :=
  ⟨_, List.mem_of_getElem (i := 12) (h := by decide) rfl, "Execve failed: ".toList, [[]], by decide +kernel, by decide +kernel,
    by decide +kernel, rfl⟩

/-- **C62 fails for six messages.**  Of all the uses in the library, these throw when the condition does not hold (in a build where they are
tested): the ones with two placeholders or more.  All the others end the process. -/
theorem throwing_uses (sl : Place) :
    ∀ u ∈ uses, ∀ isRelease, tested u.enable isRelease = true →
      (u.run isRelease false sl = .throws ↔ (u.file, u.line) ∈
        [("src/library_runner.cc", 153), ("src/library_runner.cc", 160), ("src/library_runner.cc", 1076), ("src/libsandbox.cc", 850),
         ("include/process_sandbox/platform/sandbox_capsicum.h", 50), ("include/process_sandbox/platform/sandbox_capsicum.h", 127)]) ∧
      (u.run isRelease false sl ≠ .throws → ∃ m, u.run isRelease false sl = .abort m) := by
  have key : ∀ u ∈ uses, ((vformat u.msg.toList [u.argText.toList] = none) ↔ (u.file, u.line) ∈
        [("src/library_runner.cc", 153), ("src/library_runner.cc", 160), ("src/library_runner.cc", 1076), ("src/libsandbox.cc", 850),
         ("include/process_sandbox/platform/sandbox_capsicum.h", 50), ("include/process_sandbox/platform/sandbox_capsicum.h", 127)]) := by
    decide +kernel
  intro u hu r hr
  have h1 : u.run r false sl = invariantFail u.msg.toList [u.argText.toList] sl := by
    simp [Use.run, invariant, isEnabled_eq, hr]
  rw [h1, ← key u hu, invariantFail]
  cases hv : vformat u.msg.toList [u.argText.toList] with
  | none => simp
  | some user =>
    have := final_message sl user
    simp only [this]
    exact ⟨by simp, fun _ => ⟨_, rfl⟩⟩

/-- The uses that a release build leaves out. -/
def debugUses : List (String × Nat) :=
  [("src/library_runner.cc", 321), ("src/library_runner.cc", 1076), ("src/libsandbox.cc", 782), ("src/libsandbox.cc", 800),
   ("include/process_sandbox/path.h", 197)]

/-- **C62, which conditions are tested.**  Every build tests every condition, except that a release build does not test those five: there
a violated condition goes unnoticed. -/
theorem untested_uses (sl : Place) (u : Use) (hu : u ∈ uses) (isRelease : Bool) :
    u.run isRelease false sl = .pass ↔ isRelease = true ∧ (u.file, u.line) ∈ debugUses := by
  have key : ∀ u ∈ uses, ∀ r : Bool, isEnabled u.enable r = !(r && ((u.file, u.line) ∈ debugUses)) := by decide +kernel
  have hk := key u hu isRelease
  have hf : invariantFail u.msg.toList [u.argText.toList] sl ≠ .pass := by
    rw [invariantFail]
    cases hv : vformat u.msg.toList [u.argText.toList] with
    | none => simp
    | some user => simp [final_message sl user]
  rw [Use.run, invariant, hk]
  by_cases h : isRelease = true ∧ (u.file, u.line) ∈ debugUses
  · obtain ⟨rfl, h⟩ := h
    simp [h]
  · have : (isRelease && decide ((u.file, u.line) ∈ debugUses)) = false := by
      simp only [Bool.and_eq_false_iff, decide_eq_false_iff_not]
      cases isRelease <;> simp_all
    simp [this, hf, h]

/-- The values never appear: what is printed is the text of the arguments. -/
example : ∀ sl : Place, sl = ⟨"s.cc".toList, "68".toList, "f".toList⟩ →
    (Use.mk "include/process_sandbox/platform/sandbox.h" 68 .debugAndRelease "Execve failed: {}" "strerror(errno)").run true false sl =
      .abort "s.cc:68 in f: Execve failed: strerror(errno)\n".toList := by
  rintro sl rfl
  decide +kernel

end Verif.Message
