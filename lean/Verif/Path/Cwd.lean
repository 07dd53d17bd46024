import Verif.Path.Props

/-!
# C118: making a path absolute where one is

`Path::getcwd` and `Path::make_absolute` with its default argument.  The call of `::getcwd` is a parameter: the text that
it gives, or `none` if it fails (the directory was removed, or may not be read).
-/

namespace Verif.Path

open Spec

/-! ### Model -/

/-- `Path::getcwd`, `include/process_sandbox/path.h:131-135`.  If `::getcwd` fails, a `std::string_view` is made from a null
pointer, which is undefined; otherwise the text ends with a NUL. -/
def getcwd (cwd : Option (List Byte)) : Outcome Path :=
  match cwd with
  | none => .ub
  | some s => ofView (some 0) s

/-- `p.make_absolute()`, `include/process_sandbox/path.h:195-202`: the default argument is evaluated first. -/
def Path.makeAbsoluteHere (debug : Bool) (p : Path) (cwd : Option (List Byte)) : Outcome Path :=
  match getcwd cwd with
  | .ok base => p.makeAbsolute debug base
  | .abort => .abort
  | .throws => .throws
  | .ub => .ub

/-! ### Lemmas -/

theorem getcwd_some (s : List Byte) : getcwd (some s) = .ok (parse s) := by
  simp only [getcwd, ofView]
  by_cases h : s = []
  · subst h
    rw [if_pos rfl, if_neg (by decide)]
  · rw [if_neg h]

theorem strLoop_append (a b : List Comp) : strLoop true (a ++ b) = strLoop true a ++ strLoop true b := by
  induction a with
  | nil => rfl
  | cons c cs ih => simp [strLoop, ih]

theorem strLoop_true {cs : List Comp} (h : cs ≠ []) : strLoop true cs = slash :: strLoop false cs := by
  cases cs with
  | nil => exact absurd rfl h
  | cons c cs => simp [strLoop]

theorem parse_components_ne {s : List Byte} (h : s ≠ []) (hr : s.head? ≠ some slash) : (parse s).components ≠ [] := by
  cases s with
  | nil => exact absurd rfl h
  | cons c cs =>
    have hc : c ≠ slash := fun e => hr (by simp [e])
    simp only [parse, if_neg hc]
    rw [Ne, splitLoop_eq_nil]
    simp

/-! ## C118 -/

/-- **C118 (partial), the same file.**  If the working directory `n` is the one that the system's answer names from the root, then a
relative path made absolute leads from the root to where the path leads from the working directory, whatever the tree.
What is missing: that the system has an answer and that it is absolute, see `here_ends_iff` and `here_unreachable`. -/
theorem here_same_file_partial (debug : Bool) (p : Path) (hp : p.isAbsolute = false) (cwd : List Byte) (t : Tree) (root n : t.Node)
    (hn : t.walk root (parse cwd).components = some n) :
    ∃ q, p.makeAbsoluteHere debug (some cwd) = .ok q ∧ q.isAbsolute = true ∧
      t.walk root q.components = t.walk n p.components := by
  refine ⟨⟨true, (parse cwd).components ++ p.components⟩, ?_, rfl, ?_⟩
  · simp [Path.makeAbsoluteHere, getcwd_some, Path.makeAbsolute, hp]
  · rw [walk_append, hn]
    rfl

/-- **C118, the text.**  The result is the working directory, a separator, and the path, apart from one trailing separator
of each.  This is so whenever the system's answer is absolute. -/
theorem here_text (debug : Bool) (s cwd : List Byte) (hs : s ≠ []) (hr : s.head? ≠ some slash)
    (hc : cwd.head? = some slash) :
    ∃ q, (parse s).makeAbsoluteHere debug (some cwd) = .ok q ∧
      q.str = dropTrailingSlash cwd ++ slash :: dropTrailingSlash s := by
  have ha : (parse s).isAbsolute = false := by
    rw [Bool.eq_false_iff, Ne, parse_isAbsolute]
    exact hr
  have hb := (parse_isAbsolute cwd).2 hc
  refine ⟨⟨true, (parse cwd).components ++ (parse s).components⟩, ?_, ?_⟩
  · simp [Path.makeAbsoluteHere, getcwd_some, Path.makeAbsolute, ha]
  · have h1 := str_parse cwd
    have h2 := str_parse s
    simp only [Path.str, hb] at h1
    simp only [Path.str, ha] at h2
    simp only [Path.str]
    rw [strLoop_append, h1, strLoop_true (parse_components_ne hs hr), h2]

/-- **C118 fails if the answer is not absolute**, as the system's answer is for a directory that cannot be reached from the
root (`(unreachable)/…`): the result says that it is absolute, and names something beneath the root. -/
theorem here_unreachable (debug : Bool) (s cwd : List Byte) (hs : s ≠ []) (hr : s.head? ≠ some slash)
    (hc : cwd.head? ≠ some slash) (hne : cwd ≠ []) :
    ∃ q, (parse s).makeAbsoluteHere debug (some cwd) = .ok q ∧ q.isAbsolute = true ∧
      q.str = slash :: dropTrailingSlash cwd ++ slash :: dropTrailingSlash s := by
  have ha : (parse s).isAbsolute = false := by
    rw [Bool.eq_false_iff, Ne, parse_isAbsolute]
    exact hr
  have hb : (parse cwd).isAbsolute = false := by
    rw [Bool.eq_false_iff, Ne, parse_isAbsolute]
    exact hc
  refine ⟨⟨true, (parse cwd).components ++ (parse s).components⟩, ?_, rfl, ?_⟩
  · simp [Path.makeAbsoluteHere, getcwd_some, Path.makeAbsolute, ha]
  · have h1 := str_parse cwd
    have h2 := str_parse s
    simp only [Path.str, hb] at h1
    simp only [Path.str, ha] at h2
    simp only [Path.str]
    rw [strLoop_append, strLoop_true (parse_components_ne hne hc), h1, strLoop_true (parse_components_ne hs hr), h2]

/-- **C118, how the call ends.**  It is undefined exactly if the system gives no working directory, whatever the path; it
ends the program exactly if assertions are compiled in and the path is absolute already; and returns otherwise. -/
theorem here_ends_iff (debug : Bool) (p : Path) (cwd : Option (List Byte)) :
    (p.makeAbsoluteHere debug cwd = .ub ↔ cwd = none) ∧
    (p.makeAbsoluteHere debug cwd = .abort ↔ cwd ≠ none ∧ debug = true ∧ p.isAbsolute = true) ∧
    p.makeAbsoluteHere debug cwd ≠ .throws := by
  cases cwd with
  | none => simp [Path.makeAbsoluteHere, getcwd]
  | some s =>
    simp only [Path.makeAbsoluteHere, getcwd_some, Path.makeAbsolute]
    cases debug <;> cases p.isAbsolute <;> simp

/-! ### Examples -/

/-- In `/home/u`, `x/y/` becomes `/home/u/x/y`; in the root, `x` becomes `/x`. -/
example : (∃ q, (parse (txt "x/y/")).makeAbsoluteHere true (some (txt "/home/u")) = .ok q ∧ q.str = txt "/home/u/x/y") ∧
    (∃ q, (parse (txt "x")).makeAbsoluteHere false (some (txt "/")) = .ok q ∧ q.str = txt "/x") :=
  ⟨here_text true (txt "x/y/") (txt "/home/u") (by decide) (by decide) (by decide),
   here_text false (txt "x") (txt "/") (by decide) (by decide) (by decide)⟩

example : ∃ q, (parse (txt "x")).makeAbsoluteHere true (some (txt "(unreachable)/a")) = .ok q ∧ q.isAbsolute = true ∧
    q.str = txt "/(unreachable)/a/x" :=
  here_unreachable true (txt "x") (txt "(unreachable)/a") (by decide) (by decide) (by decide) (by decide)

/-- In the tree of all names, in the directory `/a/b`, the path `../c`. -/
example : ∃ q, (⟨false, [txt "..", txt "c"]⟩ : Path).makeAbsoluteHere true (some (txt "/a/b")) = .ok q ∧ q.isAbsolute = true ∧
    freeTree.walk (0, []) q.components = freeTree.walk (0, [txt "b", txt "a"]) [txt "..", txt "c"] := by
  refine here_same_file_partial true _ rfl (txt "/a/b") freeTree (0, []) (0, [txt "b", txt "a"]) ?_
  have h : parse (txt "/a/b") = ⟨true, [txt "a", txt "b"]⟩ := parse_str ⟨true, [txt "a", txt "b"]⟩ (by decide) ⟨_, rfl, by decide⟩ (.inl rfl)
  rw [h]
  exact free_walk_clean [txt "a", txt "b"] (by decide) []

end Verif.Path
