import Verif.Basic

/-!
# Paths (model of `include/process_sandbox/path.h`)
-/

namespace Verif.Path

/-- The character `'/'` (`include/process_sandbox/path.h:40`). -/
abbrev slash : Byte := 47
/-- The character `'\\'` (`include/process_sandbox/path.h:49`). -/
abbrev backslash : Byte := 92
/-- The string `".."` (`include/process_sandbox/path.h:158`). -/
abbrev dotdot : List Byte := [46, 46]

/-- A path component, `std::string` (`include/process_sandbox/path.h:29`). -/
abbrev Comp := List Byte

/-- `class Path`, `include/process_sandbox/path.h:19-29`. -/
structure Path where
  isAbsolute : Bool := false
  components : List Comp := []
  deriving Repr, DecidableEq

/-- `Path::next_separator`, `include/process_sandbox/path.h:34-55`.  The argument is the
text from `cur` to `end`; the result is the offset at which `cur` stops when the function
returns true, and `none` when it returns false. -/
def nextSep : List Byte → Option Nat
  | [] => none
  | c :: cs =>
    if c = slash then some 0
    else
      match cs with
      | [] => none
      | d :: ds =>
        if d = backslash then (nextSep ds).map (· + 2)
        else (nextSep (d :: ds)).map (· + 1)
termination_by l => l.length

/-- A separator that is found lies inside the text (needed for termination of
`splitLoop`; no counterpart in the code). -/
theorem nextSep_lt (s : List Byte) (i : Nat) (h : nextSep s = some i) : i < s.length := by
  fun_induction nextSep s generalizing i with
  | case1 => simp at h
  | case2 => simp at h; simp [← h]
  | case3 => simp at h
  | case4 c hc ds ih =>
    simp only [Option.map_eq_some_iff] at h
    obtain ⟨j, hj, rfl⟩ := h
    have := ih j hj
    simp; omega
  | case5 c hc d ds hd ih =>
    simp only [Option.map_eq_some_iff] at h
    obtain ⟨j, hj, rfl⟩ := h
    have := ih j hj
    simp at this ⊢; omega

/-- The loop of the constructor and the final component,
`include/process_sandbox/path.h:74-85`.  The argument is the text from `begin` (which
equals `next` at every loop test) to `end`. -/
def splitLoop (s : List Byte) : List Comp :=
  match h : nextSep s with
  | some i =>
    have := nextSep_lt s i h
    s.take i :: splitLoop (s.drop (i + 1))
  | none => if s = [] then [] else [s]
termination_by s.length
decreasing_by simp; omega

/-- The constructor on a non-empty view, `include/process_sandbox/path.h:66-86`. -/
def parse (s : List Byte) : Path :=
  match s with
  | c :: cs => if c = slash then ⟨true, splitLoop cs⟩ else ⟨false, splitLoop (c :: cs)⟩
  | [] => ⟨false, splitLoop []⟩

/-- The constructor `Path(std::string_view)`, `include/process_sandbox/path.h:66-86`.
The code reads `*begin` before it knows whether the view is empty.  `after` is the byte
stored after the view's last character, `none` if that byte may not be read (then the
read is undefined behaviour).  If an empty view is followed by `'/'`, `begin` moves past
`end` and the scan leaves the view: undefined behaviour. -/
def ofView (after : Option Byte) (s : List Byte) : Outcome Path :=
  if s = [] then
    match after with
    | none => .ub
    | some b => if b = slash then .ub else .ok (parse [])
  else .ok (parse s)

/-- `Path::Path(component_iterator, component_iterator)`,
`include/process_sandbox/path.h:96-99`: a relative path. -/
def ofComponents (cs : List Comp) : Path := ⟨false, cs⟩

/-- `Path::is_empty`, `include/process_sandbox/path.h:104-107`. -/
def Path.isEmpty (p : Path) : Bool := p.components.isEmpty

/-- The loop of `Path::str`, `include/process_sandbox/path.h:115-124`. -/
def strLoop (insertSlash : Bool) : List Comp → List Byte
  | [] => []
  | c :: cs => (if insertSlash then [slash] else []) ++ c ++ strLoop true cs

/-- `Path::str`, `include/process_sandbox/path.h:112-126`. -/
def Path.str (p : Path) : List Byte := strLoop p.isAbsolute p.components

/-- `Path::remove_empty`, `include/process_sandbox/path.h:141-145`. -/
def Path.removeEmpty (p : Path) : Path :=
  { p with components := p.components.filter (fun c => !(c.length == 0)) }

/-- The loop of `Path::remove_dotdot`, `include/process_sandbox/path.h:156-173`.  `i` is the
position of the iterator `current`; erasing `[parent, current)` removes positions `i-1`
and `i`, after which `current` is at position `i-1`. -/
def removeDotdotLoop (l : List Comp) (i : Nat) : Bool × List Comp :=
  if h : i < l.length then
    if l[i] ≠ dotdot then removeDotdotLoop l (i + 1)
    else if i = 0 then (false, l)
    else removeDotdotLoop (l.take (i - 1) ++ l.drop (i + 1)) (i - 1)
  else (true, l)
termination_by 2 * l.length - i
decreasing_by
  · omega
  · simp; omega

/-- `Path::remove_dotdot`, `include/process_sandbox/path.h:151-175`. -/
def Path.removeDotdot (p : Path) : Bool × Path :=
  let (ok, l) := removeDotdotLoop p.components 0
  (ok, { p with components := l })

/-- `Path::canonicalise`, `include/process_sandbox/path.h:185-189`. -/
def Path.canonicalise (p : Path) : Bool × Path := p.removeEmpty.removeDotdot

/-- `Path::make_absolute`, `include/process_sandbox/path.h:195-202`.  `debug` says whether
`SANDBOX_DEBUG_INVARIANT` is compiled in. -/
def Path.makeAbsolute (debug : Bool) (p base : Path) : Outcome Path :=
  if debug && p.isAbsolute then .abort
  else .ok ⟨true, base.components ++ p.components⟩

end Verif.Path
